import Verif.Lemmas.Contents
import Verif.Sample.World

/-! # C65: at_hash and c_hash as OpenID Connect wants them -/

namespace Goidc.Props

open Spec

variable {lib : Lib} {alg tok h : GoStr}

/-- OpenID Connect Core 3.1.3.6 and 3.3.2.11: the left half of the digest named by the algorithm, in
unpadded base64url. -/
def OidcHash (lib : Lib) (alg tok h : GoStr) : Prop :=
  (∃ p, alg = p ++ b!"256" ∧ h = base64url ((lib.sha256 tok).take 16)) ∨
  (∃ p, alg = p ++ b!"384" ∧ h = base64url ((lib.sha384 tok).take 24)) ∨
  (∃ p, alg = p ++ b!"512" ∧ h = base64url ((lib.sha512 tok).take 32))

theorem suffix_unique {p q a b : GoStr} (h : p ++ a = q ++ b) (hl : a.length = b.length) : a = b :=
  (List.append_inj' h hl).2

theorem base64url_eq (d : GoStr) : base64url d = b64Raw true d := (b64Raw_spec true base64urlAlphabet b64Char_url d).symm
theorem base64_eq (d : GoStr) : Spec.base64 d = b64Raw false d ++ padding (b64Raw false d).length := by
  rw [← b64Encode_std_spec, b64Encode_eq]

theorem raw_lengths (d : GoStr) : (b64Raw true d).length = (b64Raw false d).length := by
  rw [b64Raw_length, b64Raw_length]

/-- Padded values are never unpadded ones. -/
theorem base64_padded {d : GoStr} (hl : d.length % 3 ≠ 0) (e : GoStr) : Spec.base64 d ≠ base64url e := by
  intro h
  have hp : 61 ∈ Spec.base64 d := by
    rw [base64_eq, b64Raw_length]
    refine List.mem_append_right _ ?_
    unfold padding
    rw [List.mem_replicate]
    exact ⟨by omega, rfl⟩
  rw [h, base64url_eq] at hp
  exact b64Raw_no_pad true e hp

/-- C65 fails for every algorithm of the 256 and 512 families: whatever the token and whatever the
digest, the value computed is not the one OpenID Connect asks for. -/
theorem C65_false (ha : (∃ p, alg = p ++ b!"256") ∨ ∃ p, alg = p ++ b!"512")
    (hh : IdToken.hash lib alg tok = some h) : ¬ OidcHash lib alg tok h := by
  have hs := (hash_spec hh).1
  rintro (⟨q, hq, hv⟩ | ⟨q, hq, hv⟩ | ⟨q, hq, hv⟩)
  · rcases hs with ⟨p, _, h2⟩ | ⟨p, hp, _⟩ | ⟨p, hp, _⟩
    · exact base64_padded (by simp [lib.sha256_length]) _ (h2.symm.trans hv)
    · exact absurd (suffix_unique (hp.symm.trans hq) rfl) (by decide)
    · exact absurd (suffix_unique (hp.symm.trans hq) rfl) (by decide)
  · rcases ha with ⟨p, hp⟩ | ⟨p, hp⟩ <;> exact absurd (suffix_unique (hp.symm.trans hq) rfl) (by decide)
  · rcases hs with ⟨p, hp, _⟩ | ⟨p, hp, _⟩ | ⟨p, _, h2⟩
    · exact absurd (suffix_unique (hp.symm.trans hq) rfl) (by decide)
    · exact absurd (suffix_unique (hp.symm.trans hq) rfl) (by decide)
    · exact base64_padded (by simp [lib.sha512_length]) _ (h2.symm.trans hv)

theorem char_cases : ∀ n < 64, b64Char false n = b64Char true n ∨
    ((b64Char false n = 43 ∨ b64Char false n = 47) ∧ b64Char true n ≠ 43 ∧ b64Char true n ≠ 47) := by decide
theorem char_url : ∀ n < 64, b64Char true n ≠ 43 ∧ b64Char true n ≠ 47 := by decide

theorem raw_eq_iff (d : GoStr) : b64Raw false d = b64Raw true d ↔ 43 ∉ b64Raw false d ∧ 47 ∉ b64Raw false d := by
  constructor
  · intro he
    rw [he]
    constructor <;> intro hm
    · obtain ⟨n, hn, hc⟩ := b64Raw_mem true d _ hm
      exact (char_url n hn).1 hc.symm
    · obtain ⟨n, hn, hc⟩ := b64Raw_mem true d _ hm
      exact (char_url n hn).2 hc.symm
  · have key : ∀ n < 64, b64Char false n ≠ 43 → b64Char false n ≠ 47 → b64Char false n = b64Char true n := by decide
    rw [b64Raw_spec false base64Alphabet b64Char_std, b64Raw_spec true base64urlAlphabet b64Char_url]
    have hlt : ∀ l : List Bool, ∀ n ∈ sextets l, n < 64 := by
      intro l
      induction l using sextets.induct with
      | case1 => simp [sextets]
      | case2 a => cases a <;> decide
      | case3 a b => cases a <;> cases b <;> decide
      | case4 a b c => cases a <;> cases b <;> cases c <;> decide
      | case5 a b c d => cases a <;> cases b <;> cases c <;> cases d <;> decide
      | case6 a b c d e => cases a <;> cases b <;> cases c <;> cases d <;> cases e <;> decide
      | case7 a b c d e f rest ih =>
        intro n hn
        simp only [sextets, List.mem_cons] at hn
        rcases hn with rfl | hn
        · cases a <;> cases b <;> cases c <;> cases d <;> cases e <;> cases f <;> decide
        · exact ih n hn
    intro ⟨h1, h2⟩
    unfold base64Raw at *
    refine List.map_congr_left fun n hn => ?_
    have hn64 := hlt _ n hn
    rw [← b64Char_std n hn64, ← b64Char_url n hn64]
    apply key n hn64
    · intro hc
      exact h1 (List.mem_map.2 ⟨n, hn, by rw [← b64Char_std n hn64, hc]⟩)
    · intro hc
      exact h2 (List.mem_map.2 ⟨n, hn, by rw [← b64Char_std n hn64, hc]⟩)

/-- C65 for the 384 family: the value is the required one exactly when it contains no `+` and no `/`. -/
theorem C65_384_partial (ha : ∃ p, alg = p ++ b!"384") (hh : IdToken.hash lib alg tok = some h) :
    OidcHash lib alg tok h ↔ 43 ∉ h ∧ 47 ∉ h := by
  have hs := (hash_spec hh).1
  obtain ⟨p0, hp0⟩ := ha
  have hv : h = b64Raw false ((lib.sha384 tok).take 24) := by
    rcases hs with ⟨p, hp, _⟩ | ⟨p, _, h2⟩ | ⟨p, hp, _⟩
    · exact absurd (suffix_unique (hp.symm.trans hp0) rfl) (by decide)
    · rw [h2, base64_eq]
      simp [b64Raw_length, lib.sha384_length, padding]
    · exact absurd (suffix_unique (hp.symm.trans hp0) rfl) (by decide)
  have hiff : OidcHash lib alg tok h ↔ h = b64Raw true ((lib.sha384 tok).take 24) := by
    rw [← base64url_eq]
    constructor
    · rintro (⟨p, hp, _⟩ | ⟨p, _, h2⟩ | ⟨p, hp, _⟩)
      · exact absurd (suffix_unique (hp.symm.trans hp0) rfl) (by decide)
      · exact h2
      · exact absurd (suffix_unique (hp.symm.trans hp0) rfl) (by decide)
    · exact fun h2 => .inr (.inl ⟨p0, hp0, h2⟩)
  rw [hiff, hv]
  exact raw_eq_iff _

/-- C65: a hash is computed exactly for algorithms ending in 256, 384 or 512. -/
theorem C65_defined_iff : (∃ h, IdToken.hash lib alg tok = some h) ↔
    ∃ p, alg = p ++ b!"256" ∨ alg = p ++ b!"384" ∨ alg = p ++ b!"512" := by
  constructor
  · rintro ⟨h, hh⟩
    rcases (hash_spec hh).1 with ⟨p, hp, _⟩ | ⟨p, hp, _⟩ | ⟨p, hp, _⟩
    · exact ⟨p, .inl hp⟩
    · exact ⟨p, .inr (.inl hp)⟩
    · exact ⟨p, .inr (.inr hp)⟩
  · rintro ⟨p, h⟩
    have hsuf : ∀ s : GoStr, hasSuffix (p ++ s) s = true := by
      intro s
      unfold hasSuffix
      simp
    unfold IdToken.hash
    rcases h with rfl | rfl | rfl
    · rw [if_pos (hsuf _)]; exact ⟨_, rfl⟩
    · split
      · exact ⟨_, rfl⟩
      · rw [if_pos (hsuf _)]; exact ⟨_, rfl⟩
    · split
      · exact ⟨_, rfl⟩
      · split
        · exact ⟨_, rfl⟩
        · rw [if_pos (hsuf _)]; exact ⟨_, rfl⟩

/-- Hashes exist in all three families, and one of the 384 family that is the required one. -/
example : (IdToken.hash Sample.lib b!"HS256" b!"at").isSome = true ∧
    (IdToken.hash Sample.lib b!"RS512" b!"at").isSome = true ∧
    ∃ h, IdToken.hash Sample.lib b!"ES384" b!"at" = some h ∧ OidcHash Sample.lib b!"ES384" b!"at" h := by
  refine ⟨by decide +kernel, by decide +kernel, b!"BwcHBwcHBwcHBwcHBwcHBwcHBwcHBwcH", by decide +kernel, ?_⟩
  exact (C65_384_partial ⟨b!"ES", rfl⟩ (by decide +kernel)).2 (by decide)

end Goidc.Props
