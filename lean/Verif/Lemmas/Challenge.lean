import Verif.Spec.Challenge
import Verif.Lemmas.Utf8
import Verif.Lemmas.Escape
import Verif.Model.OAuthError

/-! # strconv.Quote and quoted strings -/

namespace Goidc

open Spec

theorem hexLower_safe {n : Nat} (h : n < 16) : 48 ≤ (hexLower n).toNat ∧ (hexLower n).toNat ≤ 102 ∧
    hexLower n ≠ 34 ∧ hexLower n ≠ 92 := by
  have : ∀ n < 16, 48 ≤ (hexLower n).toNat ∧ (hexLower n).toNat ≤ 102 ∧ hexLower n ≠ 34 ∧ hexLower n ≠ 92 := by decide
  exact this n h

/-- Text that stands for itself. -/
theorem qchars_plain : ∀ (p : GoStr) {raw s : GoStr}, (∀ c ∈ p, IsQdtext c) → QChars raw s →
    QChars (p ++ raw) (p ++ s)
  | [], _, _, _, h => h
  | c :: p, _, _, hp, h =>
    .plain (hp c List.mem_cons_self) (qchars_plain p (fun x hx => hp x (List.mem_cons_of_mem _ hx)) h)

theorem qdtext_of_range {c : UInt8} (h1 : 32 ≤ c.toNat) (h2 : c.toNat ≠ 127) (h3 : c ≠ 34) (h4 : c ≠ 92) : IsQdtext c := by
  by_cases h : c.toNat ≤ 126
  · exact .inr (.inl ⟨h1, h, h3, h4⟩)
  · exact .inr (.inr (by omega))

theorem utf8_high {cp : Nat} (h : IsScalar cp) (hlo : 128 ≤ cp) : ∀ c ∈ utf8 cp, 128 ≤ c.toNat := by
  unfold IsScalar at h
  unfold utf8
  intro c hc
  rw [if_neg (by omega)] at hc
  split at hc
  · simp only [List.mem_cons, List.not_mem_nil, or_false] at hc
    rcases hc with rfl | rfl <;> rw [toNat_ofNat_lt (by omega)] <;> omega
  · split at hc
    · simp only [List.mem_cons, List.not_mem_nil, or_false] at hc
      rcases hc with rfl | rfl | rfl <;> rw [toNat_ofNat_lt (by omega)] <;> omega
    · simp only [List.mem_cons, List.not_mem_nil, or_false] at hc
      rcases hc with rfl | rfl | rfl | rfl <;> rw [toNat_ofNat_lt (by omega)] <;> omega

/-- A printable character is written as itself or as a quoted pair. -/
theorem quoteChunk_printable {isPrint : Nat → Bool} {cp : Nat} (h : IsScalar cp)
    (hp : (32 ≤ cp ∧ cp < 127) ∨ (128 ≤ cp ∧ isPrint cp = true)) {raw s : GoStr} (hr : QChars raw s) :
    QChars (quoteChunk isPrint (some cp, utf8 cp) ++ raw) (utf8 cp ++ s) := by
  unfold quoteChunk
  dsimp only
  split
  · rename_i h1; subst h1
    exact .pair (.inr (.inl (by decide))) hr
  split
  · rename_i h1; subst h1
    exact .pair (.inr (.inl (by decide))) hr
  refine qchars_plain _ ?_ hr
  intro c hc
  rename_i h34 h92
  by_cases hlo : 128 ≤ cp
  · exact .inr (.inr (utf8_high h hlo c hc))
  · unfold utf8 at hc
    rw [if_pos (by omega)] at hc
    simp only [List.mem_singleton] at hc
    subst hc
    have e := toNat_ofNat_lt (n := cp) (by omega)
    refine qdtext_of_range (by omega) (by omega) ?_ ?_
    · intro hh; have := congrArg UInt8.toNat hh; rw [e] at this; exact h34 this
    · intro hh; have := congrArg UInt8.toNat hh; rw [e] at this; exact h92 this

/-- The quoted form of a printable string has that string as its value. -/
theorem quote_printable {isPrint : Nat → Bool} {s : GoStr} (h : Printable isPrint s) :
    QuotedString (quote isPrint s) s := by
  obtain ⟨cps, rfl, hp⟩ := h
  refine ⟨_, rfl, ?_⟩
  rw [runes_encode cps fun cp hc => (hp cp hc).1]
  induction cps with
  | nil => exact .nil
  | cons cp cps ih =>
    rw [List.map_cons, List.flatMap_cons, List.flatMap_cons]
    obtain ⟨h1, h2⟩ := hp cp List.mem_cons_self
    exact quoteChunk_printable h1 h2 (ih fun x hx => hp x (List.mem_cons_of_mem _ hx))

theorem hexDigits_qd : ∀ k n, ∀ c ∈ hexDigits k n, IsQdtext c
  | 0, _, c, h => by cases h
  | k + 1, n, c, h => by
    simp only [hexDigits, List.mem_append, List.mem_singleton] at h
    rcases h with h | rfl
    · exact hexDigits_qd k _ c h
    · obtain ⟨h1, h2, h3, h4⟩ := hexLower_safe (n := n % 16) (by omega)
      exact qdtext_of_range (by omega) (by omega) h3 h4

/-- An escape sequence reads as a quoted pair followed by text. -/
theorem qchars_escape {c : UInt8} {p raw s : GoStr} (hc : IsQuotable c) (hp : ∀ x ∈ p, IsQdtext x) (hr : QChars raw s) :
    QChars ((92 :: c :: p) ++ raw) (c :: p ++ s) := .pair hc (qchars_plain p hp hr)

theorem hex2_qd {n : Nat} (h : n < 256) : ∀ c ∈ [hexLower (n / 16), hexLower (n % 16)], IsQdtext c := by
  intro c hc
  simp only [List.mem_cons, List.not_mem_nil, or_false] at hc
  rcases hc with rfl | rfl
  · obtain ⟨h1, h2, h3, h4⟩ := hexLower_safe (n := n / 16) (by omega)
    exact qdtext_of_range (by omega) (by omega) h3 h4
  · obtain ⟨h1, h2, h3, h4⟩ := hexLower_safe (n := n % 16) (by omega)
    exact qdtext_of_range (by omega) (by omega) h3 h4

/-- Whatever the chunk, what `Quote` writes for it is text of a quoted string. -/
theorem quoteChunk_any {isPrint : Nat → Bool} {r : Option Nat} {b : GoStr}
    (hv : ∀ cp, r = some cp → IsScalar cp ∧ b = utf8 cp)
    {raw s : GoStr} (hr : QChars raw s) : ∃ s', QChars (quoteChunk isPrint (r, b) ++ raw) s' := by
  cases r with
  | none =>
    unfold quoteChunk
    dsimp only
    cases b with
    | nil => exact ⟨s, hr⟩
    | cons a b =>
      exact ⟨_, qchars_escape (.inr (.inl (by decide))) (hex2_qd a.toNat_lt) hr⟩
  | some cp =>
    obtain ⟨hsc, rfl⟩ := hv cp rfl
    by_cases hp : (32 ≤ cp ∧ cp < 127) ∨ (128 ≤ cp ∧ isPrint cp = true)
    · exact ⟨_, quoteChunk_printable hsc hp hr⟩
    · unfold quoteChunk
      dsimp only
      rw [if_neg (by omega), if_neg (by omega), if_neg hp]
      split
      · exact ⟨_, qchars_escape (p := []) (.inr (.inl (by decide))) (by simp) hr⟩
      split
      · exact ⟨_, qchars_escape (p := []) (.inr (.inl (by decide))) (by simp) hr⟩
      split
      · exact ⟨_, qchars_escape (p := []) (.inr (.inl (by decide))) (by simp) hr⟩
      split
      · exact ⟨_, qchars_escape (p := []) (.inr (.inl (by decide))) (by simp) hr⟩
      split
      · exact ⟨_, qchars_escape (p := []) (.inr (.inl (by decide))) (by simp) hr⟩
      split
      · exact ⟨_, qchars_escape (p := []) (.inr (.inl (by decide))) (by simp) hr⟩
      split
      · exact ⟨_, qchars_escape (p := []) (.inr (.inl (by decide))) (by simp) hr⟩
      split
      · exact ⟨_, qchars_escape (.inr (.inl (by decide))) (hex2_qd (by omega)) hr⟩
      split
      · exact ⟨_, qchars_escape (.inr (.inl (by decide))) (hexDigits_qd 4 cp) hr⟩
      · exact ⟨_, qchars_escape (.inr (.inl (by decide))) (hexDigits_qd 8 cp) hr⟩

/-- Whatever the string, its quoted form is a quoted string. -/
theorem quote_quoted (isPrint : Nat → Bool) (s : GoStr) : ∃ v, QuotedString (quote isPrint s) v := by
  suffices ∃ v, QChars ((runes s).flatMap (quoteChunk isPrint)) v from this.imp fun v h => ⟨_, rfl, h⟩
  induction s using runes_induction with
  | hnil => exact ⟨[], .nil⟩
  | hvalid cp rest h ih =>
    obtain ⟨v, hv⟩ := ih
    rw [runes_utf8 h, List.flatMap_cons]
    exact quoteChunk_any (fun x hx => by cases hx; exact ⟨h, rfl⟩) hv
  | hinvalid a rest h ih =>
    obtain ⟨v, hv⟩ := ih
    rw [runes_invalid h, List.flatMap_cons]
    exact quoteChunk_any (fun x hx => by cases hx) hv

/-- The value of a quoted text is unique, and contains no closing quote. -/
theorem qchars_unique {raw raw' s s' t t' : GoStr} (h : QChars raw s) (h' : QChars raw' s')
    (he : raw ++ 34 :: t = raw' ++ 34 :: t') : raw = raw' ∧ s = s' ∧ t = t' := by
  have not34 : ∀ c : UInt8, IsQdtext c → c ≠ 34 ∧ c ≠ 92 := by
    rintro c (rfl | ⟨_, _, h1, h2⟩ | h)
    · decide
    · exact ⟨h1, h2⟩
    · constructor <;> (rintro rfl; revert h; decide)
  induction h generalizing raw' s' with
  | nil =>
    cases h' with
    | nil => exact ⟨rfl, rfl, (List.cons.inj he).2⟩
    | plain hc _ => exact absurd (List.cons.inj he).1.symm (not34 _ hc).1
    | pair _ _ => exact absurd (List.cons.inj he).1 (by decide)
  | plain hc _ ih =>
    cases h' with
    | nil => exact absurd (List.cons.inj he).1 (not34 _ hc).1
    | plain hc' hr' =>
      obtain ⟨h1, h2⟩ := List.cons.inj he
      subst h1
      obtain ⟨rfl, rfl, rfl⟩ := ih hr' h2
      exact ⟨rfl, rfl, rfl⟩
    | pair _ _ => exact absurd (List.cons.inj he).1 (not34 _ hc).2
  | pair _ _ ih =>
    cases h' with
    | nil => exact absurd (List.cons.inj he).1 (by decide)
    | plain hc' _ => exact absurd (List.cons.inj he).1.symm (not34 _ hc').2
    | pair _ hr' =>
      obtain ⟨_, h1⟩ := List.cons.inj he
      obtain ⟨h1, h2⟩ := List.cons.inj h1
      subst h1
      obtain ⟨rfl, rfl, rfl⟩ := ih hr' h2
      exact ⟨rfl, rfl, rfl⟩

/-- Every character written by `Quote` is safe in a header. -/
theorem quoteChunk_safe {isPrint : Nat → Bool} {r : Option Nat} {b : GoStr}
    (hv : ∀ cp, r = some cp → IsScalar cp ∧ b = utf8 cp) : HeaderSafe (quoteChunk isPrint (r, b)) := by
  have hx : ∀ n < 16, 32 ≤ (hexLower n).toNat ∧ (hexLower n).toNat ≠ 127 := fun n hn => by
    obtain ⟨h1, h2, _⟩ := hexLower_safe hn; omega
  have hds : ∀ k n, HeaderSafe (hexDigits k n) := by
    intro k
    induction k with
    | zero => intro n c hc; cases hc
    | succ k ih =>
      intro n c hc
      simp only [hexDigits, List.mem_append, List.mem_singleton] at hc
      rcases hc with hc | rfl
      · exact ih _ c hc
      · exact hx _ (by omega)
  cases r with
  | none =>
    unfold quoteChunk
    dsimp only
    cases b with
    | nil => intro c hc; cases hc
    | cons a b =>
      have := a.toNat_lt
      intro c hc
      rcases List.mem_append.1 hc with hc | hc
      · exact (show ∀ c ∈ b!"\\x", 32 ≤ c.toNat ∧ c.toNat ≠ 127 by decide) c hc
      · rcases List.mem_cons.1 hc with rfl | hc
        · exact hx _ (by omega)
        · rcases List.mem_cons.1 hc with rfl | hc
          · exact hx _ (by omega)
          · cases hc
  | some cp =>
    obtain ⟨hsc, rfl⟩ := hv cp rfl
    have e1 : HeaderSafe b!"\\\"" := by unfold HeaderSafe; decide
    have e2 : HeaderSafe b!"\\\\" := by unfold HeaderSafe; decide
    have e3 : HeaderSafe b!"\\a" := by unfold HeaderSafe; decide
    have e4 : HeaderSafe b!"\\b" := by unfold HeaderSafe; decide
    have e5 : HeaderSafe b!"\\f" := by unfold HeaderSafe; decide
    have e6 : HeaderSafe b!"\\n" := by unfold HeaderSafe; decide
    have e7 : HeaderSafe b!"\\r" := by unfold HeaderSafe; decide
    have e8 : HeaderSafe b!"\\t" := by unfold HeaderSafe; decide
    have e9 : HeaderSafe b!"\\v" := by unfold HeaderSafe; decide
    have ap : ∀ a b : GoStr, HeaderSafe a → HeaderSafe b → HeaderSafe (a ++ b) := by
      intro a b ha hb c hc
      rcases List.mem_append.1 hc with hc | hc
      · exact ha c hc
      · exact hb c hc
    have it : ∀ {c : Prop} [Decidable c] {a b : GoStr}, (c → HeaderSafe a) → (¬ c → HeaderSafe b) →
        HeaderSafe (if c then a else b) := by
      intro c _ a b ha hb
      by_cases hc : c
      · rw [if_pos hc]; exact ha hc
      · rw [if_neg hc]; exact hb hc
    unfold quoteChunk
    refine it (fun _ => e1) fun _ => it (fun _ => e2) fun _ => it (fun hp => ?_) fun _ => it (fun _ => e3) fun _ =>
      it (fun _ => e4) fun _ => it (fun _ => e5) fun _ => it (fun _ => e6) fun _ => it (fun _ => e7) fun _ =>
      it (fun _ => e8) fun _ => it (fun _ => e9) fun _ => it (fun hlt => ?_) fun _ => it (fun _ => ?_) fun _ => ?_
    · intro c hc
      by_cases hlo : 128 ≤ cp
      · have := utf8_high hsc hlo c hc; omega
      · unfold utf8 at hc
        rw [if_pos (by omega)] at hc
        simp only [List.mem_singleton] at hc
        subst hc
        rw [toNat_ofNat_lt (by omega)]
        omega
    · refine ap _ _ (by unfold HeaderSafe; decide) ?_
      intro c hc
      simp only [List.mem_cons, List.not_mem_nil, or_false] at hc
      rcases hc with rfl | rfl <;> exact hx _ (by omega)
    · exact ap _ _ (by unfold HeaderSafe; decide) (hds 4 cp)
    · exact ap _ _ (by unfold HeaderSafe; decide) (hds 8 cp)

theorem quote_safe (isPrint : Nat → Bool) (s : GoStr) : HeaderSafe (quote isPrint s) := by
  have key : ∀ c ∈ runes s, HeaderSafe (quoteChunk isPrint c) := by
    induction s using runes_induction with
    | hnil => intro c hc; cases hc
    | hvalid cp rest h ih =>
      rw [runes_utf8 h]
      intro c hc
      rcases List.mem_cons.1 hc with rfl | hc
      · exact quoteChunk_safe fun x hx => by cases hx; exact ⟨h, rfl⟩
      · exact ih c hc
    | hinvalid a rest h ih =>
      rw [runes_invalid h]
      intro c hc
      rcases List.mem_cons.1 hc with rfl | hc
      · exact quoteChunk_safe fun x hx => by cases hx
      · exact ih c hc
  intro c hc
  unfold quote at hc
  simp only [List.mem_cons, List.mem_append, List.not_mem_nil, or_false, List.mem_flatMap] at hc
  rcases hc with rfl | ⟨x, hx, hc⟩ | rfl
  · decide
  · exact key x hx c hc
  · decide

/-- Parameters joined with ", ". -/
theorem authParams_join : ∀ l : List (GoStr × GoStr × GoStr), l ≠ [] → (∀ x ∈ l, AuthParam x.1 x.2.1 x.2.2) →
    AuthParams (joinStr b!", " (l.map (·.1))) (l.map (·.2))
  | [], h, _ => absurd rfl h
  | [x], _, h => .one (h x List.mem_cons_self)
  | x :: y :: l, _, h => by
    have ih := authParams_join (y :: l) (by simp) fun z hz => h z (List.mem_cons_of_mem _ hz)
    have := AuthParams.cons (w := [32]) (h x List.mem_cons_self) (by simp) ih
    simpa [joinStr] using this

end Goidc

namespace Goidc

open Spec

theorem quotedString_unique {q q' v v' t t' : GoStr} (h : QuotedString q v) (h' : QuotedString q' v')
    (he : q ++ t = q' ++ t') : q = q' ∧ v = v' ∧ t = t' := by
  obtain ⟨raw, rfl, hr⟩ := h
  obtain ⟨raw', rfl, hr'⟩ := h'
  simp only [List.cons_append, List.append_assoc, List.nil_append] at he
  obtain ⟨rfl, rfl, rfl⟩ := qchars_unique hr hr' (List.cons.inj he).2
  exact ⟨rfl, rfl, rfl⟩

theorem name_unique : ∀ {n n' t t' : GoStr}, (∀ c ∈ n, IsNameChar c) → (∀ c ∈ n', IsNameChar c) →
    n ++ 61 :: t = n' ++ 61 :: t' → n = n' ∧ t = t' := by
  have no : ¬ IsNameChar 61 := by unfold IsNameChar; decide
  intro n
  induction n with
  | nil =>
    intro n' t t' _ h' he
    cases n' with
    | nil => exact ⟨rfl, (List.cons.inj he).2⟩
    | cons a n' =>
      have := (List.cons.inj he).1
      subst this
      exact absurd (h' _ List.mem_cons_self) no
  | cons a n ih =>
    intro n' t t' h h' he
    cases n' with
    | nil =>
      have := (List.cons.inj he).1
      subst this
      exact absurd (h _ List.mem_cons_self) no
    | cons b n' =>
      obtain ⟨rfl, h2⟩ := List.cons.inj he
      obtain ⟨rfl, rfl⟩ := ih (fun c hc => h c (List.mem_cons_of_mem _ hc))
        (fun c hc => h' c (List.mem_cons_of_mem _ hc)) h2
      exact ⟨rfl, rfl⟩

theorem authParam_unique {x x' n n' v v' t t' : GoStr} (h : AuthParam x n v) (h' : AuthParam x' n' v')
    (he : x ++ t = x' ++ t') : n = n' ∧ v = v' ∧ t = t' := by
  obtain ⟨q, _, hn, hq, rfl⟩ := h
  obtain ⟨q', _, hn', hq', rfl⟩ := h'
  simp only [List.append_assoc, List.cons_append] at he
  obtain ⟨rfl, h2⟩ := name_unique hn hn' he
  obtain ⟨rfl, rfl, rfl⟩ := quotedString_unique hq hq' h2
  exact ⟨rfl, rfl, rfl⟩

theorem authParams_head {t : GoStr} {l : List (GoStr × GoStr)} (h : AuthParams t l) : t.head? ≠ some 32 := by
  have no : ¬ IsNameChar 32 := by unfold IsNameChar; decide
  have key : ∀ {x n v : GoStr} (s : GoStr), AuthParam x n v → (x ++ s).head? ≠ some 32 := by
    rintro x n v s ⟨q, h1, h2, _, rfl⟩
    cases n with
    | nil => exact absurd rfl h1
    | cons a n =>
      intro hh
      simp only [List.cons_append, List.head?_cons, Option.some.injEq] at hh
      subst hh
      exact no (h2 _ List.mem_cons_self)
  cases h with
  | one h => simpa using key [] h
  | cons h _ _ => exact key _ h

theorem spaces_unique : ∀ {w w' t t' : GoStr}, (∀ c ∈ w, c = 32) → (∀ c ∈ w', c = 32) → t.head? ≠ some 32 →
    t'.head? ≠ some 32 → w ++ t = w' ++ t' → t = t' := by
  intro w
  induction w with
  | nil =>
    intro w' t t' _ h' ht _ he
    cases w' with
    | nil => exact he
    | cons a w' =>
      have := h' a List.mem_cons_self
      subst this
      exact absurd (by rw [show t = _ from he]; rfl) ht
  | cons a w ih =>
    intro w' t t' h h' ht ht' he
    cases w' with
    | nil =>
      have := h a List.mem_cons_self
      subst this
      exact absurd (by rw [← show _ = t' from he]; rfl) ht'
    | cons b w' =>
      exact ih (fun c hc => h c (List.mem_cons_of_mem _ hc)) (fun c hc => h' c (List.mem_cons_of_mem _ hc)) ht ht'
        (List.cons.inj he).2

theorem authParams_unique {t t' : GoStr} {l l' : List (GoStr × GoStr)} (h : AuthParams t l) (h' : AuthParams t' l')
    (he : t = t') : l = l' := by
  induction h generalizing t' l' with
  | one h =>
    cases h' with
    | one h' =>
      obtain ⟨rfl, rfl, _⟩ := authParam_unique (t := []) (t' := []) h h' (by simpa using he)
      rfl
    | cons h' _ _ =>
      obtain ⟨_, _, h3⟩ := authParam_unique (t := []) h h' (by simpa using he)
      cases h3
  | cons h hw hr ih =>
    cases h' with
    | one h' =>
      obtain ⟨_, _, h3⟩ := authParam_unique (t' := []) h h' (by simpa using he)
      cases h3
    | cons h' hw' hr' =>
      obtain ⟨rfl, rfl, h3⟩ := authParam_unique h h' he
      rw [ih hr' (spaces_unique hw hw' (authParams_head hr) (authParams_head hr') (List.cons.inj h3).2)]

/-- A header value is a challenge in one way only. -/
theorem challenge_unique {t s s' : GoStr} {l l' : List (GoStr × GoStr)} (h : Challenge t s l) (h' : Challenge t s' l') :
    s = s' ∧ l = l' := by
  obtain ⟨u, he, hs, hu⟩ := h
  obtain ⟨u', he', hs', hu'⟩ := h'
  have key : ∀ {s s' u u' : GoStr}, (∀ c ∈ s, c ≠ 32) → (∀ c ∈ s', c ≠ 32) → s ++ 32 :: u = s' ++ 32 :: u' →
      s = s' ∧ u = u' := by
    intro s
    induction s with
    | nil =>
      intro s' u u' _ h' he
      cases s' with
      | nil => exact ⟨rfl, (List.cons.inj he).2⟩
      | cons a s' => exact absurd (List.cons.inj he).1.symm (h' a List.mem_cons_self)
    | cons a s ih =>
      intro s' u u' h h' he
      cases s' with
      | nil => exact absurd (List.cons.inj he).1 (h a List.mem_cons_self)
      | cons b s' =>
        obtain ⟨rfl, h2⟩ := List.cons.inj he
        obtain ⟨rfl, rfl⟩ := ih (fun c hc => h c (List.mem_cons_of_mem _ hc))
          (fun c hc => h' c (List.mem_cons_of_mem _ hc)) h2
        exact ⟨rfl, rfl⟩
  obtain ⟨rfl, rfl⟩ := key hs hs' (he.symm.trans he')
  exact ⟨rfl, authParams_unique hu hu' rfl⟩

end Goidc
