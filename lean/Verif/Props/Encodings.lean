import Verif.Lemmas.Escape
import Verif.Lemmas.Decimal
import Verif.Model.Pkce
import Verif.Model.TokenEndpoint

/-!
# C52–C54: base64url, PKCE verifiers, Basic authentication helpers
-/

namespace Goidc.Props

open Spec

/-! ## C52 -/

theorem encodeBase64WithoutPadding_eq (d : GoStr) :
    Pkce.encodeBase64WithoutPadding d = b64Raw true d := by
  unfold Pkce.encodeBase64WithoutPadding
  rw [b64Encode_eq]
  obtain ⟨l, hl⟩ := split_replicate_sep 61 (b64Raw true d)
    ((4 - (b64Raw true d).length % 4) % 4) (b64Raw_no_pad true d)
  unfold padding
  rw [hl]

/-- C52: `EncodeBase64WithoutPadding` is RFC 4648 base64url without padding (bit-level
specification). -/
theorem C52_is_base64url (d : GoStr) : Pkce.encodeBase64WithoutPadding d = base64url d := by
  rw [encodeBase64WithoutPadding_eq, b64Raw_spec true base64urlAlphabet b64Char_url]

/-- C52: only characters of the base64url alphabet appear. -/
theorem C52_alphabet (d : GoStr) : ∀ c ∈ Pkce.encodeBase64WithoutPadding d, c ∈ base64urlAlphabet := by
  rw [encodeBase64WithoutPadding_eq]
  intro c hc
  obtain ⟨n, hn, rfl⟩ := b64Raw_mem true d c hc
  clear hc
  revert n
  decide

/-- C52: the length is ⌈4n/3⌉. -/
theorem C52_length (d : GoStr) :
    (Pkce.encodeBase64WithoutPadding d).length = (4 * d.length + 2) / 3 := by
  rw [encodeBase64WithoutPadding_eq, b64Raw_length]

/-- C52: restoring the padding and decoding gives back the bytes. -/
theorem C52_roundtrip (d : GoStr) :
    b64Decode true (Pkce.encodeBase64WithoutPadding d ++
      padding (Pkce.encodeBase64WithoutPadding d).length) = (d, true) := by
  rw [encodeBase64WithoutPadding_eq, ← b64Encode_eq, b64Decode_encode]

/-- C52: distinct inputs have distinct encodings. -/
theorem C52_injective {d e : GoStr}
    (h : Pkce.encodeBase64WithoutPadding d = Pkce.encodeBase64WithoutPadding e) : d = e := by
  have := C52_roundtrip d
  rw [h, C52_roundtrip e] at this
  exact (congrArg Prod.fst this).symm

/-- C52: a generated code verifier (from 32 random bytes) has 43 characters of the alphabet, and
distinct random bytes give distinct verifiers. -/
theorem C52_code_verifier (data : GoStr) (h : data.length = 32) :
    (Pkce.genCodeVerifier data).length = 43 ∧
    (∀ c ∈ Pkce.genCodeVerifier data, c ∈ base64urlAlphabet) ∧
    (∀ data', Pkce.genCodeVerifier data' = Pkce.genCodeVerifier data → data' = data) := by
  unfold Pkce.genCodeVerifier
  exact ⟨by rw [C52_length, h], C52_alphabet data, fun d' hd => C52_injective hd⟩

example : Pkce.encodeBase64WithoutPadding [0xfb, 0xef, 0xff, 0x00] = b!"--__AA" ∧
    base64url b!"Man" = b!"TWFu" := by decide

/-! ## C53 -/

/-- C53: `FindVerifierByMethod` succeeds exactly for the two registered methods. -/
theorem C53_methods (m : GoStr) :
    (Pkce.findVerifierByMethod m).isSome = true ↔ m = b!"plain" ∨ m = b!"S256" := by
  unfold Pkce.findVerifierByMethod Pkce.plain Pkce.s256
  by_cases h1 : m = b!"plain"
  · simp [h1]
  · by_cases h2 : m = b!"S256"
    · simp [h2]
    · simp only [h1, h2, if_false]; simp

/-- C53: the verifier of `plain` accepts iff challenge and verifier are equal. -/
theorem C53_plain (lib : Lib) (v : Pkce.Verifier) (h : Pkce.findVerifierByMethod b!"plain" = some v)
    (challenge verifier : GoStr) : v.verify lib challenge verifier = true ↔ challenge = verifier := by
  have : v = .plain := by
    have h' : Pkce.findVerifierByMethod b!"plain" = some .plain := by decide
    rw [h'] at h; exact (Option.some.inj h).symm
  subst this
  simp [Pkce.Verifier.verify]

/-- C53: the verifier of `S256` accepts iff the challenge is the unpadded base64url encoding of the
SHA-256 of the verifier. -/
theorem C53_s256 (lib : Lib) (v : Pkce.Verifier) (h : Pkce.findVerifierByMethod b!"S256" = some v)
    (challenge verifier : GoStr) :
    v.verify lib challenge verifier = true ↔ challenge = base64url (lib.sha256 verifier) := by
  have : v = .s256 := by
    have h' : Pkce.findVerifierByMethod b!"S256" = some .s256 := by decide
    rw [h'] at h; exact (Option.some.inj h).symm
  subst this
  simp only [Pkce.Verifier.verify, Pkce.s256Encode, C52_is_base64url, beq_iff_eq]
  exact eq_comm

example : Pkce.findVerifierByMethod b!"S256" = some .s256 ∧ Pkce.findVerifierByMethod b!"s256" = none := by
  decide

/-! ## C54 -/

theorem queryEscape_length (s : GoStr) : s.length ≤ (queryEscape s).length := by
  induction s with
  | nil => simp
  | cons c cs ih =>
    have : 1 ≤ (queryEscapeByte c).length := by
      unfold queryEscapeByte; repeat' split
      all_goals simp
    simp only [queryEscape, List.flatMap_cons, List.length_append, List.length_cons] at ih ⊢
    omega

theorem queryEscape_eq_self_iff (s : GoStr) : queryEscape s = s ↔ ∀ c ∈ s, isUnreserved c = true := by
  induction s with
  | nil => simp [queryEscape]
  | cons c cs ih =>
    have hl := queryEscape_length cs
    simp only [queryEscape, List.flatMap_cons] at ih hl ⊢
    by_cases hc : isUnreserved c = true
    · have : queryEscapeByte c = [c] := by simp [queryEscapeByte, hc]
      rw [this]
      simpa [hc] using ih
    · have hne : ¬ ∀ x ∈ c :: cs, isUnreserved x = true := fun h => hc (h c (by simp))
      simp only [hne, iff_false]
      intro h
      rw [show queryEscapeByte c = if c = 32 then [43] else
        [37, hexUpper (c.toNat / 16), hexUpper (c.toNat % 16)] by simp [queryEscapeByte, hc]] at h
      split at h
      · rename_i h32
        simp only [List.cons_append, List.cons.injEq] at h
        rw [h32] at h
        exact absurd h.1 (by decide)
      · have := congrArg List.length h
        simp only [List.length_append, List.length_cons, List.length_nil] at this
        omega

/-- What a server reads from the header `basic_auth.Header` builds. -/
theorem basicAuth_header (r : Req) (uid pass : GoStr)
    (h : r.header b!"Authorization" = BasicAuth.header uid pass) :
    r.basicAuth = some (queryEscape uid, queryEscape pass) := by
  unfold Req.basicAuth
  rw [h, if_neg (by simp [BasicAuth.header])]
  unfold Req.parseBasicAuth BasicAuth.header BasicAuth.token
  have h1 : ¬ ((b!"Basic " ++ b64Encode false (queryEscape uid ++ 58 :: queryEscape pass)).length < 6 ∨
      toLower ((b!"Basic " ++ b64Encode false (queryEscape uid ++ 58 :: queryEscape pass)).take 6) ≠
        b!"basic ") := by
    rw [List.take_left' (by rfl)]
    simp only [List.length_append, List.length_cons, not_or]
    exact ⟨by omega, by decide⟩
  rw [if_neg h1, List.drop_left' (by rfl), b64Decode_encode]
  have hc := cut_append 58 (queryEscape pass) (queryEscape uid) (queryEscape_not_mem (by decide))
  simp [hc]

/-- C54 (partial): the pair is read back percent-encoded … -/
theorem C54_read_back_escaped (r : Req) (uid pass : GoStr)
    (h : r.header b!"Authorization" = BasicAuth.header uid pass) (cfg : TokenCfg) :
    BasicAuth.findClientCredential r = some (queryEscape uid, queryEscape pass) ∧
    TokenEndpoint.findClientCredential cfg r = some (queryEscape uid, queryEscape pass, true) := by
  have hb := basicAuth_header r uid pass h
  simp [BasicAuth.findClientCredential, TokenEndpoint.findClientCredential, hb]

/-- C54 (partial): … hence as the same pair exactly when user id and password consist of unreserved
characters (letters, digits, `-_.~`).  Missing: the property claims this for all strings, which is
false (`C54_false`). -/
theorem C54_roundtrip_partial (r : Req) (uid pass : GoStr)
    (h : r.header b!"Authorization" = BasicAuth.header uid pass) (cfg : TokenCfg) :
    (BasicAuth.findClientCredential r = some (uid, pass) ↔
      (∀ c ∈ uid, isUnreserved c = true) ∧ (∀ c ∈ pass, isUnreserved c = true)) ∧
    (TokenEndpoint.findClientCredential cfg r = some (uid, pass, true) ↔
      (∀ c ∈ uid, isUnreserved c = true) ∧ (∀ c ∈ pass, isUnreserved c = true)) := by
  obtain ⟨h1, h2⟩ := C54_read_back_escaped r uid pass h cfg
  rw [h1, h2]
  simp [← queryEscape_eq_self_iff]

/-- The full C54 is false of the code: a secret containing `+` is read back as `%2B`. -/
theorem C54_false : ¬ ∀ (r : Req) (uid pass : GoStr),
    r.header b!"Authorization" = BasicAuth.header uid pass →
    BasicAuth.findClientCredential r = some (uid, pass) := by
  intro h
  have := h ⟨b!"POST", b!"/token", [(b!"Authorization", BasicAuth.header b!"c" b!"a+b")], [], [], false⟩
    b!"c" b!"a+b" (by decide)
  revert this
  decide

example : BasicAuth.findClientCredential
    ⟨b!"POST", b!"/token", [(b!"authorization", BasicAuth.header b!"c" b!"s.1")], [], [], false⟩ =
    some (b!"c", b!"s.1") := by decide

end Goidc.Props
