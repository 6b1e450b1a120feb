import Verif.Spec.Accept
import Verif.Spec.Jwt

/-! # Which assertions are recorded -/

namespace Goidc.Spec

/-- `jti`, `iat` and `exp` are those of the token; a token without `jti` stands for the empty string, one without an
`iat` that is a number for -1. -/
structure ClaimsOf (tk : JwtToken) (jti : GoStr) (iat exp : Int64) : Prop where
  jti : tk.claimStr b!"jti" = some jti ∨ (tk.claimStr b!"jti" = none ∧ jti = [])
  iat : NumberClaim tk b!"iat" iat ∨ ((∀ n, ¬ NumberClaim tk b!"iat" n) ∧ iat = -1)
  exp : NumberClaim tk b!"exp" exp

/-- The text `a` is an assertion the token request makes: about its client, or as its grant. -/
def Asserts (cfg : TokenCfg) (lib : Lib) (r : Req) (a : GoStr) : Prop :=
  (cfg.acceptClientAssertion = true ∧ PresentedAssertion r a) ∨
  (Registered cfg r (Grant.jwt lib) ∧ r.formValue b!"assertion" = a ∧ a ≠ [])

/-- The request carries an assertion with these claims that the holder of a key of the client made, and it was in its
time when the library looked. -/
def MadeByHolder (cfg : TokenCfg) (lib : Lib) (r : Req) (c : Client) (pre : List Event) (jti : GoStr) (iat exp : Int64) : Prop :=
  ∃ a tk wall, Asserts cfg lib r a ∧ VerifiedAssertion lib c a tk ∧ ClaimsOf tk jti iat exp ∧
    ⟨.wallNow, wall⟩ ∈ pre ∧ NotExpired wall (tk.claim b!"exp") ∧ NotEarly wall (tk.claim b!"iat") ∧
    NotEarly wall (tk.claim b!"nbf")

end Goidc.Spec
