import Verif.Spec.Jws

/-!
# Specification: extensions a token depends on

RFC 7515, 4.1.11: the header parameter `crit` lists extensions that must be understood; "if any of the listed extension Header
Parameters are not understood and supported by the recipient, then the JWS is invalid".  goidc supports none.
-/

namespace Goidc.Spec

/-- The header lists an extension as critical. -/
def Critical (header : List (List UInt8 × JVal)) : Prop :=
  ∃ names n, LastMember header b!"crit" (.arr names) ∧ JVal.str n ∈ names

end Goidc.Spec
