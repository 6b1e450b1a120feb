import Verif.Model.Lib

/-! # Specification: signatures and times of a JWT -/

namespace Goidc.Spec

/-- The algorithms that take a shared key. -/
def hmacAlgs : List GoStr := [b!"HS256", b!"HS384", b!"HS512"]

/-- The algorithms that take an RSA key. -/
def rsaAlgs : List GoStr := [b!"RS256", b!"RS384", b!"RS512", b!"PS256", b!"PS384", b!"PS512"]

/-- The algorithms that take an elliptic curve key. -/
def ecAlgs : List GoStr := [b!"ES256", b!"ES384", b!"ES512"]

/-- The algorithms the library knows. -/
def knownAlgs : List GoStr := hmacAlgs ++ rsaAlgs ++ ecAlgs ++ [b!"none"]

/-- The signature of `tok` is right under a key of the type the algorithm takes.  (`none` needs a value made for
this purpose.) -/
def SignatureOk (lib : Lib) (alg tok : GoStr) : Key → Prop
  | .bytes k => alg ∈ hmacAlgs ∧ lib.sigOk alg tok k = true
  | .rsaPub k => alg ∈ rsaAlgs ∧ lib.sigOk alg tok k = true
  | .ecPub k => alg ∈ ecAlgs ∧ lib.sigOk alg tok k = true
  | .unsafeNone => alg = b!"none" ∧ lib.sigOk alg tok [] = true
  | _ => False

/-- The claim value `v` is the time `n`.  (A JSON number that is no 64-bit integer counts as 0.) -/
def IsTime (v : JVal) (n : Int64) : Prop := v = .float n ∨ v = .number (some n) ∨ (v = .number none ∧ n = 0)

/-- An `exp` claim, if there is one and it is not 0, is a time that has not passed. -/
def NotExpired (now : Int64) (exp : Option JVal) : Prop :=
  ∀ v, exp = some v → ∃ n, IsTime v n ∧ (n = 0 ∨ now.toInt ≤ n.toInt)

/-- An `nbf` or `iat` claim, if there is one and it is not 0, is a time that has come. -/
def NotEarly (now : Int64) (nbf : Option JVal) : Prop :=
  ∀ v, nbf = some v → ∃ n, IsTime v n ∧ (n = 0 ∨ n.toInt ≤ now.toInt)

end Goidc.Spec
