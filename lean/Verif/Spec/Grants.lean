import Verif.Spec.TokenEndpoint
import Verif.Spec.Calls
import Verif.Spec.Words
import Verif.Spec.Encoding

/-! # Vocabulary for the grant properties -/

namespace Goidc.Spec

/-- The client `c` authenticated in the calls `pre`. -/
def Authenticated (cfg : TokenCfg) (lib : Lib) (r : Req) (c : Client) (pre : List Event) : Prop :=
  AuthenticatedBySecret cfg.acceptance r c pre ∨
    (cfg.acceptClientAssertion = true ∧ AuthenticatedByAssertion lib r c pre)

/-- The `DataInterface` calls of a trace. -/
def dataCalls (t : List Event) : List Event := t.filter fun e => e.q.isData

/-- The `DataInterface` methods used to authenticate a client. -/
def IsAuthCall : Query → Prop
  | .findClientById _ | .recordAssertionClaims _ _ _ _ | .issuer => True
  | _ => False

/-- The claims of an ID token for the code flow. -/
def CodeIdTokenClaims (iss aud sub nonce : GoStr) (exp iat authTime : Int64) (k : GoStr) (v : JVal) : Prop :=
  (k = b!"iss" ∧ v = .str iss) ∨ (k = b!"aud" ∧ v = .str aud) ∨ (k = b!"sub" ∧ v = .str sub) ∨
  (k = b!"exp" ∧ v = .float exp) ∨ (k = b!"nonce" ∧ nonce ≠ [] ∧ v = .str nonce) ∨
  (k = b!"iat" ∧ 0 ≤ iat ∧ v = .float iat) ∨ (k = b!"auth_time" ∧ 0 ≤ authTime ∧ v = .float authTime)

/-- `tok` is the compact serialisation of `claims` signed with the key `key`, whose Go type fits the
algorithm and whose material the algorithm accepts; no claim occurs twice. -/
inductive SignedBy (lib : Lib) (alg kid : GoStr) (claims : List (GoStr × JVal)) : Option Key → GoStr → Prop
  | hmac (k) : (claims.map (·.1)).Nodup → lib.signOk alg k = true → alg ∈ hmacAlgs →
      SignedBy lib alg kid claims (some (.bytes k)) (lib.sign alg kid claims k)
  | rsa (k) : (claims.map (·.1)).Nodup → lib.signOk alg k = true → alg ∈ rsaAlgs →
      SignedBy lib alg kid claims (some (.rsaPriv k)) (lib.sign alg kid claims k)
  | ecdsa (k) : (claims.map (·.1)).Nodup → lib.signOk alg k = true → alg ∈ ecAlgs →
      SignedBy lib alg kid claims (some (.ecPriv k)) (lib.sign alg kid claims k)
  | unsafeNone : (claims.map (·.1)).Nodup → alg = b!"none" →
      SignedBy lib alg kid claims (some .unsafeNone) (lib.sign alg kid claims [])

end Goidc.Spec
