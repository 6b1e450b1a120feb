import Verif.Model.Jwk

/-! # Specification: which key is registered -/

namespace Goidc.Spec

variable {x : JwxLib}

/-- The PEM text starts with a public key block that holds the RSA key `k`. -/
def PublicKeyPem (x : JwxLib) (data : GoStr) (k : x.Key) : Prop :=
  ∃ bytes, x.pemDecode data = some (b!"PUBLIC KEY", bytes) ∧ x.parsePKIX bytes = .ok (some k)

/-- The PEM text starts with an RSA private key block that holds the key `k`. -/
def PrivateKeyPem (x : JwxLib) (data : GoStr) (k : x.PrivKey) : Prop :=
  ∃ bytes, x.pemDecode data = some (b!"RSA PRIVATE KEY", bytes) ∧ x.parsePKCS1 bytes = .ok k

/-- In the JWK set, the first key with the id `kid` is the RSA public key `k`. -/
def KeyOfSet (x : JwxLib) (doc kid : GoStr) (k : x.Key) : Prop :=
  ∃ before after, x.parseSet doc = .ok (before ++ (kid, some k) :: after) ∧ ∀ kv ∈ before, kv.1 ≠ kid

/-- The RSA public key in a PEM text, if there is one. -/
def keyIn (x : JwxLib) (pem : GoStr) : Option x.Key :=
  match x.pemDecode pem with
  | some (typ, bytes) => if typ = b!"PUBLIC KEY" then (x.parsePKIX bytes).toOption.bind id else none
  | none => none

/-- The registration an operation makes: a key id and a key that could be loaded. -/
def registers : Jwk.Op x → Option (GoStr × x.Key)
  | .addText kid pem => (keyIn x pem).map (kid, ·)
  | .addFile kid (.ok pem) => (keyIn x pem).map (kid, ·)
  | _ => none

/-- The key most recently registered under `kid` in a history. -/
def lastRegistered (kid : GoStr) (ops : List (Jwk.Op x)) : Option x.Key :=
  ((ops.filterMap registers).reverse.find? (fun kv => kv.1 == kid)).map (·.2)

/-- How many handlers a history makes. -/
def handlersMade : List (Jwk.Op x) → Nat
  | [] => 0
  | .handler _ :: ops => handlersMade ops + 1
  | _ :: ops => handlersMade ops

end Goidc.Spec
