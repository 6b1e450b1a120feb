import Verif.Spec.Json
import Verif.Spec.Encoding
import Verif.Model.Jws
import Verif.Spec.Jwt

/-! # Specification: JSON web signatures in compact serialisation (RFC 7515) -/

namespace Goidc.Spec

/-- `tok` is a JWS in compact serialisation (RFC 7515, section 7.1): the header, the payload and the signature
in unpadded base64url, separated by dots.  Header and payload are JSON objects with the given members; `signed`
is what the signature `sig` is about (section 5.1, step 5). -/
def IsJws (tok : List UInt8) (header payload : List (List UInt8 × JVal)) (signed sig : List UInt8) : Prop :=
  ∃ h c, JsonText h (.obj header) ∧ JsonText c (.obj payload) ∧ signed = base64url h ++ 46 :: base64url c ∧
    tok = signed ++ 46 :: base64url sig

/-- What a claim is written as: a string as itself (ill-formed UTF-8 cannot be, it is replaced), a number as a
decimal numeral. -/
inductive WrittenAs : Goidc.JVal → JVal → Prop
  | str {s s'} : ValidUtf8 s' → (ValidUtf8 s → s' = s) → WrittenAs (.str s) (.str s')
  | int {n lit} : CanonicalDecimal lit n.toInt → WrittenAs (.float n) (.num lit)

/-- The members say exactly the claims for which `P` holds, each once. -/
structure SaysExactly (members : List (List UInt8 × JVal)) (P : List UInt8 → Goidc.JVal → Prop) : Prop where
  once : (members.map (·.1)).Nodup
  only : ∀ k j, (k, j) ∈ members → ∃ v, P k v ∧ WrittenAs v j
  all : ∀ k v, P k v → ∃ j, (k, j) ∈ members ∧ WrittenAs v j

/-- The header of a token: the algorithm, the type `JWT`, and the key id if there is one. -/
def HeaderClaims (alg kid : List UInt8) (k : List UInt8) (v : Goidc.JVal) : Prop :=
  (k = b!"alg" ∧ v = .str alg) ∨ (k = b!"typ" ∧ v = .str b!"JWT") ∨ (k = b!"kid" ∧ kid ≠ [] ∧ v = .str kid)

/-- `sig` is a signature of the text `signed` made with a key of the type the algorithm takes. -/
inductive SignatureOf (p : Prims) (alg signed : List UInt8) : Option Key → List UInt8 → Prop
  | hmac {k} : alg ∈ hmacAlgs → p.signOk alg k = true → SignatureOf p alg signed (some (.bytes k)) (p.signature alg k signed)
  | rsa {k} : alg ∈ rsaAlgs → p.signOk alg k = true → SignatureOf p alg signed (some (.rsaPriv k)) (p.signature alg k signed)
  | ecdsa {k} : alg ∈ ecAlgs → p.signOk alg k = true → SignatureOf p alg signed (some (.ecPriv k)) (p.signature alg k signed)
  | unsafeNone : alg = b!"none" → SignatureOf p alg signed (some .unsafeNone) []

/-- `tok` is a JWS with the header for the algorithm and the key id, whose payload says exactly the claims for
which `P` holds, signed with the key. -/
def TokenSays (p : Prims) (alg kid : List UInt8) (key : Option Key) (P : List UInt8 → Goidc.JVal → Prop) (tok : List UInt8) : Prop :=
  ∃ header payload signed sig, IsJws tok header payload signed sig ∧ SaysExactly header (HeaderClaims alg kid) ∧
    SaysExactly payload P ∧ SignatureOf p alg signed key sig

/-! ## Reading -/

/-- The number literal occurs in the value. -/
inductive NumberIn (lit : List UInt8) : JVal → Prop
  | here : NumberIn lit (.num lit)
  | arr {l v} : v ∈ l → NumberIn lit v → NumberIn lit (.arr l)
  | obj {m k v} : (k, v) ∈ m → NumberIn lit v → NumberIn lit (.obj m)

/-- Every number of the object is in the range of float64. -/
def NumbersFit (p : Prims) (members : List (List UInt8 × JVal)) : Prop :=
  ∀ lit, NumberIn lit (.obj members) → (p.float lit).isSome = true

/-- `j` is the value of the last member with the name `k`. -/
def LastMember (members : List (List UInt8 × JVal)) (k : List UInt8) (j : JVal) : Prop :=
  ∃ l1 l2, members = l1 ++ (k, j) :: l2 ∧ ∀ kv ∈ l2, kv.1 ≠ k

/-- What goidc takes the value of a claim for: strings and numbers as themselves (numbers go through
float64). -/
inductive ReadAs (p : Prims) : JVal → Goidc.JVal → Prop
  | str {s} : ReadAs p (.str s) (.str s)
  | num {lit n} : p.float lit = some n → ReadAs p (.num lit) (.float n)
  | null : ReadAs p .null .other
  | bool {b} : ReadAs p (.bool b) .other
  | arr {l} : ReadAs p (.arr l) .other
  | obj {m} : ReadAs p (.obj m) .other

/-- The header names this algorithm and this key id (empty: none is named). -/
def Names (header : List (List UInt8 × JVal)) (alg kid : List UInt8) : Prop :=
  LastMember header b!"alg" (.str alg) ∧
  (LastMember header b!"kid" (.str kid) ∨ kid = [] ∧ ∀ s, ¬ LastMember header b!"kid" (.str s))

/-- `sig` is accepted as a signature of the text `signed` under a key of the type the algorithm takes. -/
def Verified (p : Prims) (alg signed sig : List UInt8) : Key → Prop
  | .bytes k => alg ∈ hmacAlgs ∧ p.verify alg k signed sig = true
  | .rsaPub k => alg ∈ rsaAlgs ∧ p.verify alg k signed sig = true
  | .ecPub k => alg ∈ ecAlgs ∧ p.verify alg k signed sig = true
  | .unsafeNone => alg = b!"none" ∧ sig = []
  | _ => False

/-- The member `k` is the number `n`. -/
def TimeMember (p : Prims) (payload : List (List UInt8 × JVal)) (k : List UInt8) (n : Int64) : Prop :=
  ∃ lit, LastMember payload k (.num lit) ∧ p.float lit = some n

/-- The member `k` is missing, or a time that has come. -/
def MissingOrPast (p : Prims) (payload : List (List UInt8 × JVal)) (k : List UInt8) (now : Int64) : Prop :=
  (∀ j, (k, j) ∉ payload) ∨ ∃ n, TimeMember p payload k n ∧ n.toInt ≤ now.toInt

end Goidc.Spec
