import Verif.Model.Http
import Verif.Model.Json

/-! # jwk_endpoint.go and crypto/key.go -/

namespace Goidc

/-- What goidc uses of crypto/x509, encoding/pem and go-jwx.  `Key` is an RSA public key, `PrivKey` an RSA
private key, an error is its text.  `pemDecode` is `pem.Decode`: type and bytes of the first block, if there is
one; `parsePKIX` is `x509.ParsePKIXPublicKey`, giving `none` for a key of another kind; `parsePKCS1` is
`x509.ParsePKCS1PrivateKey`; `marshalSet` is `jwk.New` + `Set(KeyIDKey, kid)` on every key followed by
`json.MarshalIndent` of the set (crypto/key.go:15-30), `none` for an error; `parseSet` is `jwk.ParseString`,
giving the keys of the set with their ids, `none` for one that is no RSA public key (one that is can be
materialized).  These libraries are not in the repository; the only thing assumed about them is that a set that
was written is read back, when its key ids are valid UTF-8 (JSON cannot carry others). -/
structure JwxLib where
  Key : Type
  PrivKey : Type
  pemDecode : GoStr → Option (GoStr × GoStr)
  parsePKIX : GoStr → Except GoStr (Option Key)
  parsePKCS1 : GoStr → Except GoStr PrivKey
  marshalSet : List (GoStr × Key) → Option GoStr
  parseSet : GoStr → Except GoStr (List (GoStr × Option Key))
  parse_marshal : ∀ l s, marshalSet l = some s → (∀ kv ∈ l, validUtf8 kv.1 = true) →
    parseSet s = .ok (l.map fun kv => (kv.1, some kv.2))

/-- crypto/key.go:62-79 `LoadPublicKeyFromData` -/
def JwxLib.loadPublicKeyFromData (x : JwxLib) (data : GoStr) : Except GoStr x.Key :=
  match x.pemDecode data with
  | none => .error b!"failed to decode pem block"
  | some (typ, bytes) =>
    if typ ≠ b!"PUBLIC KEY" then .error b!"PEM block isn't a RSA PRIVATE KEY"
    else match x.parsePKIX bytes with
      | .error err => .error (b!"public key can't be decoded: " ++ err)
      | .ok (some k) => .ok k
      | .ok none => .error b!"couldn't convert to a RSA public key"

/-- crypto/key.go:58-60 `LoadPublicKeyFromText` -/
def JwxLib.loadPublicKeyFromText (x : JwxLib) (data : GoStr) : Except GoStr x.Key := x.loadPublicKeyFromData data

/-- crypto/key.go:50-56 `LoadPublicKeyFromFile`; `content` is what `ioutil.ReadFile` gives -/
def JwxLib.loadPublicKeyFromFile (x : JwxLib) (content : Except GoStr GoStr) : Except GoStr x.Key :=
  match content with
  | .error err => .error (b!"failed to read PEM file: " ++ err)
  | .ok pem => x.loadPublicKeyFromData pem

/-- crypto/key.go:93-106 `LoadPrivateKeyFromData` -/
def JwxLib.loadPrivateKeyFromData (x : JwxLib) (data : GoStr) : Except GoStr x.PrivKey :=
  match x.pemDecode data with
  | none => .error b!"failed to decode pem block"
  | some (typ, bytes) =>
    if typ ≠ b!"RSA PRIVATE KEY" then .error b!"PEM block isn't a RSA PRIVATE KEY"
    else match x.parsePKCS1 bytes with
      | .error err => .error (b!"private key can't be decoded: " ++ err)
      | .ok k => .ok k

/-- crypto/key.go:89-91 `LoadPrivateKeyFromText` -/
def JwxLib.loadPrivateKeyFromText (x : JwxLib) (data : GoStr) : Except GoStr x.PrivKey := x.loadPrivateKeyFromData data

/-- crypto/key.go:81-87 `LoadPrivateKeyFromFile`; `content` is what `ioutil.ReadFile` gives -/
def JwxLib.loadPrivateKeyFromFile (x : JwxLib) (content : Except GoStr GoStr) : Except GoStr x.PrivKey :=
  match content with
  | .error err => .error (b!"failed to read PEM file: " ++ err)
  | .ok pem => x.loadPrivateKeyFromData pem

namespace Jwk

variable (x : JwxLib)

/-- `e.keys[kid] = k` -/
def insert (m : List (GoStr × x.Key)) (kid : GoStr) (k : x.Key) : List (GoStr × x.Key) :=
  (kid, k) :: m.filter (fun kv => kv.1 != kid)

/-- crypto/key.go:15-30 `PublicKeysJWK`; `order` is the order in which the map happens to be
iterated. -/
def publicKeysJWK (order : List (GoStr × x.Key)) : Option GoStr := x.marshalSet order

/-- crypto/key.go:32-48 `LoadPublicKeyFromJWK` -/
def loadPublicKeyFromJWK (s kid : GoStr) : Except GoStr x.Key :=
  match x.parseSet s with
  | .error err => .error err
  | .ok l =>
    match l.filter (fun kv => kv.1 == kid) with
    | [] => .error b!"indicated key id not found"
    | kv :: _ =>
      match kv.2 with
      | none => .error b!"indicated key is not a public key"
      | some k => .ok k

/-- What happens to a JWK endpoint over time. -/
inductive Op
  /-- jwk_endpoint.go:28-34 `AddFromText` -/
  | addText (kid pem : GoStr)
  /-- jwk_endpoint.go:20-26 `AddFromFile`; `content` is what reading the file gives -/
  | addFile (kid : GoStr) (content : Except GoStr GoStr)
  /-- jwk_endpoint.go:36-43 `Handler`; the map is iterated in this order -/
  | handler (order : List (GoStr × x.Key))
  /-- a request to the `i`-th handler made -/
  | request (i : Nat)

/-- The registered keys, and the documents captured by the handlers made so far. -/
structure State where
  keys : List (GoStr × x.Key)
  handlers : List GoStr

/-- jwk_endpoint.go:14-18 `NewJWKEndpoint` -/
def init : State x := ⟨[], []⟩

/-- What an operation shows to its caller. -/
inductive Out
  | done
  | panicked
  | served (r : HttpResp)
  | noHandler

/-- jwk_endpoint.go:20-34: a key that cannot be loaded panics before the map is touched. -/
def add (s : State x) (kid : GoStr) : Except GoStr x.Key → State x × Out
  | .ok k => ({ s with keys := insert x s.keys kid k }, .done)
  | .error _ => (s, .panicked)

/-- jwk_endpoint.go:37-42: an error of `PublicKeysJWK` is ignored and the document is empty. -/
def step (s : State x) : Op x → State x × Out
  | .addText kid pem => add x s kid (x.loadPublicKeyFromText pem)
  | .addFile kid content => add x s kid (x.loadPublicKeyFromFile content)
  | .handler order => ({ s with handlers := s.handlers ++ [(publicKeysJWK x order).getD []] }, .done)
  | .request i =>
    match s.handlers[i]? with
    | some doc => (s, .served ⟨200, [(b!"Content-Type", b!"application/json")], doc⟩)
    | none => (s, .noHandler)

/-- A Go map may be iterated in any order. -/
def Legal (s : State x) : Op x → Prop
  | .handler order => order.Perm s.keys
  | _ => True

/-- The state after a history. -/
def run : State x → List (Op x) → State x
  | s, [] => s
  | s, op :: ops => run (step x s op).1 ops

/-- Every map iteration of the history went over the keys present at that time. -/
def LegalRun : State x → List (Op x) → Prop
  | _, [] => True
  | s, op :: ops => Legal x s op ∧ LegalRun (step x s op).1 ops

end Jwk
end Goidc
