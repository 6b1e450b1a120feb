import Verif.Model.Lib
import Verif.Model.Json

/-!
# golang-jwt v3.2.2 concretely: compact serialisation and parsing of JSON web tokens

The rest of the model takes decoding, signing and checking of tokens as arbitrary functions (`Lib`).  Here
they are given for golang-jwt v3.2.2, from the primitives it calls in Go's standard library.  This models
the library, not /repo; the uses in /repo are id_token/id_token.go:92-119 (`jwt.New`, `SignedString`),
assertion/assertion.go and authorization_endpoint.go (`jwt.Parse`).
-/

namespace Goidc

/-- What golang-jwt and goidc take from Go's standard library. -/
structure Prims where
  /-- crypto/sha256, crypto/sha512 -/
  sha256 : GoStr → GoStr
  sha384 : GoStr → GoStr
  sha512 : GoStr → GoStr
  sha256_length : ∀ s, (sha256 s).length = 32
  sha384_length : ∀ s, (sha384 s).length = 48
  sha512_length : ∀ s, (sha512 s).length = 64
  /-- strconv.IsPrint on non-ASCII runes -/
  isPrint : Nat → Bool
  /-- whether `url.Parse` succeeds -/
  urlParseOk : GoStr → Bool
  /-- A JSON number literal read into a float64 and truncated to an int64; `none`: out of range. -/
  float : GoStr → Option Int64
  /-- Integers of at most 53 bits survive float64. -/
  float_int : ∀ n : Int64, -2 ^ 53 ≤ n.toInt → n.toInt ≤ 2 ^ 53 → float (itoa n) = some n
  /-- Every int64 is in the range of float64. -/
  float_some : ∀ n : Int64, (float (itoa n)).isSome = true
  /-- Whether the primitive behind `alg` signs with this key material. -/
  signOk : GoStr → GoStr → Bool
  /-- The signature of a message: algorithm, key material, message. -/
  signature : GoStr → GoStr → GoStr → GoStr
  /-- Whether a signature is accepted: algorithm, key material, message, signature. -/
  verify : GoStr → GoStr → GoStr → GoStr → Bool
  /-- What was signed is accepted. -/
  verify_signature : ∀ alg k m, signOk alg k = true → verify alg k m (signature alg k m) = true

namespace Jws

/-- golang-jwt token.go `EncodeSegment`: base64url, `=` trimmed at the right. -/
def encodeSegment (b : GoStr) : GoStr := ((b64Encode true b).reverse.dropWhile (· == 61)).reverse

/-- golang-jwt token.go `DecodeSegment`: `=` is added up to a multiple of four, then base64url. -/
def decodeSegment (s : GoStr) : Option GoStr :=
  let r := b64Decode true (s ++ List.replicate ((4 - s.length % 4) % 4) 61)
  if r.2 then some r.1 else none

/-- A claim as `json.Marshal` writes it.  goidc puts strings and int64s into the map; the last two cases do
not occur. -/
def claimText : JVal → GoStr
  | .str s => jsonString s
  | .float n => itoa n
  | .number (some n) => itoa n
  | .number none => b!"null"
  | .other => b!"null"

/-- `json.Marshal` of a map, its values already written: keys sorted. -/
def object (members : Params) : GoStr :=
  b!"{" ++ join 44 ((sortPairs members).map fun kv => jsonString kv.1 ++ 58 :: kv.2) ++ b!"}"

/-- golang-jwt token.go `NewWithClaims`: the header map, with the `kid` of id_token/id_token.go:116-118. -/
def headerText (alg kid : GoStr) : GoStr :=
  object ([(b!"typ", jsonString b!"JWT"), (b!"alg", jsonString alg)]
    ++ (if kid = [] then [] else [(b!"kid", jsonString kid)]))

/-- The claims map. -/
def claimsText (claims : List (GoStr × JVal)) : GoStr := object (claims.map fun kv => (kv.1, claimText kv.2))

/-- golang-jwt token.go `SigningString` -/
def signingString (alg kid : GoStr) (claims : List (GoStr × JVal)) : GoStr :=
  encodeSegment (headerText alg kid) ++ 46 :: encodeSegment (claimsText claims)

/-- golang-jwt token.go `SignedString`, for a key the method accepts; `none` signs with nothing. -/
def sign (p : Prims) (alg kid : GoStr) (claims : List (GoStr × JVal)) (key : GoStr) : GoStr :=
  signingString alg kid claims ++ 46 ::
    (if alg = b!"none" then [] else encodeSegment (p.signature alg key (signingString alg kid claims)))

mutual
/-- Whether every number in the value fits into a float64; encoding/json reports the others. -/
def numbersOk (p : Prims) : Json → Bool
  | .num raw => (p.float raw).isSome
  | .arr l => numbersOkL p l
  | .obj m => numbersOkM p m
  | _ => true

/-- The same for elements. -/
def numbersOkL (p : Prims) : List Json → Bool
  | [] => true
  | v :: l => numbersOk p v && numbersOkL p l

/-- The same for members. -/
def numbersOkM (p : Prims) : List (GoStr × Json) → Bool
  | [] => true
  | (_, v) :: m => numbersOk p v && numbersOkM p m
end

/-- A value stored into an `interface{}`, as goidc distinguishes them. -/
def toClaim (p : Prims) : Json → JVal
  | .str raw => .str (Json.unquote raw)
  | .num raw => .float ((p.float raw).getD 0)
  | _ => .other

/-- A JSON value stored into a `map[string]interface{}`: members in reverse order, so that the last one of a
key is found first; `null` is an empty map; `none` is the error. -/
def toMap (p : Prims) : Json → Option (List (GoStr × JVal))
  | .null => some []
  | .obj m => if numbersOkM p m then some ((m.map fun kv => (Json.unquote kv.1, toClaim p kv.2)).reverse) else none
  | _ => none

/-- `json.Unmarshal(header, &token.Header)`: the whole text is one value. -/
def readHeader (p : Prims) (s : GoStr) : Option (List (GoStr × JVal)) := (Json.parse s).bind (toMap p)

/-- `json.NewDecoder(claims).Decode(&c)`: the text begins with a value; what follows is not read. -/
def readClaims (p : Prims) (s : GoStr) : Option (List (GoStr × JVal)) :=
  match Json.parseValue (s.length + 1) (Json.skipWs s) with
  | some (v, _) => toMap p v
  | none => none

/-- `m[k].(string)` -/
def strOf (m : List (GoStr × JVal)) (k : GoStr) : Option GoStr :=
  match m.find? (fun kv => kv.1 == k) with
  | some (_, .str s) => some s
  | _ => none

/-- golang-jwt parser.go `ParseUnverified` up to the claims; `none` is `ValidationErrorMalformed`. -/
def decode (p : Prims) (s : GoStr) : Option JwtToken :=
  match split 46 s with
  | [h, c, _] =>
    match (decodeSegment h).bind (readHeader p), (decodeSegment c).bind (readClaims p) with
    | some hm, some cm => some { raw := s, alg := strOf hm b!"alg", kid := strOf hm b!"kid", claims := cm }
    | _, _ => none
  | _ => none

/-- `Method.Verify(parts[0] + "." + parts[1], parts[2], key)` for a key of the right type (hmac.go, rsa.go,
rsa_pss.go, ecdsa.go decode the segment; none.go wants it empty). -/
def sigOk (p : Prims) (alg tok key : GoStr) : Bool :=
  match split 46 tok with
  | [h, c, g] =>
    if alg = b!"none" then g == []
    else
      match decodeSegment g with
      | some sig => p.verify alg key (h ++ 46 :: c) sig
      | none => false
  | _ => false

/-- goidc on golang-jwt. -/
def lib (p : Prims) : Lib where
  sha256 := p.sha256
  sha384 := p.sha384
  sha512 := p.sha512
  sha256_length := p.sha256_length
  sha384_length := p.sha384_length
  sha512_length := p.sha512_length
  isPrint := p.isPrint
  urlParseOk := p.urlParseOk
  jwtDecode := decode p
  jwtDecode_raw s t h := by
    unfold decode at h
    split at h
    · split at h
      · cases h; rfl
      · cases h
    · cases h
  sigOk := sigOk p
  sign := sign p
  signOk := p.signOk

end Jws
end Goidc
