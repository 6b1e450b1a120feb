import Verif.Model.Prog

/-!
# Third-party libraries: SHA-2, golang-jwt v3.2.2, net/url.Parse

Facts about these are fields of `Lib`, over which every theorem quantifies.
-/

namespace Goidc

/-- A JSON value of a JWT claim as goidc distinguishes them: a string, a float64 (given by its
truncation `int64(num)`), a `json.Number` (given by the result of `.Int64()`), anything else. -/
inductive JVal
  | str (s : GoStr)
  | float (n : Int64)
  | number (n : Option Int64)
  | other
  deriving DecidableEq

/-- A decoded (not yet verified) JWT: the string headers `alg` and `kid` and the claims map. -/
structure JwtToken where
  raw : GoStr
  alg : Option GoStr
  kid : Option GoStr
  claims : List (GoStr × JVal)

/-- `claims[k]`; `none` when absent. -/
def JwtToken.claim (t : JwtToken) (k : GoStr) : Option JVal :=
  match t.claims.find? (fun kv => kv.1 == k) with
  | some kv => some kv.2
  | none => none

/-- `claims[k].(string)`. -/
def JwtToken.claimStr (t : JwtToken) (k : GoStr) : Option GoStr :=
  match t.claim k with
  | some (.str s) => some s
  | _ => none

/-- Library behaviour the theorems quantify over. -/
structure Lib where
  /-- crypto/sha256, crypto/sha512 -/
  sha256 : GoStr → GoStr
  sha384 : GoStr → GoStr
  sha512 : GoStr → GoStr
  sha256_length : ∀ s, (sha256 s).length = 32
  sha384_length : ∀ s, (sha384 s).length = 48
  sha512_length : ∀ s, (sha512 s).length = 64
  /-- strconv.IsPrint on non-ASCII runes -/
  isPrint : Nat → Bool
  /-- whether `url.Parse` succeeds -/
  urlParseOk : GoStr → Bool
  /-- jwt `Parser.ParseUnverified` up to the claims: `none` is ValidationErrorMalformed -/
  jwtDecode : GoStr → Option JwtToken
  jwtDecode_raw : ∀ s t, jwtDecode s = some t → t.raw = s
  /-- cryptographic check of the signature of a compact token by algorithm and key material -/
  sigOk : GoStr → GoStr → GoStr → Bool
  /-- compact serialisation of a signed token: algorithm, kid header, claims, key material -/
  sign : GoStr → GoStr → List (GoStr × JVal) → GoStr → GoStr
  /-- whether the primitive accepts the private key's material (e.g. an RSA key too small) -/
  signOk : GoStr → GoStr → Bool

namespace Jwt

/-- Algorithm families registered by golang-jwt v3.2.2. -/
inductive Family
  | hmac | rsa | rsaPss | ecdsa | none
  deriving DecidableEq

/-- `jwt.GetSigningMethod(alg)`; `none` when unregistered. -/
def family (alg : GoStr) : Option Family :=
  if alg = b!"HS256" ∨ alg = b!"HS384" ∨ alg = b!"HS512" then some .hmac
  else if alg = b!"RS256" ∨ alg = b!"RS384" ∨ alg = b!"RS512" then some .rsa
  else if alg = b!"PS256" ∨ alg = b!"PS384" ∨ alg = b!"PS512" then some .rsaPss
  else if alg = b!"ES256" ∨ alg = b!"ES384" ∨ alg = b!"ES512" then some .ecdsa
  else if alg = b!"none" then some .none
  else none

/-- `Method.Verify(signingString, signature, key) == nil`: the key must have the family's Go type
(`none` requires the magic `UnsafeAllowNoneSignatureType`), then the signature is checked. -/
def verifies (lib : Lib) (alg : GoStr) (tok : GoStr) : Key → Bool
  | .bytes b => family alg = some .hmac && lib.sigOk alg tok b
  | .rsaPub k => (family alg = some .rsa || family alg = some .rsaPss) && lib.sigOk alg tok k
  | .ecPub k => family alg = some .ecdsa && lib.sigOk alg tok k
  | .unsafeNone => family alg = some .none && lib.sigOk alg tok []
  | _ => false

/-- `token.SignedString(key)`: the key must have the family's Go type; `none` is the error. -/
def signed (lib : Lib) (alg kid : GoStr) (claims : List (GoStr × JVal)) : Option Key → Option GoStr
  | some (.bytes b) =>
    if family alg = some .hmac && lib.signOk alg b then some (lib.sign alg kid claims b) else none
  | some (.rsaPriv k) =>
    if (family alg = some .rsa || family alg = some .rsaPss) && lib.signOk alg k
    then some (lib.sign alg kid claims k) else none
  | some (.ecPriv k) =>
    if family alg = some .ecdsa && lib.signOk alg k then some (lib.sign alg kid claims k) else none
  | some .unsafeNone =>
    if family alg = some .none && lib.signOk alg [] then some (lib.sign alg kid claims []) else none
  | _ => none

/-- `MapClaims.VerifyExpiresAt(now, false)`: absent or 0 is accepted, a non-number is rejected,
otherwise `now <= exp`. -/
def expOk (now : Int64) : Option JVal → Bool
  | none => true
  | some (.float n) => n == 0 || now ≤ n
  | some (.number n) => (n.getD 0) == 0 || now ≤ n.getD 0
  | some _ => false

/-- `VerifyIssuedAt` / `VerifyNotBefore`: absent or 0 accepted, otherwise `now >= v`. -/
def notBeforeOk (now : Int64) : Option JVal → Bool
  | none => true
  | some (.float n) => n == 0 || n ≤ now
  | some (.number n) => (n.getD 0) == 0 || n.getD 0 ≤ now
  | some _ => false

/-- The flags of a `jwt.ValidationError` goidc looks at, with its `Inner` OAuthError if any. -/
structure VErr where
  malformed : Bool := false
  unverifiable : Bool := false
  signatureInvalid : Bool := false
  expired : Bool := false
  issuedAt : Bool := false
  notValidYet : Bool := false
  inner : Option OAuthError := none

/-- Result of a `jwt.Keyfunc`: a key, an `*OAuthError`, or a plain error. -/
inductive KeyRes
  | key (k : Key)
  | oauthErr (e : OAuthError)
  | err

/-- Whether no flag is set. -/
def VErr.none? (e : VErr) : Bool :=
  !(e.malformed || e.unverifiable || e.signatureInvalid || e.expired || e.issuedAt || e.notValidYet)

/-- `jwt.Parse(s, keyFunc)` (parser.go ParseWithClaims): decode; unknown `alg` is unverifiable
before `keyFunc` runs; a `keyFunc` error is unverifiable with that error inside; then claims are
validated against `TimeFunc()` and the signature is checked, accumulating flags.  `keyFunc` threads
the variable `σ` that goidc's closure captures.  Returns the token and `nil` error (`none`) iff no
flag is set. -/
def parse {σ : Type} (lib : Lib) (s : GoStr) (s0 : σ) (keyFunc : JwtToken → Prog (KeyRes × σ)) :
    Prog (Option JwtToken × Option VErr × σ) :=
  match lib.jwtDecode s with
  | none => pure (none, some { malformed := true }, s0)
  | some t =>
    match t.alg.bind family with
    | none => pure (some t, some { unverifiable := true }, s0)
    | some _ => do
      let (kr, s1) ← keyFunc t
      match kr with
      | .oauthErr e => pure (some t, some { unverifiable := true, inner := some e }, s1)
      | .err => pure (some t, some { unverifiable := true }, s1)
      | .key k => do
        let now ← ask .wallNow
        let e : VErr :=
          { expired := !expOk now (t.claim b!"exp")
            issuedAt := !notBeforeOk now (t.claim b!"iat")
            notValidYet := !notBeforeOk now (t.claim b!"nbf")
            signatureInvalid := !verifies lib (t.alg.getD []) s k }
        pure (some t, if e.none? then none else some e, s1)

end Jwt
end Goidc
