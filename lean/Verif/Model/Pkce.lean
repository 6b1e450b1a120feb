import Verif.Model.Lib
import Verif.Model.Http

/-! # Packages pkce, basic_auth and id_token -/

namespace Goidc

namespace Pkce

/-- pkce/verifier.go:6 -/
def plain : GoStr := b!"plain"
/-- pkce/verifier.go:7 -/
def s256 : GoStr := b!"S256"

/-- pkce/crypto.go:20-25 `EncodeBase64WithoutPadding`: the part before the first `=`. -/
def encodeBase64WithoutPadding (origin : GoStr) : GoStr :=
  match split 61 (b64Encode true origin) with
  | [] => []
  | h :: _ => h

/-- pkce/crypto.go:27-30 -/
def s256Encode (lib : Lib) (origin : GoStr) : GoStr := encodeBase64WithoutPadding (lib.sha256 origin)

/-- pkce/crypto.go:11-18 `GenRandomCodeVerifier`, as a function of the 32 random bytes. -/
def genCodeVerifier (data : GoStr) : GoStr := encodeBase64WithoutPadding data

/-- pkce/verifier.go:10-16 -/
inductive Verifier
  | plain | s256
  deriving DecidableEq

/-- pkce/verifier.go:21-30 `FindVerifierByMethod`; `none` is the error. -/
def findVerifierByMethod (method : GoStr) : Option Verifier :=
  if method = plain then some .plain
  else if method = s256 then some .s256
  else none

/-- pkce/verifier.go:32-38 `Verify(challenge, verifier)` -/
def Verifier.verify (lib : Lib) : Verifier → GoStr → GoStr → Bool
  | .plain, challenge, verifier => challenge == verifier
  | .s256, challenge, verifier => s256Encode lib verifier == challenge

end Pkce

namespace BasicAuth

/-- basic_auth/util.go:9-12 -/
def token (uid pass : GoStr) : GoStr :=
  b64Encode false (queryEscape uid ++ 58 :: queryEscape pass)

/-- basic_auth/util.go:14-16 -/
def header (uid pass : GoStr) : GoStr := b!"Basic " ++ token uid pass

/-- basic_auth/util.go:18-30 `FindClientCredential` -/
def findClientCredential (r : Req) : Option (GoStr × GoStr) :=
  match r.basicAuth with
  | some p => some p
  | none =>
    if r.formValue b!"client_id" ≠ [] ∧ r.formValue b!"client_secret" ≠ [] then
      some (r.formValue b!"client_id", r.formValue b!"client_secret")
    else none

end BasicAuth

namespace IdToken

/-- id_token/id_token.go:15-28 `Hash`; `none` is the error. -/
def hash (lib : Lib) (alg token : GoStr) : Option GoStr :=
  if hasSuffix alg b!"256" then some (b64Encode false ((lib.sha256 token).take 16))
  else if hasSuffix alg b!"384" then some (b64Encode false ((lib.sha384 token).take 24))
  else if hasSuffix alg b!"512" then some (b64Encode false ((lib.sha512 token).take 32))
  else none

/-- id_token/id_token.go:97-116: the claims set by `rawGen`. -/
def claims (issuer clientId subject nonce : GoStr) (expiredAt authTime issuedAt : Int64)
    (atHash cHash : GoStr) : List (GoStr × JVal) :=
  [(b!"iss", .str issuer), (b!"aud", .str clientId), (b!"sub", .str subject),
    (b!"exp", .float expiredAt)]
  ++ (if nonce = [] then [] else [(b!"nonce", .str nonce)])
  ++ (if issuedAt ≥ 0 then [(b!"iat", .float issuedAt)] else [])
  ++ (if authTime ≥ 0 then [(b!"auth_time", .float authTime)] else [])
  ++ (if atHash = [] then [] else [(b!"at_hash", .str atHash)])
  ++ (if cHash = [] then [] else [(b!"c_hash", .str cHash)])

/-- id_token/id_token.go:86-120 `rawGen`; `none` is the error. -/
def rawGen (lib : Lib) (alg : GoStr) (key : Option Key) (keyId issuer clientId subject nonce : GoStr)
    (expiredAt authTime issuedAt : Int64) (atHash cHash : GoStr) : Option GoStr :=
  match Jwt.family alg with
  | none => none
  | some _ =>
    Jwt.signed lib alg keyId (claims issuer clientId subject nonce expiredAt authTime issuedAt atHash cHash) key

/-- id_token/id_token.go:30-41 `Gen` -/
def gen (lib : Lib) (alg : GoStr) (key : Option Key) (keyId issuer clientId subject nonce : GoStr)
    (expiresIn authTime now : Int64) : Option GoStr :=
  rawGen lib alg key keyId issuer clientId subject nonce (now + expiresIn) authTime now [] []

/-- id_token/id_token.go:43-61 `GenForImplicit` -/
def genForImplicit (lib : Lib) (alg : GoStr) (key : Option Key)
    (keyId issuer clientId subject nonce : GoStr) (expiresIn authTime : Int64) (accessToken : GoStr)
    (now : Int64) : Option GoStr :=
  match (if accessToken = [] then some [] else hash lib alg accessToken) with
  | none => none
  | some atHash =>
    rawGen lib alg key keyId issuer clientId subject nonce (now + expiresIn) authTime now atHash []

/-- id_token/id_token.go:63-84 `GenForHybrid` -/
def genForHybrid (lib : Lib) (alg : GoStr) (key : Option Key)
    (keyId issuer clientId subject nonce : GoStr) (expiresIn authTime : Int64)
    (accessToken code : GoStr) (now : Int64) : Option GoStr :=
  match (if accessToken = [] then some [] else hash lib alg accessToken) with
  | none => none
  | some atHash =>
    match hash lib alg code with
    | none => none
    | some cHash =>
      rawGen lib alg key keyId issuer clientId subject nonce (now + expiresIn) authTime now atHash cHash

end IdToken
end Goidc
