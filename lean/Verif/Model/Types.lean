import Verif.Model.Flow
import Verif.Model.Prompt
import Verif.Model.Log
import Verif.Model.OAuthError

/-!
# Data exchanged with the application (package bridge) and with net/http
-/

namespace Goidc

/-- bridge/errors.go:5-9; `other` stands for ints outside the three constants. -/
inductive ErrType
  | unsupported | serverError | failed
  | other (n : Nat)
  deriving DecidableEq, Repr

/-- The dynamic types of the `interface{}` keys passed to golang-jwt.  Key material is an abstract
byte string (for HMAC the secret itself, for RSA/ECDSA an identifier of the key pair). -/
inductive Key
  | bytes (b : GoStr)        -- []byte
  | rsaPriv (k : GoStr)      -- *rsa.PrivateKey
  | rsaPub (k : GoStr)       -- *rsa.PublicKey
  | ecPriv (k : GoStr)       -- *ecdsa.PrivateKey
  | ecPub (k : GoStr)        -- *ecdsa.PublicKey
  | unsafeNone               -- jwt.UnsafeAllowNoneSignatureType
  | other (b : GoStr)        -- any other non-nil value (string, typed nil, ...)
  deriving DecidableEq, Repr

/-- bridge/interface.go:10-24 `Client`.  Simplification: the methods are pure functions that do not
panic (they are the application's code).  `none` keys are Go `nil`. -/
structure Client where
  id : GoStr
  ownerUserId : Int64
  idTokenAlg : GoStr
  idTokenKeyId : GoStr
  idTokenKey : Option Key
  matchSecret : GoStr → Bool
  canUseFlow : FlowType → Bool
  canUseGrantType : GoStr → Bool
  canUseScope : FlowType → GoStr → Bool
  canUseRedirectURI : GoStr → Bool
  assertionKey : GoStr → GoStr → Option Key
  noConsentPromptPolicy : Prompt.NoConsentPromptPolicy
  nonePromptPolicy : Prompt.NonePromptPolicy

/-- bridge/interface.go:26-35 -/
structure AuthInfo where
  id : Int64
  clientId : GoStr
  userId : Int64
  subject : GoStr
  scope : GoStr
  authorizedAt : Int64
  isActive : Bool
  deriving DecidableEq

/-- bridge/interface.go:37-47 -/
structure AuthSession where
  code : GoStr
  authId : Int64
  authTime : Int64
  idTokenExpiresIn : Int64
  redirectURI : GoStr
  codeVerifier : GoStr
  expiresIn : Int64
  nonce : GoStr
  createdAt : Int64
  deriving DecidableEq

/-- bridge/interface.go:49-59 -/
structure OAuthToken where
  authId : Int64
  accessToken : GoStr
  accessTokenExpiresIn : Int64
  refreshedAt : Int64
  refreshToken : GoStr
  refreshTokenExpiresIn : Int64
  createdAt : Int64
  deriving DecidableEq

/-- authorization/request.go:57-72; `flow = none` is the nil pointer. -/
structure Request where
  flow : Option Flow
  clientId : GoStr
  scope : GoStr
  redirectURI : GoStr
  responseMode : GoStr
  state : GoStr
  codeVerifier : GoStr
  nonce : GoStr
  display : GoStr
  prompt : GoStr
  maxAge : Int64
  uiLocale : GoStr
  idTokenHint : GoStr
  loginHint : GoStr
  deriving DecidableEq

/-- authorization/request.go:74-81 -/
structure Session where
  redirectURI : GoStr
  code : GoStr
  expiresIn : Int64
  codeVerifier : GoStr
  nonce : GoStr
  authTime : Int64
  deriving DecidableEq

/-- authorization/request.go:113-122 `ToSession` -/
def Request.toSession (r : Request) (code : GoStr) (expiresIn authTime : Int64) : Session :=
  { code := code, expiresIn := expiresIn, redirectURI := r.redirectURI,
    codeVerifier := r.codeVerifier, nonce := r.nonce, authTime := authTime }

/-- The response written to an `http.ResponseWriter`: the `Header().Set` calls, `WriteHeader` and
`Write` of one response are one record. -/
structure HttpResp where
  status : Nat
  headers : Params
  body : GoStr
  deriving DecidableEq

/-- One line handed to the logger.  Simplification: the constant message text is left out (its only
non-constant instances interpolate an id-token generation error, authorization_code.go:343 and
authorization_endpoint.go, see DESIGN.md); `endpoint` is "authorization_endpoint", "token_endpoint" or
"protected_resource" (log/text.go:131-144). -/
structure LogLine where
  level : LogLevel
  endpoint : GoStr
  realm : GoStr
  event : LogEvent
  params : Params
  deriving DecidableEq

end Goidc
