import Verif.Model.Pkce

/-! # Error handling shared by the grants, and package assertion (assertion/error.go) -/

namespace Goidc

/-- A call to the application inside a grant handler. -/
def gask (q : Query) : GrantM q.Resp := ExceptT.lift (ask q)

/-- A log line inside a grant handler. -/
def glog (level : LogLevel) (gt : GoStr) (ev : LogEvent) (params : Params) : GrantM Unit :=
  ExceptT.lift (tlog level gt ev params)

/-- A Go panic inside a grant handler. -/
def gpanic {α : Type} : GrantM α := ExceptT.mk .panic

/-- The site-specific parts of the error-handling block that follows every `DataInterface` call:
level, event and parameters of the log line for `ErrFailed`, the error returned for `ErrFailed`, and
the log parameters of the `ErrUnsupported`, other-error and `(nil, nil)` branches. -/
structure Site where
  failLevel : LogLevel
  failEvent : LogEvent
  failParams : Params
  failError : OAuthError
  unsupParams : Params
  serverParams : Params
  nilParams : Params

/-- The error block, e.g. grant/authorization_code.go:50-85: `ErrFailed` is logged and answered with
the site's error, `ErrUnsupported` and every other kind become `server_error`. -/
def onErr {α : Type} (gt : GoStr) (s : Site) : ErrType → GrantM α
  | .failed => do
    glog s.failLevel gt s.failEvent s.failParams
    throw s.failError
  | .unsupported => do
    glog .error gt .interfaceUnsupported s.unsupParams
    throw (OAuthError.simple .serverError)
  | _ => do
    glog .warn gt .interfaceServerError s.serverParams
    throw (OAuthError.simple .serverError)

/-- The block for `(T, *Error)` results, e.g. grant/authorization_code.go:50-96; `(nil, nil)` is
logged as an interface error and becomes `server_error`. -/
def checkVal {α : Type} (gt : GoStr) (s : Site) : Option α × Option ErrType → GrantM α
  | (_, some e) => onErr gt s e
  | (some v, none) => pure v
  | (none, none) => do
    glog .error gt .interfaceError s.nilParams
    throw (OAuthError.simple .serverError)

/-- The block for `*Error` results, e.g. grant/authorization_code.go:277-305. -/
def checkErr (gt : GoStr) (s : Site) : Option ErrType → GrantM Unit
  | some e => onErr gt s e
  | none => pure ()

/-- Log parameter helpers. -/
def pMethod (m : GoStr) : GoStr × GoStr := (b!"method", m)
/-- `"client_id": c.GetId()` -/
def pClient (c : Client) : GoStr × GoStr := (b!"client_id", c.id)
/-- `"param": name` -/
def pParam (n : GoStr) : GoStr × GoStr := (b!"param", n)

namespace Assertion

/-- `c.GetId()` on a possibly nil `bridge.Client`: a nil interface panics. -/
def clientId : Option Client → GrantM GoStr
  | some c => pure c.id
  | none => gpanic

/-- Log line with the assertion and the client id (assertion/error.go:49-52,60-63,...). -/
def alog (level : LogLevel) (gt a : GoStr) (c : Option Client) : GrantM Unit := do
  let cid ← clientId c
  glog level gt .assertionConditionMismatch [(b!"assertion", a), (b!"client_id", cid)]

/-- assertion/error.go:17-100: the branches on the jwt validation error. -/
def onJwtErr {α : Type} (a gt : GoStr) (c : Option Client) (ve : Jwt.VErr) : GrantM α :=
  if ve.unverifiable then
    match ve.inner with
    | some e => do                                                             -- 26-33
      glog .debug gt .assertionConditionMismatch [(b!"assertion", a)]
      throw e
    | none => do                                                               -- 35-43
      glog .debug gt .assertionConditionMismatch [(b!"assertion", a)]
      throw (OAuthError.new .invalidGrant b!"assertion unverifiable")
  else if ve.malformed then do                                                 -- 47-56
    alog .debug gt a c
    throw (OAuthError.new .invalidGrant b!"invalid assertion format")
  else if ve.signatureInvalid then do                                          -- 58-68
    alog .info gt a c
    throw (OAuthError.new .invalidClient b!"invalid assertion signature")
  else if ve.expired then do                                                   -- 70-79
    alog .info gt a c
    throw (OAuthError.new .invalidGrant b!"assertion expired")
  else if ve.notValidYet then do                                               -- 81-90
    alog .info gt a c
    throw (OAuthError.new .invalidGrant b!"assertion not valid yet")
  else do                                                                      -- 92-99
    alog .warn gt a c
    throw (OAuthError.new .invalidGrant b!"invalid assertion")

/-- assertion/error.go:121-129 and 142-150: the numeric value of a claim, `none` when it does not
"exist". -/
def numClaim : Option JVal → Option Int64
  | some (.number (some n)) => some n
  | some (.float n) => some n
  | _ => none

/-- assertion/error.go:159-206: the log parameters of the RecordAssertionClaims failures. -/
def recordSite (a cid jti : GoStr) (iat exp : Int64) : Site where
  failLevel := .info
  failEvent := .assertionConditionMismatch
  failParams := [pMethod b!"RecordAssertionClaims", (b!"client_id", cid), (b!"jti", jti),
    (b!"exp", itoa exp), (b!"iat", itoa iat), (b!"assertion", a)]
  failError := OAuthError.simple .invalidRequest
  unsupParams := [pMethod b!"RecordAssertionClaims", (b!"client_id", cid)]
  serverParams := [pMethod b!"RecordAssertionClaims", (b!"client_id", cid), (b!"jti", jti),
    (b!"exp", itoa exp), (b!"iat", itoa iat), (b!"assertion", a)]
  nilParams := []

/-- assertion/error.go:114-242: checks on the claims of a verified token. -/
def checkClaims (a gt : GoStr) (c : Option Client) (t : JwtToken) : GrantM Unit := do
  match numClaim (t.claim b!"exp") with                                        -- 120-140
  | none => do
    let cid ← clientId c
    glog .debug gt .missingParam [pParam b!"exp", (b!"client_id", cid)]
    throw (OAuthError.new .invalidRequest b!"'exp' parameter not found in assertion")
  | some exp => do
    let iat := (numClaim (t.claim b!"iat")).getD (-1)                          -- 142-153
    let jti := (t.claimStr b!"jti").getD []                                    -- 155-157
    let cid ← clientId c
    let rec' ← gask (.recordAssertionClaims cid jti iat exp)                   -- 159
    checkErr gt (recordSite a cid jti iat exp) rec'                            -- 160-206
    match t.claimStr b!"aud" with                                              -- 208-218
    | none => do
      glog .debug gt .missingParam [pParam b!"aud", (b!"client_id", cid)]
      throw (OAuthError.new .invalidRequest b!"'aud' parameter not found in assertion")
    | some aud => do
      let service ← gask .issuer                                               -- 220
      if service = [] then do                                                  -- 221-229
        glog .error gt .interfaceUnsupported [pMethod b!"Issure"]
        throw (OAuthError.simple .serverError)
      else if aud ≠ service then do                                            -- 231-240
        alog .info gt a c
        throw (OAuthError.new .invalidGrant
          (b!"invalid 'aud' parameter '" ++ aud ++ b!"' in assertion"))
      else pure ()

/-- assertion/error.go:13-243 `HandleAssertionError`.  `!t.Valid` (102-112) cannot hold when the
library returned no error; a nil token without error cannot occur either (modelled as a panic). -/
def handle (a gt : GoStr) (c : Option Client) (t : Option JwtToken) (jwtErr : Option Jwt.VErr) :
    GrantM Unit :=
  match jwtErr with
  | some ve => onJwtErr a gt c ve
  | none =>
    match t with
    | none => gpanic
    | some t => checkClaims a gt c t

end Assertion
end Goidc
