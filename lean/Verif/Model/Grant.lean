import Verif.Model.Assertion
import Verif.Model.Scope

/-! # Package grant -/

namespace Goidc

/-- grant/interface.go:23-30 -/
structure Response where
  tokenType : GoStr
  accessToken : GoStr
  expiresIn : Int64
  refreshToken : GoStr
  scope : GoStr
  idToken : GoStr
  deriving DecidableEq

namespace Response

/-- grant/interface.go:33-39 `NewResponse` -/
def new (token : GoStr) (expiresIn : Int64) : Response :=
  { tokenType := b!"Bearer", accessToken := token, expiresIn := expiresIn,
    refreshToken := [], scope := [], idToken := [] }

/-- grant/interface.go:23-30,41-48 `JSON`: `refresh_token` and `id_token` are dropped when empty; the
`scope` tag is malformed (`json:"scope",omitempty`), so `scope` is always written. -/
def json (r : Response) : GoStr :=
  b!"{" ++ join 44 (
    [jsonString b!"token_type" ++ 58 :: jsonString r.tokenType,
     jsonString b!"access_token" ++ 58 :: jsonString r.accessToken,
     jsonString b!"expires_in" ++ 58 :: itoa r.expiresIn]
    ++ (if r.refreshToken = [] then [] else
        [jsonString b!"refresh_token" ++ 58 :: jsonString r.refreshToken])
    ++ [jsonString b!"scope" ++ 58 :: jsonString r.scope]
    ++ (if r.idToken = [] then [] else [jsonString b!"id_token" ++ 58 :: jsonString r.idToken]))
  ++ b!"}"

end Response

/-- grant/interface.go:15-16 `GrantHandlerFunc`; the `time.Time` argument is its Unix second.
Simplification: a handler returns either a response or an error, never both or neither. -/
abbrev GrantFunc := Req → Client → Int64 → GrantM Response

namespace Grant

/-- grant/authorization_code.go:18 -/
def typeAuthorizationCode : GoStr := b!"authorization_code"
/-- grant/refresh_token.go:13 -/
def typeRefreshToken : GoStr := b!"refresh_token"
/-- grant/password.go:13 -/
def typePassword : GoStr := b!"password"
/-- grant/client_credential.go:13 -/
def typeClientCredentials : GoStr := b!"client_credentials"
/-- grant/jwt.go:21 -/
def typeJWT : GoStr := b!"urn:ietf:params:oauth:client-assertion-type:jwt-bearer"

/-- The repeated "missing parameter" block, e.g. grant/authorization_code.go:26-36. -/
def needParam (gt : GoStr) (c : Client) (r : Req) (name : GoStr) : GrantM GoStr :=
  let v := r.formValue name
  if v = [] then do
    glog .debug gt .missingParam [pParam name, pClient c]
    throw (OAuthError.new .invalidRequest (b!"missing '" ++ name ++ b!"' parameter"))
  else pure v

/-- The response built from a token and the auth info's scope, e.g.
grant/authorization_code.go:307-316. -/
def mkResponse (token : OAuthToken) (scp : GoStr) : Response :=
  { Response.new token.accessToken token.accessTokenExpiresIn with
    scope := scp, refreshToken := token.refreshToken }

/-- grant/authorization_code.go:50-96 -/
def sessSite (c : Client) (code : GoStr) : Site where
  failLevel := .info
  failEvent := .noEnabledAuthSession
  failParams := [pMethod b!"FindAuthSessionByCode", (b!"code", code), pClient c]
  failError := OAuthError.simple .invalidGrant
  unsupParams := [pMethod b!"FindAuthSessionByCode", pClient c]
  serverParams := [pMethod b!"FindAuthSessionByCode", (b!"code", code), pClient c]
  nilParams := [pMethod b!"FindAuthSessionByCode", pClient c]

/-- grant/authorization_code.go:98-150 -/
def codeInfoSite (c : Client) (code : GoStr) : Site where
  failLevel := .info
  failEvent := .noEnabledAuthInfo
  failParams := [pMethod b!"FindActiveAuthInfoById", (b!"code", code), pClient c]
  failError := OAuthError.simple .invalidGrant
  unsupParams := [pMethod b!"FindActiveAuthInfoById", pClient c]
  serverParams := [pMethod b!"FindActiveAuthInfoById", (b!"code", code), pClient c]
  nilParams := [pMethod b!"FindActiveAuthInfoById", pClient c]

/-- grant/authorization_code.go:237-274 (the unsupported and nil log parameters include the client
id; the other grants leave it out, see `createTokenSite`). -/
def codeTokenSite (c : Client) : Site where
  failLevel := .debug
  failEvent := .accessTokenCreationFailed
  failParams := [pMethod b!"CreateOAuthToken", pClient c]
  failError := OAuthError.simple .invalidGrant
  unsupParams := [pMethod b!"CreateOAuthToken", pClient c]
  serverParams := [pMethod b!"CreateOAuthToken", pClient c]
  nilParams := [pMethod b!"CreateOAuthToken", pClient c]

/-- grant/authorization_code.go:277-305 -/
def disableSite (c : Client) : Site where
  failLevel := .error
  failEvent := .disableSessionFailed
  failParams := [pMethod b!"DisableSession", pClient c]
  failError := OAuthError.simple .invalidGrant
  unsupParams := [pMethod b!"DisableCode", pClient c]
  serverParams := [pMethod b!"DisableCode", pClient c]
  nilParams := []

/-- grant/authorization_code.go:171-233: the PKCE check. -/
def checkPkce (lib : Lib) (r : Req) (c : Client) (sess : AuthSession) : GrantM Unit :=
  let gt := typeAuthorizationCode
  let cv := sess.codeVerifier
  if cv = [] then pure ()
  else do
    let cm ← needParam gt c r b!"code_challenge_method"                        -- 176-189
    let cc ← needParam gt c r b!"code_challenge"                               -- 190-203
    match Pkce.findVerifierByMethod cm with                                    -- 205-218
    | none => do
      glog .debug gt .unsupportedCodeChallengeMethod
        [(b!"code_challenge_method", cm), pClient c]
      throw (OAuthError.new .invalidRequest (b!"unsupported 'code_challenge_method': '" ++ cm ++ b!"'"))
    | some v =>
      if v.verify lib cc cv then pure ()                                       -- 219
      else do
        glog .info gt .codeChallengeFailed
          [(b!"code_challenge_method", cm), (b!"code_challenge", cc), pClient c]
        throw (OAuthError.new .invalidGrant (b!"invalid 'code_challenge': '" ++ cc ++ b!"'"))

/-- grant/authorization_code.go:318-350: attach an ID token when the scope contains `openid`. -/
def attachIdToken (lib : Lib) (c : Client) (info : AuthInfo) (sess : AuthSession) (now : Int64)
    (res : Response) : GrantM Response :=
  let gt := typeAuthorizationCode
  if Scope.includeOpenID info.scope then do
    glog .debug gt .idTokenGeneration [pClient c]
    let iss ← gask .issuer
    match IdToken.gen lib c.idTokenAlg c.idTokenKey c.idTokenKeyId iss info.clientId info.subject
        sess.nonce sess.idTokenExpiresIn sess.authTime now with
    | none => do
      glog .warn gt .idTokenGeneration [pClient c]
      throw (OAuthError.simple .serverError)
    | some idt => pure { res with idToken := idt }
  else pure res

/-- grant/authorization_code.go:20-354 `AuthorizationCode` -/
def authorizationCode (lib : Lib) : GrantFunc := fun r c now => do
  let gt := typeAuthorizationCode
  let uri ← needParam gt c r b!"redirect_uri"                                  -- 26-36
  let code ← needParam gt c r b!"code"                                         -- 37-47
  let s ← gask (.findAuthSessionByCode code)                                   -- 49
  let sess ← checkVal gt (sessSite c code) s                                   -- 50-96
  let i ← gask (.findActiveAuthInfoById sess.authId)                           -- 97
  let info ← checkVal gt (codeInfoSite c code) i                               -- 98-150
  if info.clientId ≠ c.id then do                                              -- 151-159
    glog .info gt .authInfoConditionMismatch [pClient c]
    throw (OAuthError.simple .invalidGrant)
  else if sess.redirectURI ≠ uri then do                                       -- 160-169
    glog .info gt .authInfoConditionMismatch [pClient c]
    throw (OAuthError.new .invalidGrant
      (b!"indicated 'redirect_uri' (" ++ uri ++ b!") is not allowed for this client"))
  else do
    checkPkce lib r c sess                                                     -- 171-233
    let tk ← gask (.createOAuthToken (some info) true)                         -- 235
    let token ← checkVal gt (codeTokenSite c) tk                               -- 237-274
    let d ← gask (.disableSession sess)                                        -- 276
    checkErr gt (disableSite c) d                                              -- 277-305
    attachIdToken lib c info sess now (mkResponse token info.scope)            -- 307-351

/-- grant/refresh_token.go:37-85 -/
def refreshSite (c : Client) (rt : GoStr) : Site where
  failLevel := .debug
  failEvent := .noEnabledAccessToken
  failParams := [pMethod b!"FindAccessTokenByRefreshToken", (b!"refresh_token", rt), pClient c]
  failError := OAuthError.simple .invalidGrant
  unsupParams := [pMethod b!"FindAccessTokenByRefreshToken"]
  serverParams := [pMethod b!"FindAccessTokenByRefreshToken", (b!"refresh_token", rt), pClient c]
  nilParams := [pMethod b!"FindAccessTokenByRefreshToken"]

/-- grant/refresh_token.go:99-145 -/
def refreshInfoSite (c : Client) : Site where
  failLevel := .debug
  failEvent := .noEnabledAuthInfo
  failParams := [pMethod b!"FindActiveAuthInfoById", pClient c]
  failError := OAuthError.simple .invalidGrant
  unsupParams := [pMethod b!"FindActiveAuthInfoById"]
  serverParams := [pMethod b!"FindActiveAuthInfoById", pClient c]
  nilParams := [pMethod b!"FindActiveAuthInfoById"]

/-- grant/refresh_token.go:167-213 -/
def doRefreshSite (c : Client) : Site where
  failLevel := .debug
  failEvent := .accessTokenRefreshFailed
  failParams := [pMethod b!"RefreshAccessToken", pClient c]
  failError := OAuthError.simple .invalidGrant
  unsupParams := [pMethod b!"RefreshAccessToken"]
  serverParams := [pMethod b!"RefreshAccessToken", pClient c]
  nilParams := [pMethod b!"RefreshAccessToken"]

/-- grant/refresh_token.go:15-227 `RefreshToken` -/
def refreshToken : GrantFunc := fun r c now => do
  let gt := typeRefreshToken
  let rt ← needParam gt c r b!"refresh_token"                                  -- 21-34
  let o ← gask (.findOAuthTokenByRefreshToken rt)                              -- 36
  let old ← checkVal gt (refreshSite c rt) o                                   -- 37-85
  if old.refreshTokenExpiresIn + old.createdAt < now then do                   -- 87-96
    glog .info gt .refreshTokenConditionMismatch [pClient c]
    throw (OAuthError.new .invalidGrant b!"expired 'refresh_token'")
  else do
    let i ← gask (.findActiveAuthInfoById old.authId)                          -- 98
    let info ← checkVal gt (refreshInfoSite c) i                               -- 99-145
    if info.clientId ≠ c.id then do                                            -- 146-154
      glog .info gt .authInfoConditionMismatch [pClient c]
      throw (OAuthError.simple .invalidGrant)
    else if Scope.includeOfflineAccess info.scope = false then do              -- 155-164
      glog .info gt .scopeConditionMismatch [pClient c]
      throw (OAuthError.simple .invalidGrant)
    else do
      let tk ← gask (.refreshAccessToken info old)                             -- 166
      let token ← checkVal gt (doRefreshSite c) tk                             -- 167-213
      pure (mkResponse token info.scope)                                       -- 215-224

/-- grant/password.go:45-53, client_credential.go:32-41, jwt.go:115-124: scope gate. -/
def checkScope (gt : GoStr) (c : Client) (scp : GoStr) : GrantM Unit :=
  if scp ≠ [] ∧ c.canUseScope .directGrant scp = false then do
    glog .info gt .invalidScope [(b!"scope", scp), pClient c]
    throw (OAuthError.simple .invalidScope)
  else pure ()

/-- grant/password.go:98-143, client_credential.go:44-83, jwt.go:127-166 -/
def createInfoSite (c : Client) : Site where
  failLevel := .debug
  failEvent := .authInfoCreationFailed
  failParams := [pMethod b!"CreateOrUpdateAuthInfo", pClient c]
  failError := OAuthError.simple .invalidGrant
  unsupParams := [pMethod b!"CreateOrUpdateAuthInfo"]
  serverParams := [pMethod b!"CreateOrUpdateAuthInfo", pClient c]
  nilParams := [pMethod b!"CreateOrUpdateAuthInfo"]

/-- grant/password.go:147-186, client_credential.go:87-125, jwt.go:170-210 -/
def createTokenSite (c : Client) : Site where
  failLevel := .debug
  failEvent := .accessTokenCreationFailed
  failParams := [pMethod b!"CreateOAuthToken", pClient c]
  failError := OAuthError.simple .invalidGrant
  unsupParams := [pMethod b!"CreateOAuthToken"]
  serverParams := [pMethod b!"CreateOAuthToken", pClient c]
  nilParams := [pMethod b!"CreateOAuthToken"]

/-- The tail shared word for word by the three direct grants: grant/password.go:97-199,
client_credential.go:43-137, jwt.go:126-222. -/
def issue (gt : GoStr) (c : Client) (uid : Int64) (scp : GoStr) : GrantM Response := do
  let i ← gask (.createOrUpdateAuthInfo uid c.id scp)
  let info ← checkVal gt (createInfoSite c) i
  let tk ← gask (.createOAuthToken (some info) true)
  let token ← checkVal gt (createTokenSite c) tk
  pure (mkResponse token info.scope)

/-- grant/password.go:56-95 (note the password in the log parameters, as in the source). -/
def userSite (c : Client) (username password : GoStr) : Site where
  failLevel := .debug
  failEvent := .noEnabledUserId
  failParams := [pMethod b!"FindUserId", pClient c, (b!"username", username), (b!"password", password)]
  failError := OAuthError.simple .invalidGrant
  unsupParams := [pMethod b!"FindUserId"]
  serverParams := [pMethod b!"FindUserId", pClient c, (b!"username", username),
    (b!"password", password)]
  nilParams := []

/-- grant/password.go:15-202 `Password` -/
def password : GrantFunc := fun r c _ => do
  let gt := typePassword
  let username ← needParam gt c r b!"username"                                 -- 21-31
  let password ← needParam gt c r b!"password"                                 -- 33-43
  let scp := r.formValue b!"scope"                                             -- 45
  checkScope gt c scp                                                          -- 46-53
  let u ← gask (.findUserId username password)                                 -- 55
  checkErr gt (userSite c username password) u.2                               -- 56-95
  issue gt c u.1 scp                                                           -- 97-199

/-- grant/client_credential.go:15-140 `ClientCredentials` -/
def clientCredentials : GrantFunc := fun r c _ => do
  let gt := typeClientCredentials
  if c.ownerUserId < 0 then do                                                 -- 21-30
    glog .warn gt .noEnabledUserId [pMethod b!"OwnerUserId", pClient c]
    throw (OAuthError.simple .invalidGrant)
  else do
    let scp := r.formValue b!"scope"                                           -- 32
    checkScope gt c scp                                                        -- 33-41
    issue gt c c.ownerUserId scp                                               -- 43-137

/-- grant/jwt.go:41-60: the key function of the JWT grant. -/
def jwtKeyFunc (c : Client) (t : JwtToken) : Prog (Jwt.KeyRes × Unit) :=
  match c.assertionKey (t.alg.getD []) (t.kid.getD []) with
  | none => pure (.err, ())
  | some k => pure (.key k, ())

/-- grant/jwt.go:80-113 -/
def subjectSite (c : Client) (sub : GoStr) : Site where
  failLevel := .debug
  failEvent := .noEnabledUserId
  failParams := [pMethod b!"FindUserIdBySubject", pClient c, (b!"subject", sub)]
  failError := OAuthError.new .invalidGrant (b!"invalid 'sub' parameter '" ++ sub ++ b!"' in assertion")
  unsupParams := [pMethod b!"FindUserIdBySubject"]
  serverParams := [pMethod b!"FindUserIdBySubject", pClient c]
  nilParams := []

/-- grant/jwt.go:23-225 `JWT` -/
def jwt (lib : Lib) : GrantFunc := fun r c _ => do
  let gt := typeJWT
  let a ← needParam gt c r b!"assertion"                                       -- 29-39
  let p ← ExceptT.lift (Jwt.parse lib a () (jwtKeyFunc c))                     -- 41-60
  Assertion.handle a gt (some c) p.1 p.2.1                                     -- 62-65
  match p.1 with
  | none => gpanic                                                             -- not reachable
  | some t =>
    match t.claimStr b!"sub" with                                              -- 66-77
    | none => do
      glog .debug gt .missingParam [pParam b!"sub", pClient c]
      throw (OAuthError.new .invalidRequest b!"'sub' parameter not found")
    | some sub => do
      let u ← gask (.findUserIdBySubject sub)                                  -- 79
      checkErr gt (subjectSite c sub) u.2                                      -- 80-113
      let scp := r.formValue b!"scope"                                         -- 115
      checkScope gt c scp                                                      -- 116-124
      issue gt c u.1 scp                                                       -- 126-222

end Grant
end Goidc
