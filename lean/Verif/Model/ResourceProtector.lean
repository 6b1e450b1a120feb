import Verif.Model.TokenEndpoint

/-! # The resource protector (resource_protector.go) -/

namespace Goidc

/-- resource_protector.go:16-22 `ResourceProtector` -/
structure ProtectorCfg where
  realm : GoStr
  errorURIBuilder : Option (OAuthErrorType → GoStr)
  acceptance : AcceptanceMethod

namespace ResourceProtector

/-- resource_protector.go:24-31 `NewResourceProtector` -/
def new (realm : GoStr) : ProtectorCfg :=
  { realm := realm, errorURIBuilder := none, acceptance := .fromHeader }

/-- log/text.go:141-144 `ProtectedResourceLog` -/
def plog (level : LogLevel) (path : GoStr) (ev : LogEvent) (params : Params) : Prog Unit :=
  logAt level b!"protected_resource" path ev params

/-- resource_protector.go:53-79 `findTokenFromRequest` -/
def findTokenFromRequest (cfg : ProtectorCfg) (r : Req) : GoStr :=
  let header := r.header b!"Authorization"
  if header = [] then []
  else
    match split 32 header with
    | p0 :: p1 :: _ =>
      if toLower p0 ≠ b!"bearer" then []
      else if p1 ≠ [] then p1
      else
        match cfg.acceptance with
        | .fromHeader => []
        | .fromHeaderAndPostBody => r.postFormValue b!"access_token"
        | .fromAll => r.formValue b!"access_token"
        | .other => []
    | _ => []

/-- resource_protector.go:243-244 -/
def withURI (cfg : ProtectorCfg) (err : OAuthError) : OAuthError :=
  if err.uri = [] then
    match cfg.errorURIBuilder with
    | some f => { err with uri := f err.type }
    | none => err
  else err

/-- resource_protector.go:242-248 `unauthorize` -/
def unauthorize (cfg : ProtectorCfg) (lib : Lib) (err : OAuthError) : Prog Unit :=
  respond ⟨err.statusCode,
    [(b!"WWW-Authenticate", (withURI cfg err).header lib.isPrint cfg.realm)], []⟩

/-- `w.WriteHeader(http.StatusInternalServerError)` (resource_protector.go:142,155,165,207,220,230) -/
def internalError : Prog Unit := respond ⟨500, [], []⟩

/-- resource_protector.go:235-239: the identity headers, and the result `true`.  A nil `info` makes
`info.GetUserId()` panic. -/
def admit (r : Req) : Option AuthInfo → Prog (Bool × Req)
  | none => .panic
  | some info =>
    pure (true, ((r.setHeader b!"X-OAUTH-USER-ID" (itoa info.userId)).setHeader
      b!"X-OAUTH-CLIENT-ID" info.clientId).setHeader b!"X-OAUTH-SCOPE" info.scope)

/-- resource_protector.go:185-239: the auth info lookup.  The nil check at line 224 tests `at`, which
is never nil there, so `(nil, nil)` reaches line 235. -/
def validateInfo (cfg : ProtectorCfg) (lib : Lib) (r : Req) (rt : GoStr) (atk : OAuthToken) :
    Prog (Bool × Req) := do
  match ← ask (.findActiveAuthInfoById atk.authId) with                        -- 185
  | (_, some .failed) => do                                                    -- 187-198
    tlog .info r.path .noEnabledAuthInfo
      [pMethod b!"FindActiveAuthInfoById", (b!"access_token", rt)]
    unauthorize cfg lib (OAuthError.simple .invalidToken)
    pure (false, r)
  | (_, some .unsupported) => do                                               -- 200-208
    plog .error r.path .interfaceUnsupported [pMethod b!"FindActiveAuthInfoById"]
    internalError
    pure (false, r)
  | (_, some _) => do                                                          -- 210-222
    tlog .warn r.path .interfaceServerError
      [pMethod b!"FindActiveAuthInfoById", (b!"access_token", rt)]
    internalError
    pure (false, r)
  | (info, none) => admit r info                                               -- 223-239

/-- resource_protector.go:170-239: the expiry check and what follows. -/
def validateToken (cfg : ProtectorCfg) (lib : Lib) (r : Req) (rt : GoStr) (atk : OAuthToken) :
    Prog (Bool × Req) := do
  let now ← ask .now
  if atk.refreshedAt + atk.accessTokenExpiresIn < now then do                  -- 170-183
    let now2 ← ask .now
    tlog .info r.path .noEnabledAuthInfo [(b!"access_token", rt),
      (b!"refreshed_at", itoa atk.refreshedAt),
      (b!"access_token_expires_in", itoa atk.accessTokenExpiresIn),
      (b!"current_time", itoa now2)]
    unauthorize cfg lib (OAuthError.new .invalidToken b!"your access_token is expired")
    pure (false, r)
  else validateInfo cfg lib r rt atk

/-- resource_protector.go:104-240 `Validate`: the boolean result and the request with the headers it
set. -/
def validate (cfg : ProtectorCfg) (lib : Lib) (r : Req) : Prog (Bool × Req) :=
  let rt := findTokenFromRequest cfg r                                         -- 107
  if rt = [] then do                                                           -- 109-118
    tlog .debug r.path .noCredential []
    unauthorize cfg lib (OAuthError.simple .invalidRequest)
    pure (false, r)
  else do
    match ← ask (.findOAuthTokenByAccessToken rt) with                         -- 120
    | (_, some .failed) => do                                                  -- 122-133
      plog .info r.path .authenticationFailed [(b!"access_token", rt),
        (b!"remote_addr", r.header b!"REMOTE_ADDR"),
        (b!"x-forwarded-for", r.header b!"X-FORWARDED-FOR")]
      unauthorize cfg lib (OAuthError.simple .invalidToken)
      pure (false, r)
    | (_, some .unsupported) => do                                             -- 135-143
      plog .error r.path .interfaceUnsupported [pMethod b!"FindOAuthTokenByAccessToken"]
      internalError
      pure (false, r)
    | (_, some _) => do                                                        -- 145-157
      plog .warn r.path .interfaceServerError
        [pMethod b!"FindOAuthTokenByAccessToken", (b!"access_token", rt)]
      internalError
      pure (false, r)
    | (none, none) => do                                                       -- 159-167
      plog .error r.path .interfaceError [pMethod b!"FindOAuthTokenByAccessToken"]
      internalError
      pure (false, r)
    | (some atk, none) => validateToken cfg lib r rt atk                       -- 170-239

/-- `scopeMap[r.URL.Path]` -/
def lookupScopes (m : List (GoStr × List GoStr)) (path : GoStr) : Option (List GoStr) :=
  match m.find? (fun kv => kv.1 == path) with
  | some kv => some kv.2
  | none => none

/-- resource_protector.go:81-102 `ValidateWithScopes` -/
def validateWithScopes (cfg : ProtectorCfg) (lib : Lib) (r : Req)
    (scopeMap : List (GoStr × List GoStr)) : Prog (Bool × Req) := do
  let (ok, r') ← validate cfg lib r
  if ok = false then pure (false, r')                                          -- 84-86
  else
    match lookupScopes scopeMap r'.path with                                   -- 88
    | some scopes =>
      let res := Scope.includeAll (r'.header b!"X-OAUTH-SCOPE") scopes         -- 89-90
      if res.1 then pure (true, r')
      else do                                                                  -- 93-98
        unauthorize cfg lib (OAuthError.new .insufficientScope
          (b!"this endpoint requires " ++ quote lib.isPrint res.2 ++
            b!" scope, but the access_token was't issued for."))
        pure (false, r')
    | none => pure (true, r')                                                  -- 99-101

end ResourceProtector
end Goidc
