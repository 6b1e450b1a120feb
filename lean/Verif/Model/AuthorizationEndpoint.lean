import Verif.Model.AuthResponse
import Verif.Model.Assertion
import Verif.Model.Scope
import Verif.Model.ResponseMode

/-! # The authorization endpoint (authorization_endpoint.go) -/

namespace Goidc

/-- authorization/request.go:42-55 `Policy` (Go `int` is 64-bit). -/
structure Policy where
  maxMaxAge : Int64
  minMaxAge : Int64
  allowEmptyScope : Bool
  maxNonceLength : Int64
  maxCodeVerifierLength : Int64
  consentOmissionPeriod : Int64
  authSessionExpiresIn : Int64
  idTokenExpiresIn : Int64
  defaultCodeMode : GoStr
  defaultImplicitMode : GoStr
  ignoreInvalidResponseMode : Bool
  requireSecurityLevelCheck : Bool

/-- authorization/request.go:31-39,84-99 `DefaultPolicy` -/
def Policy.default : Policy where
  maxMaxAge := 86400
  minMaxAge := 60
  allowEmptyScope := false
  maxNonceLength := 255
  maxCodeVerifierLength := 255
  consentOmissionPeriod := 86400
  authSessionExpiresIn := 60
  idTokenExpiresIn := 86400
  defaultCodeMode := ResponseMode.query
  defaultImplicitMode := ResponseMode.fragment
  ignoreInvalidResponseMode := true
  requireSecurityLevelCheck := true

/-- A body of `HandleRequest`: `throw b` is Go's `return b`. -/
abbrev AuthM := ExceptT Bool Prog

namespace AuthzEndpoint

/-- A call inside `HandleRequest`. -/
def aask (q : Query) : AuthM q.Resp := ExceptT.lift (ask q)

/-- log/text.go:131-134 `AuthorizationEndpointLog` -/
def plog (level : LogLevel) (r : Req) (ev : LogEvent) (params : Params) : Prog Unit :=
  logAt level b!"authorization_endpoint" r.path ev params

/-- A log line inside `HandleRequest`. -/
def alog (level : LogLevel) (r : Req) (ev : LogEvent) (params : Params) : AuthM Unit :=
  ExceptT.lift (plog level r ev params)

/-- A Go panic. -/
def apanic {α : Type} : AuthM α := ExceptT.mk .panic

/-- `callbacks.ShowErrorScreen(n); return false` -/
def showError {α : Type} (n : Nat) : AuthM α := do
  aask (.showErrorScreen n)
  throw false

/-- `rh.Error(ruri, typ, desc, state); return false` -/
def errorTo {α : Type} (lib : Lib) (r : Req) (mode ruri typ desc state : GoStr) : AuthM α := do
  ExceptT.lift (AuthResponse.error lib r mode ruri typ desc state)
  throw false

/-- The block after a failing callback: log at error level, `server_error`, return false (e.g.
authorization_endpoint.go:576-587). -/
def callbackFailed {α : Type} (lib : Lib) (r : Req) (mode ruri state method : GoStr) : AuthM α := do
  alog .error r .interfaceError [pMethod method]
  errorTo lib r mode ruri b!"server_error" [] state

/-- authorization_endpoint.go:76-129: the client lookup.  An error kind outside the three constants
falls through with whatever client was returned; nil then panics at line 131. -/
def findClient (r : Req) (cid : GoStr) : AuthM Client := do
  match ← aask (.findClientById cid) with
  | (_, some .failed) => do
    alog .info r .noEnabledClient [pMethod b!"FindClientById", (b!"client_id", cid)]
    showError 0
  | (_, some .unsupported) => do
    alog .error r .interfaceUnsupported [pMethod b!"FindClientById"]
    showError 3
  | (_, some .serverError) => do
    alog .error r .interfaceError [pMethod b!"FindClientById", (b!"client_id", cid)]
    showError 3
  | (none, some (.other _)) => apanic
  | (some clnt, some (.other _)) => pure clnt
  | (none, none) => do
    alog .error r .interfaceError [pMethod b!"FindClientById", (b!"client_id", cid)]
    showError 3
  | (some clnt, none) => pure clnt

/-- authorization_endpoint.go:149-179: the flow from `response_type`. -/
def judgeFlow (lib : Lib) (r : Req) (ruri rmode state : GoStr) : AuthM Flow :=
  let rt := r.formValue b!"response_type"
  if rt = [] then do
    alog .debug r .missingParam [pParam b!"response_type"]
    errorTo lib r rmode ruri b!"invalid_request" b!"missing 'response_type'" state
  else
    match Flow.judgeByResponseType rt with
    | none => do
      alog .debug r .invalidResponseType [(b!"response_type", rt)]
      errorTo lib r rmode ruri b!"invalid_request" (b!"invalid 'response_type:" ++ rt ++ b!"'") state
    | some f => pure f

/-- authorization_endpoint.go:181-191 -/
def defaultMode (policy : Policy) (f : Flow) : GoStr :=
  match f.type with
  | .authorizationCode => policy.defaultCodeMode
  | .implicit => policy.defaultImplicitMode
  | .hybrid => policy.defaultImplicitMode
  | .directGrant => policy.defaultCodeMode

/-- authorization_endpoint.go:193-234: default or validate the requested response mode. -/
def pickMode (policy : Policy) (lib : Lib) (r : Req) (f : Flow) (ruri rmode state : GoStr) :
    AuthM GoStr :=
  let defaultRM := defaultMode policy f
  if rmode = [] then do
    alog .debug r .missingParam [(b!"response_mode", defaultRM)]
    pure defaultRM
  else if ResponseMode.validate rmode = false then
    if policy.ignoreInvalidResponseMode then do
      alog .debug r .invalidResponseMode [(b!"response_mode", rmode), (b!"default", defaultRM)]
      pure defaultRM
    else do
      alog .debug r .invalidResponseMode [(b!"response_mode", rmode)]
      errorTo lib r defaultRM ruri b!"invalid_request"
        (b!"unknown 'response_mode': '" ++ rmode ++ b!"'") state
  else pure rmode

/-- authorization_endpoint.go:236-266: the security level check. -/
def checkModeLevel (policy : Policy) (lib : Lib) (r : Req) (f : Flow) (ruri rmode state : GoStr) :
    AuthM GoStr :=
  let defaultRM := defaultMode policy f
  let rt := r.formValue b!"response_type"
  if policy.requireSecurityLevelCheck ∧ ResponseMode.compareSecurityLevel rmode defaultRM = false then
    if policy.ignoreInvalidResponseMode then do
      alog .debug r .invalidResponseMode [(b!"response_mode", rmode), (b!"default", defaultRM)]
      pure defaultRM
    else do
      alog .debug r .invalidResponseMode [(b!"response_mode", rmode)]
      errorTo lib r defaultRM ruri b!"invalid_request"
        (b!"'response_mode:" ++ rmode ++ b!"' isn't allowed for 'response_type:" ++ rt ++ b!"'") state
  else pure rmode

/-- authorization_endpoint.go:270-282 -/
def checkFlow (lib : Lib) (r : Req) (clnt : Client) (f : Flow) (mode ruri state : GoStr) : AuthM Unit :=
  if clnt.canUseFlow f.type = false then do
    alog .debug r .invalidResponseType
      [(b!"response_type", r.formValue b!"response_type"), (b!"flow_type", Flow.typeString f.type)]
    errorTo lib r mode ruri b!"unauthorized_client" [] state
  else pure ()

/-- authorization_endpoint.go:284-306 -/
def checkDisplay (lib : Lib) (r : Req) (mode ruri state : GoStr) : AuthM GoStr :=
  let d := r.formValue b!"display"
  if d = [] then pure b!"page"
  else if d = b!"page" ∨ d = b!"popup" ∨ d = b!"wap" ∨ d = b!"touch" then pure d
  else do
    alog .debug r .invalidDisplay [(b!"display", d)]
    errorTo lib r mode ruri b!"invalid_request" (b!"unknown 'display': '" ++ d ++ b!"'") state

/-- authorization_endpoint.go:308-354; absent is 0. -/
def checkMaxAge (policy : Policy) (lib : Lib) (r : Req) (mode ruri state : GoStr) : AuthM Int64 :=
  let mas := r.formValue b!"max_age"
  if mas = [] then pure 0
  else
    match atoi mas with
    | none => do
      alog .debug r .invalidMaxAge []
      errorTo lib r mode ruri b!"invalid_request"
        (b!"'max_age' should be integer: '" ++ mas ++ b!"'") state
    | some ma =>
      if ma < policy.minMaxAge then do
        alog .debug r .invalidMaxAge [(b!"max_age", mas)]
        errorTo lib r mode ruri b!"invalid_request"
          (b!"'max_age' should be greater than " ++ itoa (policy.minMaxAge - 1)) state
      else if ma > policy.maxMaxAge then do
        alog .debug r .invalidMaxAge [(b!"max_age", mas)]
        errorTo lib r mode ruri b!"invalid_request"
          (b!"'max_age' should be less than " ++ itoa (policy.maxMaxAge + 1)) state
      else pure ma

/-- authorization_endpoint.go:356-383 -/
def checkPrompt (lib : Lib) (r : Req) (mode ruri state : GoStr) : AuthM GoStr :=
  let p := r.formValue b!"prompt"
  if p = [] then do
    alog .debug r .missingParam [pParam b!"prompt"]
    pure []
  else if Prompt.validate p then pure p
  else do
    alog .debug r .invalidPrompt [(b!"prompt", p)]
    errorTo lib r mode ruri b!"invalid_request" (b!"invalid 'prompt': '" ++ p ++ b!"'") state

/-- authorization_endpoint.go:385-422: the `offline_access` rules. -/
def offlineScope (policy : Policy) (lib : Lib) (r : Req) (f : Flow) (prmpt mode ruri state : GoStr) :
    AuthM GoStr :=
  let scp := r.formValue b!"scope"
  if Scope.includeOfflineAccess scp then
    if f.type = .implicit ∨ Prompt.includeConsent prmpt = false then do        -- 389-400
      alog .debug r .invalidScope [(b!"scope", b!"offline_access")]
      pure (Scope.removeOfflineAccess scp)
    else if policy.allowEmptyScope = false ∧
        (Scope.removeOfflineAccess (Scope.removeOpenID scp)).length = 0 then do -- 402-420
      alog .debug r .invalidScope [(b!"scope", b!"offline_access")]
      errorTo lib r mode ruri b!"invalid_request"
        b!"when you request 'offline_access' scope, you should set other scope except for 'openid'"
        state
    else pure scp
  else pure scp

/-- authorization_endpoint.go:424-465: empty scope, `openid` for id_token, client's scope permission. -/
def checkScope (policy : Policy) (lib : Lib) (r : Req) (clnt : Client) (f : Flow)
    (cid scp mode ruri state : GoStr) : AuthM Unit :=
  let rt := r.formValue b!"response_type"
  if scp = [] ∧ policy.allowEmptyScope = false then do                         -- 424-435
    alog .debug r .invalidScope []
    errorTo lib r mode ruri b!"invalid_request" b!"missing 'scope'" state
  else if f.requireIdToken ∧ Scope.includeOpenID scp = false then do           -- 437-451
    alog .debug r .invalidScope [(b!"response_type", rt), (b!"scope", scp)]
    errorTo lib r mode ruri b!"invalid_request"
      (b!"'response_type:" ++ rt ++ b!"' requires id_token, but 'scope' doesn't include 'openid'") state
  else if clnt.canUseScope f.type scp = false then do                          -- 453-465
    alog .debug r .invalidScope [(b!"scope", scp), (b!"client_id", cid)]
    errorTo lib r mode ruri b!"invalid_scope" [] state
  else pure ()

/-- authorization_endpoint.go:467-501 -/
def checkNonce (policy : Policy) (lib : Lib) (r : Req) (f : Flow) (scp mode ruri state : GoStr) :
    AuthM GoStr :=
  let n := r.formValue b!"nonce"
  let rt := r.formValue b!"response_type"
  if f.type ≠ .authorizationCode ∧ Scope.includeOpenID scp ∧ f.requireIdToken ∧ n = [] then do
    alog .debug r .missingParam [pParam b!"nonce", (b!"response_type", rt)]
    errorTo lib r mode ruri b!"invalid_request"
      (b!"'response_type:" ++ rt ++ b!"' requires 'nonce' parameter") state
  else if n ≠ [] ∧ (n.length : Int) > policy.maxNonceLength.toInt then do
    alog .debug r .invalidNonce [(b!"nonce", n)]
    errorTo lib r mode ruri b!"invalid_request"
      (b!"length of 'nonce' should be less than " ++ itoa (policy.maxNonceLength + 1)) state
  else pure n

/-- authorization_endpoint.go:503-518 -/
def checkVerifier (policy : Policy) (lib : Lib) (r : Req) (mode ruri state : GoStr) : AuthM GoStr :=
  let v := r.formValue b!"code_verifier"
  if v ≠ [] ∧ (v.length : Int) > policy.maxCodeVerifierLength.toInt then do
    alog .debug r .invalidCodeVerifier [(b!"code_verifier", v)]
    errorTo lib r mode ruri b!"invalid_request"
      (b!"length of 'code_verifier' should be less than " ++ itoa (policy.maxCodeVerifierLength + 1))
      state
  else pure v

/-- authorization_endpoint.go:520-533 -/
def chooseLocale (lib : Lib) (r : Req) (mode ruri state : GoStr) : AuthM GoStr := do
  match ← aask (.chooseLocale (r.formValue b!"ui_locales")) with
  | none => callbackFailed lib r mode ruri state b!"ChooseLocale"
  | some l => pure l

/-- authorization_endpoint.go:48-144: the checks before anything may be sent to the redirect URI. -/
def identify (r : Req) : AuthM Client :=
  let cid := r.formValue b!"client_id"
  let ruri := r.formValue b!"redirect_uri"
  if cid = [] then do                                                          -- 48-60
    alog .debug r .missingParam [pParam b!"client_id"]
    showError 0
  else if ruri = [] then do                                                    -- 62-74
    alog .debug r .missingParam [pParam b!"redirect_uri"]
    showError 1
  else do
    let clnt ← findClient r cid                                                -- 76-129
    if clnt.canUseRedirectURI ruri = false then do                             -- 131-144
      alog .info r .redirectURIMismatch
        [pMethod b!"CanUseRedirectURI", (b!"client_id", cid), (b!"redirect_uri", ruri)]
      showError 2
    else pure clnt

/-- authorization_endpoint.go:146-550: the remaining parameter checks and the `Request`. -/
def buildRequest (policy : Policy) (lib : Lib) (r : Req) (clnt : Client) : AuthM Request := do
  let cid := r.formValue b!"client_id"
  let ruri := r.formValue b!"redirect_uri"
  let state := r.formValue b!"state"                                           -- 146
  let f ← judgeFlow lib r ruri (r.formValue b!"response_mode") state           -- 147-179
  let rmode0 ← pickMode policy lib r f ruri (r.formValue b!"response_mode") state  -- 181-234
  let rmode ← checkModeLevel policy lib r f ruri rmode0 state                  -- 236-266
  checkFlow lib r clnt f rmode ruri state                                      -- 268-282
  let display ← checkDisplay lib r rmode ruri state                            -- 284-306
  let ma ← checkMaxAge policy lib r rmode ruri state                           -- 308-354
  let prmpt ← checkPrompt lib r rmode ruri state                               -- 356-383
  let scp ← offlineScope policy lib r f prmpt rmode ruri state                 -- 385-422
  checkScope policy lib r clnt f cid scp rmode ruri state                      -- 424-465
  let n ← checkNonce policy lib r f scp rmode ruri state                       -- 467-501
  let verifier ← checkVerifier policy lib r rmode ruri state                   -- 503-518
  let locale ← chooseLocale lib r rmode ruri state                             -- 520-533
  pure { flow := some f, clientId := cid, redirectURI := ruri, scope := scp,   -- 535-550
         responseMode := rmode, state := state, nonce := n, display := display, prompt := prmpt,
         maxAge := ma, uiLocale := locale, codeVerifier := verifier,
         idTokenHint := r.formValue b!"id_token_hint", loginHint := r.formValue b!"login_hint" }

/-- `rh.Error(req.RedirectURI, "server_error", "", req.State); return false` in `complete*`. -/
def completeFail (lib : Lib) (r : Req) (rh : GoStr) (req : Request) : Prog Bool := do
  AuthResponse.error lib r rh req.redirectURI b!"server_error" [] req.state
  pure false

/-- The callback-error block of `complete*` (e.g. authorization_endpoint.go:1052-1061). -/
def completeCallbackFail (lib : Lib) (r : Req) (rh : GoStr) (req : Request) (method : GoStr) :
    Prog Bool := do
  plog .error r .interfaceError [pMethod method]
  completeFail lib r rh req

/-- `if req.State != "" { params["state"] = req.State }` -/
def stateParam (req : Request) : Params := if req.state = [] then [] else [(b!"state", req.state)]
/-- `if req.Scope != "" { params["scope"] = req.Scope }` -/
def scopeParam (req : Request) : Params := if req.scope = [] then [] else [(b!"scope", req.scope)]

/-- authorization_endpoint.go:1045-1086 -/
def completeCode (policy : Policy) (lib : Lib) (r : Req) (rh : GoStr) (info : Option AuthInfo)
    (req : Request) : Prog Bool := do
  match ← ask .createAuthorizationCode with                                    -- 1051-1061
  | none => completeCallbackFail lib r rh req b!"CreateAuthorizationCode"
  | some code => do
    match ← ask .getAuthTime with                                              -- 1062-1072
    | none => completeCallbackFail lib r rh req b!"GetAuthTime"
    | some authTime => do
      match ← ask (.createAuthSession info
          (req.toSession code policy.authSessionExpiresIn authTime)) with      -- 1073-1078
      | some _ => completeFail lib r rh req
      | none => do
        AuthResponse.success lib r rh req.redirectURI ([(b!"code", code)] ++ stateParam req)
        pure true

/-- The access token part of the implicit (1108-1119) and hybrid (1211-1222) responses; `key` is the
name used for the lifetime: `rexpires_in` (sic, line 1118) or `expires_in` (line 1221).  `none` is a
`CreateOAuthToken` error; a nil token without error panics. -/
def frontToken (info : Option AuthInfo) (f : Flow) (key : GoStr) : Prog (Option (GoStr × Params)) :=
  if f.requireAccessToken then do
    match ← ask (.createOAuthToken info false) with
    | (_, some _) => pure none
    | (none, none) => .panic
    | (some t, none) => pure (some (t.accessToken,
        [(b!"access_token", t.accessToken), (b!"token_type", b!"bearer"),
         (key, itoa t.accessTokenExpiresIn)]))
  else pure (some ([], []))

/-- authorization_endpoint.go:1133-1152 (implicit, `code = none`) and 1224-1244 (hybrid): the ID token
part.  Arguments are evaluated left to right: a nil client panics before `Issuer`, a nil auth info
after it.  `none` is a generation error. -/
def frontIdToken (policy : Policy) (lib : Lib) (clnt : Option Client) (info : Option AuthInfo)
    (f : Flow) (req : Request) (authTime : Int64) (atk : GoStr) (code : Option GoStr) :
    Prog (Option Params) :=
  if f.requireIdToken then
    match clnt with
    | none => .panic
    | some c => do
      let iss ← ask .issuer
      match info with
      | none => .panic
      | some i => do
        let now ← ask .now
        let idt := match code with
          | none => IdToken.genForImplicit lib c.idTokenAlg c.idTokenKey c.idTokenKeyId iss i.clientId
              i.subject req.nonce policy.idTokenExpiresIn authTime atk now
          | some code => IdToken.genForHybrid lib c.idTokenAlg c.idTokenKey c.idTokenKeyId iss
              i.clientId i.subject req.nonce policy.idTokenExpiresIn authTime atk code now
        match idt with
        | none => pure none
        | some idt => pure (some [(b!"id_token", idt)])
  else pure (some [])

/-- authorization_endpoint.go:1088-1155 -/
def completeImplicit (policy : Policy) (lib : Lib) (r : Req) (rh : GoStr) (info : Option AuthInfo)
    (req : Request) (f : Flow) : Prog Bool := do
  let c ← ask (.findClientById req.clientId)                                   -- 1095
  match c with
  | (_, some _) => completeFail lib r rh req                                   -- 1096-1099
  | (clnt, none) => do
    match ← frontToken info f b!"rexpires_in" with                             -- 1108-1119
    | none => completeFail lib r rh req
    | some (atk, tokenParams) => do
      match ← ask .getAuthTime with                                            -- 1121-1131
      | none => completeCallbackFail lib r rh req b!"GetAuthTime"
      | some authTime => do
        match ← frontIdToken policy lib clnt info f req authTime atk none with -- 1133-1152
        | none => completeFail lib r rh req
        | some idParams => do
          AuthResponse.success lib r rh req.redirectURI                        -- 1153
            (stateParam req ++ scopeParam req ++ tokenParams ++ idParams)
          pure true

/-- authorization_endpoint.go:1157-1247 -/
def completeHybrid (policy : Policy) (lib : Lib) (r : Req) (rh : GoStr) (info : Option AuthInfo)
    (req : Request) (f : Flow) : Prog Bool := do
  match ← ask .createAuthorizationCode with                                    -- 1164-1175
  | none => completeCallbackFail lib r rh req b!"CreateAuthorizationCode"
  | some code => do
    match ← ask .getAuthTime with                                              -- 1177-1187
    | none => completeCallbackFail lib r rh req b!"GetAuthTime"
    | some authTime => do
      match ← ask (.createAuthSession info
          (req.toSession code policy.authSessionExpiresIn authTime)) with      -- 1189-1194
      | some _ => completeFail lib r rh req
      | none => do
        let c ← ask (.findClientById req.clientId)                             -- 1196
        match c with
        | (_, some _) => completeFail lib r rh req                             -- 1197-1200
        | (clnt, none) => do
          match ← frontToken info f b!"expires_in" with                        -- 1211-1222
          | none => completeFail lib r rh req
          | some (atk, tokenParams) => do
            match ← frontIdToken policy lib clnt info f req authTime atk (some code) with  -- 1224-1244
            | none => completeFail lib r rh req
            | some idParams => do
              AuthResponse.success lib r rh req.redirectURI                    -- 1245
                ([(b!"code", code)] ++ stateParam req ++ scopeParam req ++ tokenParams ++ idParams)
              pure true

/-- authorization_endpoint.go:1029-1043 `complete`; a nil `Flow` panics. -/
def complete (policy : Policy) (lib : Lib) (r : Req) (rh : GoStr) (info : Option AuthInfo)
    (req : Request) : Prog Bool :=
  match req.flow with
  | none => .panic
  | some f =>
    match f.type with
    | .authorizationCode => completeCode policy lib r rh info req
    | .implicit => completeImplicit policy lib r rh info req f
    | .hybrid => completeHybrid policy lib r rh info req f
    | .directGrant => pure false

/-- `return a.complete(...)` -/
def finish {α : Type} (policy : Policy) (lib : Lib) (r : Req) (info : AuthInfo) (req : Request) :
    AuthM α := do
  let b ← ExceptT.lift (complete policy lib r req.responseMode (some info) req)
  throw b

/-- authorization_endpoint.go:625-626 (also 712-713, 821-822, 958-959): whether an earlier consent
still covers the request; the clock is read only if the first two conditions hold. -/
def consentCovers (policy : Policy) (info : AuthInfo) (req : Request) : AuthM Bool :=
  if info.isActive ∧ Scope.same info.scope req.scope then do
    let now ← aask .now
    pure (decide (info.authorizedAt + policy.consentOmissionPeriod > now))
  else pure false

/-- authorization_endpoint.go:594-632, 681-719 and 790-828 (identical): look up the auth info of the
login user and complete silently or fail. -/
def noneComplete {α : Type} (policy : Policy) (lib : Lib) (r : Req) (req : Request) : AuthM α := do
  match ← aask .getLoginUserId with
  | none => callbackFailed lib r req.responseMode req.redirectURI req.state b!"GetLoginUserId"
  | some uid => do
    match ← aask (.findAuthInfoByUserIdAndClientId uid req.clientId) with
    | (_, some .unsupported) =>
      errorTo lib r req.responseMode req.redirectURI b!"server_error" [] req.state
    | (_, some .serverError) =>
      errorTo lib r req.responseMode req.redirectURI b!"server_error" [] req.state
    | (_, some _) =>
      errorTo lib r req.responseMode req.redirectURI b!"consent_required" [] req.state
    | (none, none) =>
      errorTo lib r req.responseMode req.redirectURI b!"server_error" [] req.state
    | (some info, none) => do
      let ok ← consentCovers policy info req
      if ok then finish policy lib r info req
      else errorTo lib r req.responseMode req.redirectURI b!"consent_required" [] req.state

/-- authorization_endpoint.go:574-592 and 642-660: require a login session. -/
def requireLogin (lib : Lib) (r : Req) (req : Request) : AuthM Unit := do
  match ← aask .confirmLoginSession with
  | none => callbackFailed lib r req.responseMode req.redirectURI req.state b!"ConfirmLoginSession"
  | some false => errorTo lib r req.responseMode req.redirectURI b!"login_required" [] req.state
  | some true => pure ()

/-- authorization_endpoint.go:662-679 and 771-788: the login user must match the hint. -/
def requireMatch (lib : Lib) (r : Req) (req : Request) (sub desc : GoStr) : AuthM Unit := do
  match ← aask (.loginUserIsMatchedToSubject sub) with
  | none => callbackFailed lib r req.responseMode req.redirectURI req.state b!"LoginUserIsMatchedToHint"
  | some false => errorTo lib r req.responseMode req.redirectURI b!"invalid_request" desc req.state
  | some true => pure ()

/-- authorization_endpoint.go:729-731: the key function for `id_token_hint`.  A nil key makes every
verification fail, as a key of a foreign type does. -/
def hintKeyFunc (clnt : Client) (_ : JwtToken) : Prog (Jwt.KeyRes × Unit) :=
  pure (.key (clnt.idTokenKey.getD (.other [])), ())

/-- authorization_endpoint.go:722-769: validate `id_token_hint` and return its subject.  (`!t.Valid`
at 739 cannot hold when the library returned no error.) -/
def checkIdTokenHint (lib : Lib) (r : Req) (clnt : Client) (req : Request) : AuthM GoStr :=
  let bad {α : Type} (desc : GoStr) : AuthM α :=
    errorTo lib r req.responseMode req.redirectURI b!"invalid_request" desc req.state
  if req.idTokenHint = [] then
    bad b!"in case you pass 'none' for 'prompt', 'id_token_hint' is required."
  else do
    let p ← ExceptT.lift (Jwt.parse lib req.idTokenHint () (hintKeyFunc clnt))
    match p with
    | (_, some _, _) => bad b!"'id_token_hint' is invalid."
    | (none, none, _) => apanic
    | (some t, none, _) =>
      match Assertion.numClaim (t.claim b!"exp") with
      | none => bad b!"'exp' not found in 'id_token_hint'."
      | some _ =>
        match t.claimStr b!"sub" with
        | none => bad b!"'sub' not found in 'id_token_hint'."
        | some sub => pure sub

/-- authorization_endpoint.go:552-829: `prompt=none`.  A policy value outside the constants falls out
of the switch. -/
def promptNone (policy : Policy) (lib : Lib) (r : Req) (clnt : Client) (req : Request) : AuthM Unit :=
  match clnt.nonePromptPolicy with
  | .forbidden => do                                                           -- 558-570
    alog .debug r .invalidPrompt [(b!"prompt", b!"none")]
    errorTo lib r req.responseMode req.redirectURI b!"interaction_required"
      b!"not allowed to use 'prompt:none'" req.state
  | .allowWithLoginSession => do                                               -- 572-632
    requireLogin lib r req
    noneComplete policy lib r req
  | .allowIfLoginHintMatched =>                                                -- 633-719
    if req.loginHint = [] then
      errorTo lib r req.responseMode req.redirectURI b!"invalid_request"
        b!"in case you pass 'none' for 'prompt', 'login_hint' is required." req.state
    else do
      requireLogin lib r req
      requireMatch lib r req req.loginHint b!"'login_hint' doesn't match to current login user"
      noneComplete policy lib r req
  | .allowIfIdTokenHintMatched => do                                           -- 720-828
    let sub ← checkIdTokenHint lib r clnt req
    requireMatch lib r req sub b!"'id_token_hint' doesn't match to current login user"
    noneComplete policy lib r req
  | .other => pure ()

/-- authorization_endpoint.go:831-870: require a login session, showing the login screen. -/
def confirmLogin (lib : Lib) (r : Req) (req : Request) : AuthM Unit := do
  match ← aask .confirmLoginSession with
  | none => callbackFailed lib r req.responseMode req.redirectURI req.state b!"ConfirmLoginSession"
  | some false => do
    alog .debug r .loginRequired []
    match ← aask (.showLoginScreen req) with
    | false => callbackFailed lib r req.responseMode req.redirectURI req.state b!"ShowLoginScreen"
    | true => throw false
  | some true => pure ()

/-- authorization_endpoint.go:872-901 -/
def promptLogin (lib : Lib) (r : Req) (req : Request) : AuthM Unit :=
  if Prompt.includeLogin req.prompt then do
    match ← aask .requestIsFromLogin with
    | none => callbackFailed lib r req.responseMode req.redirectURI req.state b!"RequestIsFromLogin"
    | some false => do
      alog .debug r .loginRequired [(b!"prompt", req.prompt)]
      let _ ← aask (.showLoginScreen req)
      throw false
    | some true => pure ()
  else pure ()

/-- authorization_endpoint.go:903-927 -/
def checkAuthAge (lib : Lib) (r : Req) (req : Request) : AuthM Unit := do
  match ← aask .getAuthTime with
  | none => callbackFailed lib r req.responseMode req.redirectURI req.state b!"GetAuthTime"
  | some authTime =>
    if req.maxAge > 0 then do
      let now ← aask .now
      let age := now - authTime
      if req.maxAge < age then do
        alog .debug r .loginRequired [(b!"max_age", r.formValue b!"max_age")]
        let _ ← aask (.showLoginScreen req)
        throw false
      else pure ()
    else pure ()

/-- authorization_endpoint.go:929-965: omit the consent screen when the client's policy and an earlier
consent allow it. -/
def omitConsent (policy : Policy) (lib : Lib) (r : Req) (clnt : Client) (req : Request) : AuthM Unit :=
  if Prompt.includeConsent req.prompt then pure ()
  else
    match clnt.noConsentPromptPolicy with
    | .omitConsentIfCan => do
      match ← aask .getLoginUserId with
      | none => callbackFailed lib r req.responseMode req.redirectURI req.state b!"GetLoginUserId"
      | some uid => do
        match ← aask (.findAuthInfoByUserIdAndClientId uid req.clientId) with
        | (_, some .unsupported) =>
          errorTo lib r req.responseMode req.redirectURI b!"server_error" [] req.state
        | (_, some .serverError) =>
          errorTo lib r req.responseMode req.redirectURI b!"server_error" [] req.state
        | (_, some _) => pure ()
        | (none, none) =>
          errorTo lib r req.responseMode req.redirectURI b!"server_error" [] req.state
        | (some info, none) => do
          let ok ← consentCovers policy info req
          if ok then finish policy lib r info req else pure ()
    | .forceConsent => pure ()
    | .other => pure ()

/-- authorization_endpoint.go:966-977 -/
def showConsent (lib : Lib) (r : Req) (clnt : Client) (req : Request) : AuthM Bool := do
  match ← aask (.showConsentScreen clnt req) with
  | false => callbackFailed lib r req.responseMode req.redirectURI req.state b!"ShowConsentScreen"
  | true => pure true

/-- authorization_endpoint.go:45-978 `HandleRequest`, with `return` as an exception. -/
def handleRequestM (policy : Policy) (lib : Lib) (r : Req) : AuthM Bool := do
  let clnt ← identify r
  let req ← buildRequest policy lib r clnt
  if req.prompt = Prompt.pNone then promptNone policy lib r clnt req           -- 552-829
  else confirmLogin lib r req                                                  -- 831-870
  promptLogin lib r req                                                        -- 872-901
  checkAuthAge lib r req                                                       -- 903-927
  omitConsent policy lib r clnt req                                            -- 929-965
  showConsent lib r clnt req                                                   -- 966-977

/-- authorization_endpoint.go:45-978 `HandleRequest` -/
def handleRequest (policy : Policy) (lib : Lib) (r : Req) : Prog Bool := do
  match ← (handleRequestM policy lib r).run with
  | .ok b => pure b
  | .error b => pure b

/-- authorization_endpoint.go:980-995 `CancelRequest`; a nil request panics at 992. -/
def cancelRequest (lib : Lib) (r : Req) : Prog Bool := do
  match ← ask .continue_ with
  | none => do
    plog .error r .interfaceError [pMethod b!"Continue"]
    pure false
  | some none => .panic
  | some (some req) => do
    AuthResponse.error lib r req.responseMode req.redirectURI b!"access_denied" [] req.state
    pure true

/-- authorization_endpoint.go:997-1027 `CompleteRequest`; a nil request panics at 1009. -/
def completeRequest (policy : Policy) (lib : Lib) (r : Req) : Prog Bool := do
  match ← ask .continue_ with
  | none => do
    plog .error r .interfaceError [pMethod b!"Continue"]
    pure false
  | some none => .panic
  | some (some req) => do
    match ← ask .getLoginUserId with                                           -- 1010-1020
    | none => completeCallbackFail lib r req.responseMode req b!"GetLoginUserId"
    | some uid => do
      match ← ask (.createOrUpdateAuthInfo uid req.clientId req.scope) with    -- 1021-1025
      | (_, some _) => completeFail lib r req.responseMode req
      | (info, none) => complete policy lib r req.responseMode info req        -- 1026

end AuthzEndpoint
end Goidc
