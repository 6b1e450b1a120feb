import Verif.Spec.LogText
import Verif.Spec.TokenDecision

/-! # What is reported in the log -/

namespace Goidc.Spec

/-! ## Answers of the token endpoint -/

/-- The events that explain a reply of the token endpoint. -/
def reasons : Reply → List LogEvent
  | .granted _ _ _ => [.accessTokenGranted]
  | .wrongMethod => [.invalidHTTPMethod]
  | .challenged => [.noCredential, .noEnabledClient, .authenticationFailed]
  | .refused .unsupportedGrantType _ => [.unsupportedGrantType]
  | .refused .unauthorizedClient _ => [.unauthorizedGrantType]
  | .refused .invalidScope _ => [.invalidScope]
  | .refused .invalidClient _ => [.noEnabledClient, .authenticationFailed, .assertionConditionMismatch]
  | .refused .invalidRequest _ => [.missingParam, .unsupportedCodeChallengeMethod, .assertionConditionMismatch]
  | .refused .serverError _ =>
      [.interfaceUnsupported, .interfaceServerError, .interfaceError, .idTokenGeneration, .assertionConditionMismatch]
  | .refused .invalidGrant _ =>
      [.noEnabledAuthSession, .noEnabledAuthInfo, .noEnabledAccessToken, .noEnabledUserId, .authInfoConditionMismatch,
       .refreshTokenConditionMismatch, .scopeConditionMismatch, .codeChallengeFailed, .assertionConditionMismatch,
       .accessTokenCreationFailed, .accessTokenRefreshFailed, .authInfoCreationFailed, .disableSessionFailed]
  | _ => []

/-- How severe the line that explains a refusal is, at least.  A failing application is an error or a
warning, a presumable attack is `info`; the rest is for debugging. -/
def severity : LogEvent → LogLevel
  | .interfaceUnsupported | .interfaceError | .disableSessionFailed => .error
  | .interfaceServerError | .idTokenGeneration => .warn
  | .authenticationFailed | .unauthorizedGrantType | .codeChallengeFailed | .invalidScope | .authInfoConditionMismatch
  | .refreshTokenConditionMismatch | .scopeConditionMismatch | .noEnabledAuthSession => .info
  | _ => .debug

/-- The name a grant goes by in the log. -/
def GrantKind.name : GrantKind → GoStr
  | .code => b!"authorization_code"
  | .refresh => b!"refresh_token"
  | .password => b!"password"
  | .client => b!"client_credentials"
  | .jwt => b!"urn:ietf:params:oauth:client-assertion-type:jwt-bearer"

/-- The request is a POST for a grant type that is registered. -/
def Recognized (cfg : TokenCfg) (r : Req) : Prop :=
  r.method = b!"POST" ∧ r.formValue b!"grant_type" ≠ [] ∧ ∃ h, Registered cfg r h

/-- The line names a client with an id in `who`. -/
def NamesClient (who : GoStr → Prop) (l : LogLine) : Prop := ∃ id, who id ∧ (b!"client_id", id) ∈ l.params

/-- The ids of the client the calls `h` are about: the id looked up, and that of the client found. -/
def ClientIn (h : List Event) (id : GoStr) : Prop :=
  ∃ cid x, ⟨.findClientById cid, x⟩ ∈ h ∧ (id = cid ∨ ∃ c, x = (some c, none) ∧ id = c.id)

/-- The line `l`, filed under one of `realms`, explains the reply `e` to a client with an id in `who`. -/
structure Explains (realms : List GoStr) (who : GoStr → Prop) (l : LogLine) (e : Reply) : Prop where
  endpoint : l.endpoint = b!"token_endpoint"
  realm : l.realm ∈ realms
  event : l.event ∈ reasons e
  severe : AtLeast (severity l.event) l.level
  /-- a missing parameter is named -/
  missing : ∀ name, e = .refused .invalidRequest (b!"missing '" ++ name ++ b!"' parameter") →
    l.event = .missingParam ∧ (b!"param", name) ∈ l.params
  /-- the client is named, unless it is not known yet, the application does not work, or an assertion
  cannot be verified -/
  client : NamesClient who l ∨
    (l.event = .missingParam ∧ l.params = [(b!"param", b!"grant_type")]) ∨
    l.event ∈ [.invalidHTTPMethod, .unsupportedGrantType, .noCredential, .interfaceUnsupported, .interfaceError] ∨
    (l.event = .assertionConditionMismatch ∧ ∃ a, l.params = [(b!"assertion", a)])

/-! ## Failing applications -/

/-- How a call to the application's data failed, if it did: with an error, or (`none`) with nothing. -/
def failure : (q : Query) → q.Resp → Option (Option ErrType)
  | .findClientById _, x | .findAuthSessionByCode _, x | .findActiveAuthInfoById _, x
  | .findAuthInfoByUserIdAndClientId _ _, x | .findOAuthTokenByAccessToken _, x
  | .findOAuthTokenByRefreshToken _, x | .createOAuthToken _ _, x | .refreshAccessToken _ _, x
  | .createOrUpdateAuthInfo _ _ _, x =>
    match x.2 with
    | some e => some (some e)
    | none => if x.1.isSome then none else some none
  | .findUserId _ _, x | .findUserIdBySubject _, x => x.2.map some
  | .createAuthSession _ _, x | .disableSession _, x | .recordAssertionClaims _ _ _ _, x => x.map some
  | _, _ => none

/-- The name of the method the application implements (bridge/interface.go). -/
def methodName : Query → GoStr
  | .findClientById _ => b!"FindClientById"
  | .findAuthSessionByCode _ => b!"FindAuthSessionByCode"
  | .findActiveAuthInfoById _ => b!"FindActiveAuthInfoById"
  | .findAuthInfoByUserIdAndClientId _ _ => b!"FindAuthInfoByUserIdAndClientId"
  | .findOAuthTokenByAccessToken _ => b!"FindOAuthTokenByAccessToken"
  | .findOAuthTokenByRefreshToken _ => b!"FindOAuthTokenByRefreshToken"
  | .createOAuthToken _ _ => b!"CreateOAuthToken"
  | .refreshAccessToken _ _ => b!"RefreshAccessToken"
  | .findUserId _ _ => b!"FindUserId"
  | .createOrUpdateAuthInfo _ _ _ => b!"CreateOrUpdateAuthInfo"
  | .createAuthSession _ _ => b!"CreateAuthSession"
  | .disableSession _ => b!"DisableSession"
  | .findUserIdBySubject _ => b!"FindUserIdBySubject"
  | .recordAssertionClaims _ _ _ _ => b!"RecordAssertionClaims"
  | .confirmLoginSession => b!"ConfirmLoginSession"
  | .requestIsFromLogin => b!"RequestIsFromLogin"
  | .getAuthTime => b!"GetAuthTime"
  | .getLoginUserId => b!"GetLoginUserId"
  | .createAuthorizationCode => b!"CreateAuthorizationCode"
  | .continue_ => b!"Continue"
  | .chooseLocale _ => b!"ChooseLocale"
  | .loginUserIsMatchedToSubject _ => b!"LoginUserIsMatchedToSubject"
  | .showLoginScreen _ => b!"ShowLoginScreen"
  | .showConsentScreen _ _ => b!"ShowConsentScreen"
  | _ => []

/-- The event of a call that the application refused (`ErrFailed`). -/
def refusal : Query → LogEvent
  | .findClientById _ => .noEnabledClient
  | .findAuthSessionByCode _ => .noEnabledAuthSession
  | .findActiveAuthInfoById _ => .noEnabledAuthInfo
  | .findOAuthTokenByAccessToken _ => .authenticationFailed
  | .findOAuthTokenByRefreshToken _ => .noEnabledAccessToken
  | .createOAuthToken _ _ => .accessTokenCreationFailed
  | .refreshAccessToken _ _ => .accessTokenRefreshFailed
  | .findUserId _ _ | .findUserIdBySubject _ => .noEnabledUserId
  | .createOrUpdateAuthInfo _ _ _ => .authInfoCreationFailed
  | .disableSession _ => .disableSessionFailed
  | _ => .assertionConditionMismatch

/-- The event and the least level of the report of a failure. -/
def report (q : Query) : Option ErrType → LogEvent × LogLevel
  | some .failed => (refusal q, .debug)
  | some .unsupported => (.interfaceUnsupported, .error)
  | some _ => (.interfaceServerError, .warn)
  | none => (.interfaceError, .error)

/-- The line `l` reports the failure `k` of the call `q`. -/
structure Reports (q : Query) (k : Option ErrType) (l : LogLine) : Prop where
  event : l.event = (report q k).1
  level : AtLeast (report q k).2 l.level

/-- The line `l` names the method that failed. -/
def NamesMethod (q : Query) (l : LogLine) : Prop := (b!"method", methodName q) ∈ l.params

/-- The line `l` names the method that failed; two methods go by a wrong name. -/
def NamesMost (q : Query) (l : LogLine) : Prop :=
  NamesMethod q l ∨
  ((∃ t, q = .findOAuthTokenByRefreshToken t) ∧ (b!"method", b!"FindAccessTokenByRefreshToken") ∈ l.params) ∨
  ((∃ s, q = .disableSession s) ∧ (b!"method", b!"DisableCode") ∈ l.params)

/-- In the run `t`, every failure of the application's data is followed at once by a line that reports it
(or the process stops there). -/
def Reported (Names : Query → LogLine → Prop) (t : List Event) : Prop :=
  ∀ pre q x post k, t = pre ++ ⟨q, x⟩ :: post → failure q x = some k →
    post = [] ∨ ∃ l post', post = logged l :: post' ∧ Reports q k l ∧ Names q l

/-- In the complete run `t`, every failure of the application's data is followed at once by a line that
reports it. -/
def AllReported (Names : Query → LogLine → Prop) (t : List Event) : Prop :=
  ∀ pre q x post k, t = pre ++ ⟨q, x⟩ :: post → failure q x = some k →
    ∃ l post', post = logged l :: post' ∧ Reports q k l ∧ Names q l

/-! ## Refusals of the resource protector -/

/-- The events that explain a refusal of the protector with this status. -/
def refusalReasons : Nat → List LogEvent
  | 400 => [.noCredential]
  | 401 => [.authenticationFailed, .noEnabledAuthInfo]
  | 500 => [.interfaceUnsupported, .interfaceServerError, .interfaceError]
  | _ => []

/-- How severe the line is, at least. -/
def refusalLevel : Nat → LogLevel
  | 401 => .info
  | 500 => .warn
  | _ => .debug

/-- The line `l` explains a refusal of the request to `path` with `status`. -/
structure ExplainsRefusal (path : GoStr) (status : Nat) (l : LogLine) : Prop where
  realm : l.realm = path
  event : l.event ∈ refusalReasons status
  level : AtLeast (refusalLevel status) l.level

/-! ## The authorization endpoint -/

/-- The events that explain an error screen. -/
def screenReasons : Nat → List LogEvent
  | 0 => [.missingParam, .noEnabledClient]
  | 1 => [.missingParam]
  | 2 => [.redirectURIMismatch]
  | 3 => [.interfaceUnsupported, .interfaceError]
  | _ => []

/-- The line `l` explains the error screen `n` shown for the request to `path`. -/
structure ExplainsScreen (path : GoStr) (n : Nat) (l : LogLine) : Prop where
  endpoint : l.endpoint = b!"authorization_endpoint"
  realm : l.realm = path
  event : l.event ∈ screenReasons n
  level : n = 3 → l.level = .error
  /-- the parameter or the method at fault is named -/
  named : (l.event = .missingParam ∧ (b!"param", if n = 0 then b!"client_id" else b!"redirect_uri") ∈ l.params) ∨
    (b!"method", if n = 2 then b!"CanUseRedirectURI" else b!"FindClientById") ∈ l.params

/-- A callback of the application failed. -/
def callbackFailed : (q : Query) → q.Resp → Prop
  | .confirmLoginSession, x => x = none
  | .requestIsFromLogin, x => x = none
  | .getAuthTime, x => x = none
  | .getLoginUserId, x => x = none
  | .createAuthorizationCode, x => x = none
  | .continue_, x => x = none
  | .chooseLocale _, x => x = none
  | .loginUserIsMatchedToSubject _, x => x = none
  | .showConsentScreen _ _, x => x = false
  | .showLoginScreen _, x => x = false
  | _, _ => False

/-- The line `l` reports that the callback `q` failed while the request to `path` was handled. -/
structure ReportsCallback (path : GoStr) (q : Query) (l : LogLine) : Prop where
  level : l.level = .error
  endpoint : l.endpoint = b!"authorization_endpoint"
  realm : l.realm = path
  event : l.event = .interfaceError

end Goidc.Spec
