import Verif.Spec.Calls

/-! # Specification: what serving one request costs the application -/

namespace Goidc.Spec

/-- The kinds of calls goidc makes to the code around it. -/
inductive CallKind
  /-- making an access token: `CreateOAuthToken`, `RefreshAccessToken` -/
  | token
  /-- `CreateOrUpdateAuthInfo` -/
  | authorization
  /-- `CreateAuthSession` -/
  | session
  /-- `DisableSession` -/
  | disable
  /-- `RecordAssertionClaims` -/
  | record
  /-- `CreateAuthorizationCode` -/
  | code
  /-- `FindUserId`, which checks a password -/
  | password
  /-- showing the login, the consent or the error screen -/
  | screen
  /-- the other methods of the application, which only look something up -/
  | lookup
  /-- a log line -/
  | log
  /-- a response -/
  | response
  /-- reading the clock, or the order of a map: not a call to the application -/
  | internal
deriving DecidableEq

/-- The kind of a call. -/
def kindOf : Query → CallKind
  | .createOAuthToken .. | .refreshAccessToken .. => .token
  | .createOrUpdateAuthInfo .. => .authorization
  | .createAuthSession .. => .session
  | .disableSession _ => .disable
  | .recordAssertionClaims .. => .record
  | .createAuthorizationCode => .code
  | .findUserId .. => .password
  | .showErrorScreen _ | .showLoginScreen _ | .showConsentScreen .. => .screen
  | .issuer | .findClientById _ | .findAuthSessionByCode _ | .findActiveAuthInfoById _
  | .findAuthInfoByUserIdAndClientId .. | .findOAuthTokenByAccessToken _ | .findOAuthTokenByRefreshToken _
  | .findUserIdBySubject _ | .chooseLocale _ | .confirmLoginSession | .requestIsFromLogin | .getAuthTime
  | .getLoginUserId | .continue_ | .loginUserIsMatchedToSubject _ => .lookup
  | .log _ => .log
  | .write _ => .response
  | .now | .wallNow | .mapRange _ => .internal

/-- How many calls of a kind were made. -/
def callCount (k : CallKind) (t : List Event) : Nat := (t.filter fun e => kindOf e.q = k).length

end Goidc.Spec
