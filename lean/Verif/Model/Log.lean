import Verif.Model.Encoding

/-! # Package log (log/text.go, log/logger.go, log/color.go) -/

namespace Goidc

/-- log/text.go:10-48 -/
inductive LogEvent
  | authenticationFailed | codeChallengeFailed | unauthorizedGrantType
  | authInfoConditionMismatch | authSessionConditionMismatch | scopeConditionMismatch
  | refreshTokenConditionMismatch | redirectURIMismatch | assertionConditionMismatch
  | interfaceUnsupported | interfaceServerError | interfaceError
  | invalidScope | invalidDisplay | invalidMaxAge | invalidResponseType | invalidResponseMode
  | invalidNonce | invalidPrompt | invalidCodeVerifier | accessTokenGranted | invalidHTTPMethod
  | missingParam | unsupportedGrantType | unsupportedCodeChallengeMethod
  | noCredential | noEnabledClient | noEnabledAuthInfo | noEnabledAuthSession
  | noEnabledAccessToken | noEnabledUserId
  | accessTokenCreationFailed | accessTokenRefreshFailed | disableSessionFailed
  | authInfoCreationFailed | idTokenGeneration | loginRequired
  deriving DecidableEq, Repr

/-- log/logger.go:7-13 -/
inductive LogLevel
  | debug | info | warn | error | fatal
  deriving DecidableEq, Repr

namespace Log

/-- log/text.go:50-129 `LogEvent.String` -/
def eventString : LogEvent → GoStr
  | .authenticationFailed => b!"authentication_failed"
  | .codeChallengeFailed => b!"code_challenge_failed"
  | .unauthorizedGrantType => b!"unauthorized_grant_type"
  | .scopeConditionMismatch => b!"scope_condition_mismatch"
  | .refreshTokenConditionMismatch => b!"refresh_token_condition_mismatch"
  | .assertionConditionMismatch => b!"assertion_condition_mismatch"
  | .authInfoConditionMismatch => b!"auth_info_condition_mismatch"
  | .authSessionConditionMismatch => b!"auth_session_condition_mismatch"
  | .redirectURIMismatch => b!"redirect_uri_mismatch"
  | .interfaceUnsupported => b!"interface_unsupported"
  | .interfaceServerError => b!"interface_server_error"
  | .interfaceError => b!"interface_error"
  | .invalidScope => b!"invalid_scope"
  | .invalidDisplay => b!"invalid_display"
  | .invalidMaxAge => b!"invalid_max_age"
  | .invalidNonce => b!"invalid_nonce"
  | .invalidPrompt => b!"invalid_prompt"
  | .invalidCodeVerifier => b!"invalid_code_verifier"
  | .invalidResponseType => b!"invalid_response_type"
  | .invalidResponseMode => b!"invalid_response_mode"
  | .accessTokenGranted => b!"access_token_granted"
  | .accessTokenCreationFailed => b!"access_token_creation_failed"
  | .accessTokenRefreshFailed => b!"access_token_refresh_failed"
  | .authInfoCreationFailed => b!"auth_info_creation_failed"
  | .disableSessionFailed => b!"disable_session_failed"
  | .invalidHTTPMethod => b!"invalid_http_method"
  | .missingParam => b!"missing_param"
  | .unsupportedGrantType => b!"unsupported_grant_type"
  | .unsupportedCodeChallengeMethod => b!"unsupported_code_challenge_method"
  | .noCredential => b!"no_credential"
  | .noEnabledClient => b!"no_enabled_client"
  | .noEnabledUserId => b!"no_enabled_user_id"
  | .noEnabledAuthInfo => b!"no_enabled_auth_info"
  | .noEnabledAuthSession => b!"no_enabled_auth_session"
  | .noEnabledAccessToken => b!"no_enabled_access_token"
  | .idTokenGeneration => b!"id_token_generation"
  | .loginRequired => b!"login_required"

/-- log/logger.go:36-51 `LogLevel.String` (the labels of the last two are as in the source). -/
def levelString : LogLevel → GoStr
  | .debug => b!"DEBUG"
  | .info => b!"INFO"
  | .warn => b!"WARN"
  | .error => b!"DEBUG"
  | .fatal => b!"DEBUG"

/-- Numeric value of a level (log/logger.go:7-13, iota). -/
def levelNum : LogLevel → Nat
  | .debug => 0 | .info => 1 | .warn => 2 | .error => 3 | .fatal => 4

/-- log/color.go:5-16: ANSI colour numbers. -/
def levelColor : LogLevel → GoStr
  | .debug => b!"37"    -- White
  | .info => b!"32"     -- Green
  | .warn => b!"35"     -- Magenta
  | .error => b!"33"    -- Yellow
  | .fatal => b!"31"    -- Red

/-- log/color.go:20-22 `paint` -/
def paint (txt color : GoStr) : GoStr := [27, 91] ++ color ++ b!"m" ++ txt ++ [27, 91] ++ b!"m"
/-- log/color.go:24-26 `lightPaint` -/
def lightPaint (txt color : GoStr) : GoStr :=
  [27, 91] ++ b!"1;" ++ color ++ b!"m" ++ txt ++ [27, 91] ++ b!"m"

/-- `json.Marshal(map[string]string)`: keys sorted, HTML-escaped JSON strings (log/text.go:148). -/
def jsonMap (ps : Params) : GoStr :=
  b!"{" ++ join 44 ((sortPairs ps).map fun kv => jsonString kv.1 ++ 58 :: jsonString kv.2) ++ b!"}"

/-- log/text.go:146-151 `EndpointLog` -/
def endpointLog (endpoint realm : GoStr) (ev : LogEvent) (params : Params) (msg : GoStr) : GoStr :=
  b!"[goidc:" ++ endpoint ++ b!":" ++ lightPaint realm b!"34" ++ b!":" ++
    paint (eventString ev) b!"36" ++ b!"] " ++ msg ++ b!" " ++ lightPaint (jsonMap params) b!"31"

/-- log/logger.go:72-76 `insertLevelLabel` -/
def insertLevelLabel (level : LogLevel) (msg : GoStr) : GoStr :=
  paint (b!"[" ++ levelString level ++ b!"]") (levelColor level) ++ b!" " ++ msg

/-- log/logger.go:78-111: what the default logger prints for a message of level `level` when the
threshold is `min`; `none` when suppressed. -/
def defaultPrint (min level : LogLevel) (msg : GoStr) : Option GoStr :=
  if levelNum min ≤ levelNum level then some (insertLevelLabel level msg ++ [10]) else none

end Log
end Goidc
