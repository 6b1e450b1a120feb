import Verif.Model.Log
import Verif.Spec.Json

/-! # What a log line says -/

namespace Goidc.Spec

/-- `Uncoloured line text`: taking the ANSI colour sequences (ESC, `[`, digits and semicolons, `m`) out of
`line` leaves `text`. -/
inductive Uncoloured : List UInt8 → List UInt8 → Prop
  | nil : Uncoloured [] []
  | char {c line text} : c ≠ 27 → Uncoloured line text → Uncoloured (c :: line) (c :: text)
  | colour {code line text} : (∀ c ∈ code, (48 ≤ c ∧ c ≤ 57) ∨ c = 59) → Uncoloured line text →
      Uncoloured (27 :: 91 :: (code ++ 109 :: line)) text

/-- The levels, from the least to the most severe. -/
def levels : List LogLevel := [.debug, .info, .warn, .error, .fatal]

/-- `b` is at least as severe as `a`. -/
def AtLeast (a b : LogLevel) : Prop := levels.idxOf a ≤ levels.idxOf b

instance (a b : LogLevel) : Decidable (AtLeast a b) := by unfold AtLeast; infer_instance

/-- The parameters of a log line as the members of a JSON object. -/
def strMembers (ps : Params) : List (List UInt8 × JVal) := ps.map fun kv => (kv.1, .str kv.2)

/-- The keys are in increasing byte order. -/
def KeysSorted (ps : Params) : Prop := ps.Pairwise fun a b => a.1 ≤ b.1

/-- What the events are called in log lines. -/
def eventNames : List (LogEvent × List UInt8) :=
  [(.authenticationFailed, b!"authentication_failed"),
   (.codeChallengeFailed, b!"code_challenge_failed"),
   (.unauthorizedGrantType, b!"unauthorized_grant_type"),
   (.scopeConditionMismatch, b!"scope_condition_mismatch"),
   (.refreshTokenConditionMismatch, b!"refresh_token_condition_mismatch"),
   (.assertionConditionMismatch, b!"assertion_condition_mismatch"),
   (.authInfoConditionMismatch, b!"auth_info_condition_mismatch"),
   (.authSessionConditionMismatch, b!"auth_session_condition_mismatch"),
   (.redirectURIMismatch, b!"redirect_uri_mismatch"),
   (.interfaceUnsupported, b!"interface_unsupported"),
   (.interfaceServerError, b!"interface_server_error"),
   (.interfaceError, b!"interface_error"),
   (.invalidScope, b!"invalid_scope"),
   (.invalidDisplay, b!"invalid_display"),
   (.invalidMaxAge, b!"invalid_max_age"),
   (.invalidNonce, b!"invalid_nonce"),
   (.invalidPrompt, b!"invalid_prompt"),
   (.invalidCodeVerifier, b!"invalid_code_verifier"),
   (.invalidResponseType, b!"invalid_response_type"),
   (.invalidResponseMode, b!"invalid_response_mode"),
   (.accessTokenGranted, b!"access_token_granted"),
   (.accessTokenCreationFailed, b!"access_token_creation_failed"),
   (.accessTokenRefreshFailed, b!"access_token_refresh_failed"),
   (.authInfoCreationFailed, b!"auth_info_creation_failed"),
   (.disableSessionFailed, b!"disable_session_failed"),
   (.invalidHTTPMethod, b!"invalid_http_method"),
   (.missingParam, b!"missing_param"),
   (.unsupportedGrantType, b!"unsupported_grant_type"),
   (.unsupportedCodeChallengeMethod, b!"unsupported_code_challenge_method"),
   (.noCredential, b!"no_credential"),
   (.noEnabledClient, b!"no_enabled_client"),
   (.noEnabledUserId, b!"no_enabled_user_id"),
   (.noEnabledAuthInfo, b!"no_enabled_auth_info"),
   (.noEnabledAuthSession, b!"no_enabled_auth_session"),
   (.noEnabledAccessToken, b!"no_enabled_access_token"),
   (.idTokenGeneration, b!"id_token_generation"),
   (.loginRequired, b!"login_required")]

/-- The event is called `name` in log lines. -/
def Called (ev : LogEvent) (name : List UInt8) : Prop := (ev, name) ∈ eventNames

/-- The label of a level; the code labels errors and fatal errors `DEBUG` as well (C59). -/
def Labelled (level : LogLevel) (label : List UInt8) : Prop :=
  label = match level with
    | .info => b!"INFO"
    | .warn => b!"WARN"
    | .debug | .error | .fatal => b!"DEBUG"

end Goidc.Spec
