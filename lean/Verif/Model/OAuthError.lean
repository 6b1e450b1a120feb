import Verif.Model.Encoding

/-! # Package oauth_error (oauth_error/errors.go) -/

namespace Goidc

/-- oauth_error/errors.go:16-41; `other` stands for ints outside the constants. -/
inductive OAuthErrorType
  | accessDenied | invalidClient | invalidGrant | invalidRequest | invalidScope
  | unauthorizedClient | unsupportedGrantType | unsupportedResponseType | serverError
  | temporarilyUnavailable | invalidToken | insufficientScope | interactionRequired
  | loginRequired | accountSelectionRequired | consentRequired | invalidRequestURI
  | invalidRequestObject | requestNotSupported | requestURINotSupported
  | registrationNotSupported
  | other (n : Nat)
  deriving DecidableEq, Repr

namespace OAuthErrorType

/-- oauth_error/errors.go:57-106 `OAuthErrorType.String` -/
def string : OAuthErrorType → GoStr
  | .accessDenied => b!"access_denied"
  | .invalidClient => b!"invalid_client"
  | .invalidGrant => b!"invalid_grant"
  | .invalidRequest => b!"invalid_request"
  | .invalidScope => b!"invalid_scope"
  | .unauthorizedClient => b!"unauthorized_client"
  | .unsupportedGrantType => b!"unsupported_grant_type"
  | .unsupportedResponseType => b!"unsupported_response_type"
  | .serverError => b!"server_error"
  | .temporarilyUnavailable => b!"temporarily_unavailable"
  | .invalidToken => b!"invalid_token"
  | .insufficientScope => b!"insufficient_scope"
  | .interactionRequired => b!"interaction_required"
  | .loginRequired => b!"login_required"
  | .accountSelectionRequired => b!"account_selection_required"
  | .consentRequired => b!"consent_required"
  | .invalidRequestURI => b!"invalid_request_uri"
  | .invalidRequestObject => b!"invalid_request_object"
  | .requestNotSupported => b!"request_not_supported"
  | .requestURINotSupported => b!"request_uri_not_supported"
  | .registrationNotSupported => b!"registration_not_supported"
  | .other _ => []

/-- oauth_error/errors.go:43-55,135-142: `errStatusCodeMap` and the default of `StatusCode`. -/
def statusCode : OAuthErrorType → Nat
  | .accessDenied => 403
  | .invalidClient => 400
  | .invalidGrant => 400
  | .invalidRequest => 400
  | .invalidScope => 400
  | .unauthorizedClient => 400
  | .unsupportedGrantType => 400
  | .unsupportedResponseType => 400
  | .serverError => 500
  | .invalidToken => 401
  | .insufficientScope => 403
  | _ => 500

end OAuthErrorType

/-- oauth_error/errors.go:108-112 -/
structure OAuthError where
  type : OAuthErrorType
  description : GoStr
  uri : GoStr
  deriving DecidableEq, Repr

namespace OAuthError

/-- oauth_error/errors.go:144-146 `NewOAuthError` -/
def new (t : OAuthErrorType) (d : GoStr) : OAuthError := ⟨t, d, []⟩
/-- oauth_error/errors.go:148-150 `NewOAuthSimpleError` -/
def simple (t : OAuthErrorType) : OAuthError := ⟨t, [], []⟩

/-- oauth_error/errors.go:135-142 -/
def statusCode (e : OAuthError) : Nat := e.type.statusCode

/-- One `"key":"value"` member. -/
def member (k v : GoStr) : GoStr := jsonString k ++ 58 :: jsonString v

/-- oauth_error/errors.go:114-118,156-168 `JSON`; `omitempty` drops empty description and uri. -/
def json (e : OAuthError) : GoStr :=
  b!"{" ++ join 44 ([member b!"error" e.type.string]
    ++ (if e.description = [] then [] else [member b!"error_description" e.description])
    ++ (if e.uri = [] then [] else [member b!"error_uri" e.uri])) ++ b!"}"

/-- oauth_error/errors.go:170-183 `Header`; `isPrint` is strconv's table for non-ASCII runes. -/
def header (isPrint : Nat → Bool) (e : OAuthError) (realm : GoStr) : GoStr :=
  b!"Bearer " ++ joinStr b!", " ((if realm = [] then [] else [b!"realm=" ++ quote isPrint realm])
    ++ [b!"error=" ++ quote isPrint e.type.string]
    ++ (if e.description = [] then [] else [b!"error_description=" ++ quote isPrint e.description])
    ++ (if e.uri = [] then [] else [b!"error_uri=" ++ quote isPrint e.uri]))

/-- oauth_error/errors.go:185-197 `Query` (go-querystring with `omitempty`, then `Values.Encode`). -/
def query (e : OAuthError) (state : GoStr) : GoStr :=
  valuesEncode ([(b!"error", e.type.string)]
    ++ (if e.description = [] then [] else [(b!"error_description", e.description)])
    ++ (if e.uri = [] then [] else [(b!"error_uri", e.uri)])
    ++ (if state = [] then [] else [(b!"state", state)]))

/-- oauth_error/errors.go:127-133 `Error` -/
def error (e : OAuthError) : GoStr :=
  if e.description = [] then e.type.string else e.type.string ++ b!": " ++ e.description

end OAuthError
end Goidc
