import Verif.Spec.Json
import Verif.Model.OAuthError

/-! # Specification: authentication challenges (RFC 7235, RFC 7230) -/

namespace Goidc.Spec

/-- `qdtext`: characters that stand for themselves in a quoted string (tab, space, visible characters
except `"` and `\`, and bytes above 0x7f). -/
def IsQdtext (c : UInt8) : Prop :=
  c = 9 ∨ (32 ≤ c.toNat ∧ c.toNat ≤ 126 ∧ c ≠ 34 ∧ c ≠ 92) ∨ 128 ≤ c.toNat

/-- Characters that may follow a backslash in a quoted string. -/
def IsQuotable (c : UInt8) : Prop := c = 9 ∨ (32 ≤ c.toNat ∧ c.toNat ≤ 126) ∨ 128 ≤ c.toNat

/-- `QChars raw s`: the text between the quotes of a quoted string, and the value it stands for. -/
inductive QChars : List UInt8 → List UInt8 → Prop
  | nil : QChars [] []
  | plain {c raw s} : IsQdtext c → QChars raw s → QChars (c :: raw) (c :: s)
  | pair {c raw s} : IsQuotable c → QChars raw s → QChars (92 :: c :: raw) (c :: s)

/-- A quoted string and its value. -/
def QuotedString (text value : List UInt8) : Prop := ∃ raw, text = 34 :: raw ++ [34] ∧ QChars raw value

/-- A token character (RFC 7230, section 3.2.6), restricted to lower-case letters and `_`, which is all
that parameter names need here. -/
def IsNameChar (c : UInt8) : Prop := (97 ≤ c.toNat ∧ c.toNat ≤ 122) ∨ c = 95

/-- `name=quoted-string` -/
def AuthParam (text name value : List UInt8) : Prop :=
  ∃ q, name ≠ [] ∧ (∀ c ∈ name, IsNameChar c) ∧ QuotedString q value ∧ text = name ++ 61 :: q

/-- A comma-separated list of parameters, with optional spaces after the commas. -/
inductive AuthParams : List UInt8 → List (List UInt8 × List UInt8) → Prop
  | one {t n v} : AuthParam t n v → AuthParams t [(n, v)]
  | cons {t n v w t' l} : AuthParam t n v → (∀ c ∈ w, c = 32) → AuthParams t' l →
      AuthParams (t ++ 44 :: (w ++ t')) ((n, v) :: l)

/-- `Challenge text scheme params`: the value of a `WWW-Authenticate` header. -/
def Challenge (text scheme : List UInt8) (params : List (List UInt8 × List UInt8)) : Prop :=
  ∃ t, text = scheme ++ 32 :: t ∧ (∀ c ∈ scheme, c ≠ 32) ∧ AuthParams t params

/-- No control character: the value cannot break out of its header line. -/
def HeaderSafe (text : List UInt8) : Prop := ∀ c ∈ text, 32 ≤ c.toNat ∧ c.toNat ≠ 127

/-- A string of printable characters: valid UTF-8, every character printable ASCII or, above ASCII,
printable according to `isPrint`. -/
def Printable (isPrint : Nat → Bool) (s : List UInt8) : Prop :=
  ∃ cps : List Nat, s = cps.flatMap utf8 ∧
    ∀ cp ∈ cps, IsScalar cp ∧ ((32 ≤ cp ∧ cp < 127) ∨ (128 ≤ cp ∧ isPrint cp = true))

/-- The parameters of a Bearer error challenge (RFC 6750, section 3). -/
def challengeParams (realm code description uri : List UInt8) : List (List UInt8 × List UInt8) :=
  (if realm = [] then [] else [(b!"realm", realm)])
  ++ [(b!"error", code)]
  ++ (if description = [] then [] else [(b!"error_description", description)])
  ++ (if uri = [] then [] else [(b!"error_uri", uri)])

/-- The text of an error: its code, followed by `: ` and the description if there is one. -/
inductive ErrorText : List UInt8 → List UInt8 → List UInt8 → Prop
  | code (c) : ErrorText c c []
  | described (c d) : d ≠ [] → ErrorText (c ++ b!": " ++ d) c d

/-- The error codes of RFC 6749 (sections 4.1.2.1 and 5.2), RFC 6750 (section 3.1) and OpenID Connect Core
(section 3.1.2.6), with the status of an answer that carries them: 400 for the faults of a request to the
token endpoint, 401 and 403 for bearer tokens, 500 for the rest. -/
def registeredErrors : List (OAuthErrorType × List UInt8 × Nat) :=
  [(.invalidRequest, b!"invalid_request", 400), (.invalidClient, b!"invalid_client", 400),
   (.invalidGrant, b!"invalid_grant", 400), (.invalidScope, b!"invalid_scope", 400),
   (.unauthorizedClient, b!"unauthorized_client", 400), (.unsupportedGrantType, b!"unsupported_grant_type", 400),
   (.unsupportedResponseType, b!"unsupported_response_type", 400), (.accessDenied, b!"access_denied", 403),
   (.invalidToken, b!"invalid_token", 401), (.insufficientScope, b!"insufficient_scope", 403),
   (.serverError, b!"server_error", 500), (.temporarilyUnavailable, b!"temporarily_unavailable", 500),
   (.interactionRequired, b!"interaction_required", 500), (.loginRequired, b!"login_required", 500),
   (.accountSelectionRequired, b!"account_selection_required", 500), (.consentRequired, b!"consent_required", 500),
   (.invalidRequestURI, b!"invalid_request_uri", 500), (.invalidRequestObject, b!"invalid_request_object", 500),
   (.requestNotSupported, b!"request_not_supported", 500), (.requestURINotSupported, b!"request_uri_not_supported", 500),
   (.registrationNotSupported, b!"registration_not_supported", 500)]

end Goidc.Spec
