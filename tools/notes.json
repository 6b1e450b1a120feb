{
 "C03": "Does not hold of the code: a client that authenticates with a client assertion is never checked for the grant type (C03_false, a concrete run). C03_grant_type_allowed_partial proves it for all other clients. C03_assertion_unchecked: how general the defect is - for a request with assertion authentication no answer of CanUseGrantType changes anything in any run.",
 "C08": "Does not hold of the code: a malformed client assertion panics the handler before authentication (C08_false). C08_panics_iff characterises the panics exactly; C08_never_panics_partial excludes them otherwise.",
 "C11": "Does not hold of the code: session lifetime is never compared with the clock (C11_false); proved only under the store returning no expired session. C11_lifetime_ignored: how general the defect is - every run of the token endpoint stays a run, with the same response, when the issue time and lifetime of every session are replaced by others.",
 "C15": "Does not hold of the code: when DisableSession or ID token signing fails after CreateOAuthToken, a refused request has created a token (C15_false); C15_no_token_partial proves these are the only cases.",
 "C27": "Does not hold of the code: a nil AuthInfo with nil error panics (wrong variable tested at resource_protector.go:224), C27_false; C27_no_panic_partial proves this is the only panic.",
 "C29": "The refusal half is proved; the acceptance half does not hold: a token in body or query is only considered when the Authorization header is present with an empty token (C29_false). C29_body_ignored: how general the defect is - unless the header is \"Bearer\" with an empty token, body and query never matter, under any policy.",
 "C33": "Proved for prompt exactly 'none'; prompt='none none' passes validation and shows the login screen (C33_false). C33_extent: only a repeated none can do that.",
 "C35": "Proved for prompts other than none; prompt=none skips the max_age check (C35_false). C35_none_unread: how general the defect is - with prompt=none two requests that differ in nothing but an acceptable max_age have the same runs.",
 "C42": "Proved for the hybrid flow; the implicit flow delivers the lifetime as 'rexpires_in' (C42_false). C42_implicit shows the defect affects every implicit response with a token; C42_complete_partial is the clause through CompleteRequest for a response type with a code.",
 "C44": "Proved except that a failing login screen demanded by prompt=login or max_age is not reported to the client (C44_false).",
 "C45": "Parameter values are proved harmless for every input; the redirect URI is not escaped, so the claim fails for a client that accepts a URI with a quote (C45_false).",
 "C54": "Proved exactly for unreserved characters; in general read back query-escaped (C54_read_back_escaped, C54_false).",
 "C58": "The client-secret clause is proved; the password clause is proved for runs in which FindUserId does not fail with an error. A refused password is logged in clear (C58_false). C58_always_logged: every password refused by the application is logged, for every request.",
 "C59": "Names, threshold and output proved; the labels of error and fatal equal that of debug (C59_labels_not_injective).",
 "C62": "Proved for shared-secret keys: for any library that reads back what it signed (C62_hint_accepted_partial), and for golang-jwt itself over arbitrary primitives (C62_hint_accepted_jws_partial: subject in UTF-8, times of at most 53 bits); for RSA/ECDSA keys a hint can never be accepted (C62_never_asymmetric, C62_false).",
 "C63": "Proved for exp other than 0; exp=0 is accepted at any time (C63_false). C63_undated: how general the defect is - with assertions whose times are 0 or absent every run stays one whatever time the clock shows.",
 "C65": "Does not hold of the code: padded standard base64 is used; never right for 256/512 (C65_false), right for 384 exactly without + and / (C65_384_partial).",
 "C66": "Proved for realms without quote, backslash and control characters, which is exactly when it holds (basic_challenge); the realm is not quoted (C66_false).",
 "C81": "KeepsRecords is the contract of the store; C81_reference_store proves it of every run of the reference store (fewer than 2^63 authorizations).",
 "C82": "For Validate, and for ValidateWithScopes by C82_with_scopes. C82_reference_store has no assumption on the store left but fewer than 2^63 authorizations.",
 "C85": "Every failure is reported at once with the right event and level (C85_reported, C85_complete). Not every report names the method that exists: FindOAuthTokenByRefreshToken is logged as FindAccessTokenByRefreshToken, and errors of DisableSession other than ErrFailed as DisableCode (C85_method_false, C85_disable_false); all others are named (C85_method_partial).",
 "C86": "Refusals of Validate are all explained (C86_validate). insufficient_scope is not logged at all (C86_scope_false); some lines are filed under token_endpoint (C86_label_false); a (nil, nil) answer of FindActiveAuthInfoById panics unreported, an unknown token is reported without the method (C86_reported_partial). C86_scope_silent: no insufficient_scope refusal is ever logged.",
 "C87": "Error screens are all explained (C87_screens); callbacks are reported except a login screen shown for prompt=login or max_age (C87_login_false), and LoginUserIsMatchedToSubject goes by another name (C87_callbacks_partial). Failures of the data interface are mostly silent there (C87_data_false).",
 "C88": "C88_code_redeemable, C88_refreshable and C88_access_usable: over the reference store, any interleaving. Interference is limited only by what the statement names (nobody else spends the code, no other scope authorized, nobody else refreshes).",
 "C89": "Over the reference store. The exception is real: the reference store names tokens after the authorization and creates one of the same name again for a new grant of the same user and client.",
 "C90": "C90_confined: any store that keeps its records and never answers a recorded authorization with nil. C90_store/C90_untouched: the reference store, fresh codes, fewer than 2^63 authorizations.",
 "C91": "PEM and ASN.1 parsing, JWK parsing and file reading are parameters of the model (JwxLib); what is proved is what the loaders do with them.",
 "C92": "C92_header_only, C92_error_uri: the five built-in grants. SetLogger, SetTimeBuilder and SetPolicy choose parameters of the model.",
 "C93": "Set-up calls precede the requests. Fewer than 2^63 set-up calls and authorizations. A client assertion bypasses the grant type check (C03), so GrantAllowed is claimed for requests that present a secret. HMACs are opaque: the theorem says which secret the signature was checked under.",
 "C94": "Times are non-negative and below 2^62 for the two positive statements (no int64 overflow). The 30 days are those of the reference store. For C94_refreshable the refresh token is first handed out in g1: the reference store gives all tokens of an authorization the same refresh token, so an older token under it could be found instead.",
 "C95": "Over Jws.lib p for every choice p of the primitives (SHA-2, signature and verification functions, float64 conversion). A string that is not well-formed UTF-8 is written with replacement characters, as encoding/json does.",
 "C96": "C96_client and C96_jwt are about assertions that are well-formed JWS (JSON objects in unpadded base64url) whose numbers are in float64 range; C96_text is about every accepted assertion. exp = 0 never expires (C63).",
 "C97": "Numbers of at most 53 bits (beyond that the library's float64 conversion is a parameter).",
 "C99": "Proved for clients, codes and access tokens; for refresh tokens except expired ones: every expired refresh token is answered differently from one that does not exist, even to a client it does not belong to (C99_refresh_leak, C99_refresh_false).",
 "C103": "Proved for every text whose members named flow are written without escapes (C103_decode_partial, C103_plain_partial), and for everything that is no object (C103_blank). In full it is false: flow/flow.go compares the text of the flow's type, so \"\\\\u0068ybrid\" is not recognised and what stands behind it is not read (C103_false).",
 "C104": "Proved for the token endpoint (C104_token) and protected resources (C104_protector) in full. At the authorization endpoint it is proved for every request whose redirect URI has no control character in its fragment (url.Parse refuses those before the fragment, which is an assumption on net/url stated as RejectsControl): a fragment accepted by the client is put into Location unchecked (C104_false). net/http replaces CR and LF in header values when it writes them, which is outside the model.",
 "C105": "Proved for the token endpoint in full (C105_token) and for the other endpoints for requests whose decoded URL path has no control character: the path is printed as the realm without quoting, so GET /me%0A... without a token writes a line of its own (C105_false). Messages are constants of the library or error texts of callbacks and are assumed free of control characters.",
 "C106": "For the authorization endpoint the other strings are empty exactly where these are (an empty access token is not hashed into at_hash, so an unsupported algorithm shows only with a non-empty one). The presented code, refresh token, access token and assertion are logged when they are refused (C85, C86).",
 "C107": "In full it is false: the code reads parameters with r.FormValue, so a code exchange with an empty body and everything in the URL succeeds (C107_false). Proved: the URL counts only for parameters that are missing in the body (C107_body_first_partial); in multipart bodies the URL even wins over the body (C107_multipart_partial). Client secrets in the URL are honoured only under the acceptance policy that says so (C04).",
 "C110": "In full it is false: goidc takes code_verifier at the authorization endpoint and code_challenge at the token endpoint, and ignores the parameters where RFC 7636 has them, so a code requested with a challenge is handed to a request without a verifier (C110_false). Proved: that neither parameter is read (C110_challenge_unread_partial, C110_verifier_unread_partial), and that the reversed form protects (C110_reversed_partial; see C10, C81).",
 "C111": "In full it is false: tokens refer to the authorization of user and client, whose scope a later consent changes (C111_false, without any new token). Proved: the scope is that of the last authorization before the lookup (C111_last_partial); unless authorized again it is the one issued (C88_access_usable).",
 "C113": "In full it is false: an interactive request is answered for whoever is logged in, whatever its id_token_hint says (C113_false). C113_unread: how general the defect is - unless the request is silent and the client's policy asks for a hint, hints do not change anything in any run. Proved: silent requests of clients with the id_token_hint policy honour it (C113_silent_partial).",
 "C114": "In full it is false: CompleteRequest does not look at max_age (C114_false: answered 200 seconds after the login with max_age=60). C114_unread: how general the defect is - max_age, prompt, display, locale and hints of the continued request change nothing in any run of CompleteRequest or CancelRequest. HandleRequest enforces max_age before the consent screen (C35).",
 "C117": "In full it is false: requests with repeated parameters are granted at both endpoints (C117_false). C117_first_counts: how general this is - repeating a parameter of a form, in the body or in the URL, never changes anything in any run; the first value counts.",
 "C119": "In full it is false: assertions without an issuer are accepted, as client authentication and as a grant (C119_false). C119_unread: how general this is - setting or removing iss in all assertions changes nothing in any run of the token endpoint.",
 "C120": "In full it is false: a request with the credentials of two clients is granted (C120_false). C120_one_counts: how general this is - one credential counts (a secret before an assertion, in the order of the acceptance policy), and the others have no influence on any run.",
 "C122": "In full it is false: a client is authenticated by an assertion with a critical extension (C122_false). C122_client: how general this is - no assertion that conforms otherwise is refused for the extensions it lists.",
 "C123": "In full it is false: the second use of the code is refused (C60), but the token issued for the first goes on to admit requests (C123_false; in general: C88_access_usable).",
 "C124": "In full it is false: a hint of another issuer, for another audience, with another algorithm is accepted if it verifies under the client's ID token key (C124_false, three separate refutations over golang-jwt). C124_unread: how general this is - of a hint that verifies, only subject and times count, in every run; that it must verify is C102_hint.",
 "C127": "In full it is false: the claims are recorded before the audience is compared, so a (correctly signed) assertion for another server uses up its jti here (C127_false; an example beside it shows the right assertion being refused afterwards). C127_faulty_partial: badly signed, untimely and exp-less assertions are never recorded.",
 "C130": "In full it is false: CompleteRequest serves a login that was begun before the client was removed without looking the client up (C130_false). C130_others_partial: every changing call of any other later request is made for, and concerns, another client; C130_token_partial: a later token response goes to another client."
}