{"id": "C01", "title": "Non-POST requests to the token endpoint are inert", "statement": "A request to the token endpoint whose method is not POST is answered with status 405 and nothing else happens: no DataInterface method is called and no other response is written.", "quantifier": "every request, endpoint configuration and sequence of answers of the application's DataInterface/Client implementation", "why_tests_cant": "Tests send one or two methods against one store; the claim is about every method string, body and backend.", "anchors": ["token_endpoint.go:TokenEndpoint.Handler"]}
{"id": "C02", "title": "A token response is only sent to an authenticated client", "statement": "Whenever the token endpoint answers 200, then earlier in the same request either (a) FindClientById was asked for the client id of the presented credentials, returned a client without error and that client's MatchSecret accepted the presented secret, or (b) client assertions are enabled, a client assertion of the jwt-bearer type was presented, FindClientById was asked for its 'sub' claim, and the assertion's signature verified under that client's assertion key.", "quantifier": "every request, endpoint configuration and sequence of answers of the application's DataInterface/Client implementation", "why_tests_cant": "An authentication bypass only needs one combination of parameters, headers and backend answers no test enumerates.", "anchors": ["token_endpoint.go:TokenEndpoint.Handler", "token_endpoint.go:validateClientBySecret", "token_endpoint.go:validateClientByAssertion", "assertion/error.go:HandleAssertionError"]}
{"id": "C03", "title": "A client never obtains a token through a grant type it is not allowed to use", "statement": "Whenever the token endpoint answers 200 to grant_type=gt for client c, c.CanUseGrantType(gt) is true, however the client authenticated.", "quantifier": "every request, endpoint configuration and sequence of answers of the application's DataInterface/Client implementation", "why_tests_cant": "Tests cover the secret path only; the claim ranges over both authentication paths and every client.", "anchors": ["token_endpoint.go:validateClientBySecret", "token_endpoint.go:validateClientByAssertion"]}
{"id": "C04", "title": "The credential acceptance policy is respected", "statement": "With FromHeader only the Authorization header can supply client id and secret; with FromHeaderAndPostBody never the URL query; a Basic Authorization header always takes precedence; body/query credentials need both a non-empty id and a non-empty secret.", "quantifier": "every request and every acceptance setting", "why_tests_cant": "The policy is about the absence of other sources, which needs all requests.", "anchors": ["token_endpoint.go:findClientCredential", "token_endpoint.go:AcceptClientSecret"]}
{"id": "C05", "title": "Only registered grant types are ever executed", "statement": "If grant_type is missing or has no handler registered through Support, the endpoint answers 400 (invalid_request resp. unsupported_grant_type) without calling the DataInterface; if several handlers were registered for a type the last one is the one executed.", "quantifier": "every registration history and every request", "why_tests_cant": "Quantifies over all registration histories and grant_type strings.", "anchors": ["token_endpoint.go:Support", "token_endpoint.go:Handler"]}
{"id": "C06", "title": "Token endpoint responses are never cacheable and carry the right status", "statement": "Every response of the token endpoint other than 405 carries Cache-Control: no-store, Pragma: no-cache and a JSON content type; its status is 200, 400, 401, 403 or 500 when produced by the built-in grants, and 401 responses always carry a WWW-Authenticate: Basic challenge.", "quantifier": "every request, endpoint configuration and sequence of answers of the application's DataInterface/Client implementation", "why_tests_cant": "A single forgotten exit path leaks tokens into caches; there are about a hundred exit paths times backend answers.", "anchors": ["token_endpoint.go:setCommonResponseHeader", "token_endpoint.go:fail", "token_endpoint.go:failWithAuthHeader", "token_endpoint.go:success"]}
{"id": "C07", "title": "Exactly one response per token request", "statement": "Every terminating, non-panicking run of the token endpoint with the built-in grant handlers writes exactly one HTTP response, and it is the last thing it does besides logging.", "quantifier": "every request, endpoint configuration and sequence of answers of the application's DataInterface/Client implementation", "why_tests_cant": "Needs every path for every backend behaviour.", "anchors": ["token_endpoint.go:Handler", "token_endpoint.go:executeGrantHandler"]}
{"id": "C08", "title": "The token endpoint never panics", "statement": "No request and no backend behaviour makes the token endpoint with the built-in grants panic.", "quantifier": "every request, endpoint configuration and sequence of answers of the application's DataInterface/Client implementation", "why_tests_cant": "A panic is triggered by one malformed input that no test sends.", "anchors": ["token_endpoint.go:validateClientByAssertion", "assertion/error.go:HandleAssertionError", "grant/*.go"]}
{"id": "C09", "title": "An authorization code is only honoured for the client and redirect URI it was issued to", "statement": "If the authorization_code grant succeeds, FindAuthSessionByCode returned a session for exactly the presented non-empty code, the session's redirect URI equals the presented redirect_uri byte for byte, FindActiveAuthInfoById returned an authorization for the session's auth id, and that authorization's client id equals the authenticated client's id.", "quantifier": "every request, endpoint configuration and sequence of answers of the application's DataInterface/Client implementation", "why_tests_cant": "Binding must hold for all sessions, clients and strings, not for the two in the test store.", "anchors": ["grant/authorization_code.go:AuthorizationCode"]}
{"id": "C10", "title": "PKCE cannot be skipped", "statement": "If the session carries a non-empty code verifier and the authorization_code grant succeeds, then the request carried a non-empty code_challenge and code_challenge_method, the method is 'plain' or 'S256', and the challenge equals the verifier (plain) or the unpadded base64url SHA-256 of the verifier (S256).", "quantifier": "every request, endpoint configuration and sequence of answers of the application's DataInterface/Client implementation", "why_tests_cant": "A downgrade is one unexplored parameter combination.", "anchors": ["grant/authorization_code.go:AuthorizationCode", "pkce/verifier.go:FindVerifierByMethod", "pkce/verifier.go:Verify"]}
{"id": "C11", "title": "An expired authorization code is rejected", "statement": "If the session's creation time plus its lifetime lies before the time of the token request, the authorization_code grant does not succeed.", "quantifier": "every request, endpoint configuration and sequence of answers of the application's DataInterface/Client implementation", "why_tests_cant": "Ranges over all clocks and lifetimes.", "anchors": ["grant/authorization_code.go:AuthorizationCode", "bridge/interface.go:AuthSession.GetExpiresIn"]}
{"id": "C12", "title": "An authorization code yields at most one token response", "statement": "Provided the backend's DisableSession reports success at most once per code (and a session looked up by code carries that code), then among any number of concurrently executing token requests, in every interleaving of their DataInterface calls and with any of them crashing at any point, at most one request presenting a given code is answered 200. A store that spends the session atomically meets the proviso; the proviso is needed, since on the repository's reference store, whose DisableSession succeeds every time, two racing requests can both be answered 200 for one code.", "quantifier": "every number of concurrent requests, interleaving and crash point", "why_tests_cant": "Races need specific schedules; unit tests run one request at a time.", "anchors": ["grant/authorization_code.go:AuthorizationCode", "bridge/interface.go:DisableSession"]}
{"id": "C13", "title": "The code is burned before the token leaves the server", "statement": "At every point of every run of an authorization_code request: if a 200 response has been written then DisableSession was called before on the session found for the code and reported success; hence a crash before that point never releases a token for a code that is still live.", "quantifier": "every crash point of every run", "why_tests_cant": "Crash points are not reachable from unit tests.", "anchors": ["grant/authorization_code.go:AuthorizationCode"]}
{"id": "C14", "title": "ID token issued iff openid was granted, with exactly the session's claims", "statement": "A successful authorization_code response contains an id_token exactly when the authorization's granted scope contains the token 'openid' (and only then is the signing key used); the signed claims are iss=Issuer(), aud=client id, sub=subject, exp=now+IdTokenExpiresIn, iat=now, the session's nonce when non-empty, auth_time when non-negative, and no at_hash/c_hash.", "quantifier": "every request, endpoint configuration and sequence of answers of the application's DataInterface/Client implementation", "why_tests_cant": "For all scopes, subjects, nonces and times.", "anchors": ["grant/authorization_code.go:AuthorizationCode", "id_token/id_token.go:Gen", "id_token/id_token.go:rawGen"]}
{"id": "C15", "title": "A refused token request leaves no token behind", "statement": "If the token endpoint does not answer 200, no access token has been created by the request.", "quantifier": "every request, endpoint configuration and sequence of answers of the application's DataInterface/Client implementation", "why_tests_cant": "Needs every failure point after every side effect.", "anchors": ["grant/*.go", "grant/authorization_code.go:AuthorizationCode"]}
{"id": "C16", "title": "Refresh is only honoured for a live, matching, offline authorization", "statement": "If the refresh_token grant succeeds then the presented non-empty refresh token was found, created+lifetime is not before the request time, the authorization is active, belongs to the authenticated client, its scope contains 'offline_access', and the returned access token is the one RefreshAccessToken produced for that authorization and that old token.", "quantifier": "every request, endpoint configuration and sequence of answers of the application's DataInterface/Client implementation", "why_tests_cant": "For all tokens, clocks, clients and scopes.", "anchors": ["grant/refresh_token.go:RefreshToken"]}
{"id": "C17", "title": "Expiry checks are exact to the second and fail closed on 64-bit overflow", "statement": "For refresh and access tokens: with non-negative stored times, acceptance implies now <= start+lifetime as mathematical integers (even when the int64 sum overflows), and when the sum does not overflow and now <= start+lifetime the expiry check passes.", "quantifier": "all int64 values of start, lifetime and clock", "why_tests_cant": "Boundary and overflow cases over 2^192 combinations.", "anchors": ["grant/refresh_token.go:RefreshToken", "resource_protector.go:Validate"]}
{"id": "C18", "title": "Password grant only for verified credentials", "statement": "If the password grant succeeds, username and password were non-empty, FindUserId accepted exactly that pair, and the token was created for the authorization CreateOrUpdateAuthInfo returned for that user id, the authenticated client and the requested scope.", "quantifier": "every request, endpoint configuration and sequence of answers of the application's DataInterface/Client implementation", "why_tests_cant": "For all credentials and backend answers.", "anchors": ["grant/password.go:Password"]}
{"id": "C19", "title": "Client-credentials grant only for clients with an owner", "statement": "If the client_credentials grant succeeds, the client's owner user id is non-negative and the token was created for the authorization of that owner, that client and the requested scope.", "quantifier": "every request, endpoint configuration and sequence of answers of the application's DataInterface/Client implementation", "why_tests_cant": "For all clients and backend answers.", "anchors": ["grant/client_credential.go:ClientCredentials"]}
{"id": "C20", "title": "JWT-bearer grant only for a verified assertion addressed to this issuer", "statement": "If the JWT grant succeeds, the presented non-empty assertion's signature verified under the authenticated client's key for the assertion's alg/kid, it carries an exp claim, it was recorded through RecordAssertionClaims with the client's id, its aud is the non-empty Issuer(), and the user is the one FindUserIdBySubject returned for its sub.", "quantifier": "every request, endpoint configuration and sequence of answers of the application's DataInterface/Client implementation", "why_tests_cant": "For all assertions and backend answers.", "anchors": ["grant/jwt.go:JWT", "assertion/error.go:HandleAssertionError"]}
{"id": "C21", "title": "An assertion cannot be replayed", "statement": "If the backend's RecordAssertionClaims accepts a given (client, jti) at most once, then over every history and interleaving of token requests at most one request per (client, jti) whose authentication or grant rests on such an assertion is answered 200.", "quantifier": "every history and interleaving of requests", "why_tests_cant": "Histories and schedules.", "anchors": ["assertion/error.go:HandleAssertionError", "grant/jwt.go:JWT", "token_endpoint.go:validateClientByAssertion"]}
{"id": "C22", "title": "Direct grants never store a scope the client may not use", "statement": "In password, client_credentials and JWT grants, whenever CreateOrUpdateAuthInfo is called its scope is the request's scope parameter, and it is empty or allowed by the client's CanUseScope for direct grants.", "quantifier": "every request, endpoint configuration and sequence of answers of the application's DataInterface/Client implementation", "why_tests_cant": "For all scopes/clients and all paths.", "anchors": ["grant/password.go", "grant/client_credential.go", "grant/jwt.go"]}
{"id": "C23", "title": "Backend failures are never turned into success and map to fixed errors", "statement": "In every grant, if a data operation reports an error or returns (nil, nil), the request is not answered 200; the answer is 400 for ErrFailed and 500 server_error for every other error kind and for (nil, nil), and no further data operation is called.", "quantifier": "every request, endpoint configuration and sequence of answers of the application's DataInterface/Client implementation", "why_tests_cant": "All error kinds at all call sites, including error kinds outside the declared constants.", "anchors": ["grant/*.go", "bridge/errors.go"]}
{"id": "C24", "title": "Requests that fail client authentication change nothing", "statement": "If client authentication fails, the only DataInterface methods called are FindClientById, Issuer and (for assertions whose signature verified) RecordAssertionClaims; no token, session or authorization is created, refreshed or disabled.", "quantifier": "every request, endpoint configuration and sequence of answers of the application's DataInterface/Client implementation", "why_tests_cant": "All failure paths and backends.", "anchors": ["token_endpoint.go:Handler"]}
{"id": "C25", "title": "The resource protector only admits live tokens", "statement": "If Validate returns true, the request carried a non-empty bearer token, FindOAuthTokenByAccessToken returned a token for it, the token was not expired at the protector's clock, and FindActiveAuthInfoById returned without error for the token's auth id.", "quantifier": "every request, endpoint configuration and sequence of answers of the application's DataInterface/Client implementation", "why_tests_cant": "All tokens, clocks, backends.", "anchors": ["resource_protector.go:Validate"]}
{"id": "C26", "title": "The identity headers seen by the application are authentic", "statement": "If Validate returns true the request's X-OAUTH-USER-ID, X-OAUTH-CLIENT-ID and X-OAUTH-SCOPE headers have exactly one value each, taken from the authorization of the presented token, whatever values (in any capitalisation) the caller sent; all other headers are unchanged.", "quantifier": "every request header list and every backend", "why_tests_cant": "Header spoofing must be impossible for all header lists.", "anchors": ["resource_protector.go:Validate"]}
{"id": "C27", "title": "The resource protector fails closed with one response", "statement": "Validate never panics; when it returns false exactly one response with status 400, 401 or 500 has been written and the request headers are untouched; when it returns true nothing has been written.", "quantifier": "every request, endpoint configuration and sequence of answers of the application's DataInterface/Client implementation", "why_tests_cant": "All paths and backends.", "anchors": ["resource_protector.go:Validate", "resource_protector.go:unauthorize"]}
{"id": "C28", "title": "Scope enforcement of ValidateWithScopes", "statement": "ValidateWithScopes returns true iff Validate does and, when the request path is a key of the scope map, every listed scope is one of the space separated scopes of the token's authorization; otherwise the answer is 403 insufficient_scope naming the first missing scope.", "quantifier": "every path/scope map, request and backend", "why_tests_cant": "All maps, paths and scope strings.", "anchors": ["resource_protector.go:ValidateWithScopes", "scope/util.go:IncludeAll"]}
{"id": "C29", "title": "The access token acceptance policy is respected", "statement": "With FromHeader only the Authorization header can supply the token; with FromHeaderAndPostBody a token in the body is accepted, with FromAll also one in the URL query.", "quantifier": "every request and setting", "why_tests_cant": "All requests and settings.", "anchors": ["resource_protector.go:findTokenFromRequest"]}
{"id": "C30", "title": "The authorization endpoint is not an open redirector", "statement": "Whatever HandleRequest sends to the browser (redirect or auto-submitting form), success or error, goes to the redirect_uri of the request, and only after FindClientById returned a client for the request's client_id whose CanUseRedirectURI accepted that URI.", "quantifier": "every request, endpoint configuration and sequence of answers of the application's DataInterface/Client implementation and AuthorizationCallbacks", "why_tests_cant": "All paths, URIs and backends.", "anchors": ["authorization_endpoint.go:HandleRequest", "authorization/response.go"]}
{"id": "C31", "title": "state is echoed unchanged", "statement": "Every redirect or form produced by the authorization endpoint carries the request's state parameter when it is non-empty and none when it is empty, and parsing the query string/fragment appended to the redirect URI yields exactly the response parameters, byte for byte.", "quantifier": "every state and parameter value (arbitrary bytes) and every redirect URI", "why_tests_cant": "All byte strings; encoding bugs are input specific.", "anchors": ["authorization/response.go:Success", "authorization/response.go:Error", "authorization_endpoint.go"]}
{"id": "C32", "title": "Tokens are never delivered through a weaker response mode than the default", "statement": "With RequireResponseModeSecurityLevelCheck set, every success response of HandleRequest is delivered with a response mode at least as strong as the policy default of the flow; with the default policy no implicit or hybrid success response is delivered in the URL query.", "quantifier": "every request, policy and backend", "why_tests_cant": "All mode strings and policies.", "anchors": ["authorization_endpoint.go:HandleRequest", "response_mode/util.go:CompareSecurityLevel"]}
{"id": "C33", "title": "prompt=none never interacts with the user", "statement": "If the validated prompt of the request contains none, HandleRequest never calls ShowLoginScreen or ShowConsentScreen.", "quantifier": "every request, client policy and backend", "why_tests_cant": "All prompt strings.", "anchors": ["authorization_endpoint.go:HandleRequest", "prompt/util.go:Validate"]}
{"id": "C34", "title": "prompt=none completes only for a logged-in, matching, already consented user", "statement": "If HandleRequest with prompt=none sends a success response, then under the client's policy: login session confirmed (login-session and login-hint policies), hint matched the login user (hint policies), the authorization found for the login user and this client is active, its scope equals the request scope up to order, and its consent is younger than ConsentOmissionPeriod; with the Forbidden policy it never completes.", "quantifier": "every request, client policy and backend", "why_tests_cant": "All hints/backends.", "anchors": ["authorization_endpoint.go:HandleRequest"]}
{"id": "C35", "title": "max_age is enforced", "statement": "If the request carries a valid max_age (>0) and HandleRequest completes or shows the consent screen, the time elapsed since GetAuthTime is at most max_age.", "quantifier": "every request, clock and backend", "why_tests_cant": "All clocks and prompts.", "anchors": ["authorization_endpoint.go:HandleRequest"]}
{"id": "C36", "title": "prompt=login forces re-authentication", "statement": "If prompt contains login, HandleRequest neither completes nor shows consent unless RequestIsFromLogin returned true during the request; otherwise the login screen is shown.", "quantifier": "every request and backend", "why_tests_cant": "All prompt strings.", "anchors": ["authorization_endpoint.go:HandleRequest"]}
{"id": "C37", "title": "Consent is skipped only when it may be", "statement": "HandleRequest completes without the consent screen only if the prompt does not contain consent, an authorization of the login user for this client is active, has the same scope tokens as the request, AuthorizedAt+ConsentOmissionPeriod is later than now, and either prompt=none or the client's policy is OmitConsentIfCan.", "quantifier": "every request, policy and backend", "why_tests_cant": "All backends/scopes.", "anchors": ["authorization_endpoint.go:HandleRequest", "scope/util.go:Same"]}
{"id": "C38", "title": "offline_access is only granted with explicit consent and never to the implicit flow", "statement": "The scope handed to the login/consent screens, to sessions and to completion contains offline_access only if the flow is not implicit and the prompt contains consent; apart from removing offline_access the scope is the request's scope, token for token.", "quantifier": "every request and policy", "why_tests_cant": "All scope strings.", "anchors": ["authorization_endpoint.go:HandleRequest", "scope/util.go:Remove"]}
{"id": "C39", "title": "ID-token flows require openid and nonce", "statement": "If HandleRequest proceeds past validation for a response_type containing id_token, the effective scope contains openid and the nonce is non-empty; nonce and code_verifier never exceed the policy's byte limits.", "quantifier": "every request and policy", "why_tests_cant": "All strings.", "anchors": ["authorization_endpoint.go:HandleRequest"]}
{"id": "C40", "title": "The authorization session is stored before the code is disclosed and matches the request", "statement": "Whenever a code is sent to the browser, CreateAuthSession succeeded before with exactly that code, the request's redirect URI, code verifier and nonce, the policy's session lifetime and the current auth time.", "quantifier": "every request, endpoint configuration and sequence of answers of the application's DataInterface/Client implementation and AuthorizationCallbacks; every crash point", "why_tests_cant": "Crash points and all paths.", "anchors": ["authorization_endpoint.go:completeAuthorizationCodeFlowRequest", "authorization_endpoint.go:completeHybridFlowRequest", "authorization/request.go:ToSession"]}
{"id": "C41", "title": "Front-channel responses contain exactly what response_type asked for", "statement": "A success response contains code iff the flow is code/hybrid, access_token iff RequireAccessToken, id_token iff RequireIdToken; the access token is one created by CreateOAuthToken(info, false) in this request; the id_token is signed over at_hash iff a non-empty access token is delivered and c_hash iff a code is delivered, computed with the hash of the client's alg.", "quantifier": "every request, endpoint configuration and sequence of answers of the application's DataInterface/Client implementation and AuthorizationCallbacks", "why_tests_cant": "All flows and backends.", "anchors": ["authorization_endpoint.go:completeImplicitFlowRequest", "authorization_endpoint.go:completeHybridFlowRequest", "id_token/id_token.go"]}
{"id": "C42", "title": "Front-channel access tokens come with their lifetime", "statement": "Every success response of the authorization endpoint containing access_token also contains token_type=bearer and expires_in equal to the decimal lifetime of the token.", "quantifier": "every request, endpoint configuration and sequence of answers of the application's DataInterface/Client implementation and AuthorizationCallbacks", "why_tests_cant": "All flows.", "anchors": ["authorization_endpoint.go:completeImplicitFlowRequest", "authorization_endpoint.go:completeHybridFlowRequest"]}
{"id": "C43", "title": "Complete and Cancel answer the continued request and nothing else", "statement": "CancelRequest sends exactly one access_denied error to the redirect URI of the continued request and touches no data; CompleteRequest sends exactly one response, to that same URI, and records the authorization for exactly the login user and the continued request's client and scope before any code or token is created.", "quantifier": "every request, endpoint configuration and sequence of answers of the application's DataInterface/Client implementation and AuthorizationCallbacks", "why_tests_cant": "All continued requests.", "anchors": ["authorization_endpoint.go:CompleteRequest", "authorization_endpoint.go:CancelRequest"]}
{"id": "C44", "title": "One outcome per authorization request", "statement": "Every non-panicking run of HandleRequest ends with exactly one of: one error screen, one login screen, one consent screen, one redirect/form (a failing login or consent screen callback is followed by a server_error redirect); it returns true iff the consent screen was shown successfully or a success response was sent.", "quantifier": "every request, endpoint configuration and sequence of answers of the application's DataInterface/Client implementation and AuthorizationCallbacks", "why_tests_cant": "All paths.", "anchors": ["authorization_endpoint.go:HandleRequest"]}
{"id": "C45", "title": "form_post pages cannot be injected into", "statement": "In the form_post page no parameter value nor the target URI can introduce markup: the page is the fixed template with the HTML-escaped values, and unescaping each value attribute gives back the parameter value.", "quantifier": "all parameter values and URIs (arbitrary bytes)", "why_tests_cant": "XSS needs one special byte sequence.", "anchors": ["authorization/response.go:render"]}
{"id": "C46", "title": "Scope strings behave like lists of space separated tokens", "statement": "Include is membership in the split; IncludeAll is conjunction of memberships and reports the first missing one; Remove deletes exactly the equal tokens and keeps the others in order; Same is an equivalence relation that holds exactly for permutations of the same tokens.", "quantifier": "all strings", "why_tests_cant": "All byte strings.", "anchors": ["scope/util.go"]}
{"id": "C47", "title": "response_type is judged independently of order and nothing else is accepted", "statement": "JudgeByResponseType gives the same flow for every ordering of the same tokens, accepts exactly the seven OpenID Connect response types up to order, never DirectGrant, and never 'none', duplicates or extra spaces.", "quantifier": "all strings", "why_tests_cant": "All byte strings.", "anchors": ["flow/flow.go:JudgeByResponseType"]}
{"id": "C48", "title": "prompt validation", "statement": "prompt.Validate accepts exactly the strings whose space separated tokens are all none/login/consent/select_account, without mixing none with another token.", "quantifier": "all strings", "why_tests_cant": "All byte strings.", "anchors": ["prompt/util.go:Validate"]}
{"id": "C49", "title": "Response modes are totally ordered by strength", "statement": "CompareSecurityLevel is a total preorder; among the valid modes query < fragment < form_post; an unknown mode is weaker than every valid one.", "quantifier": "all strings", "why_tests_cant": "All byte strings.", "anchors": ["response_mode/util.go"]}
{"id": "C50", "title": "FlowType JSON round-trips", "statement": "UnmarshalJSON(MarshalJSON(f)) = f for every flow type, and UnmarshalJSON accepts nothing else.", "quantifier": "all flow types and byte strings", "why_tests_cant": "All byte strings.", "anchors": ["flow/flow.go:MarshalJSON", "flow/flow.go:UnmarshalJSON"]}
{"id": "C51", "title": "The authorization request survives the login round-trip", "statement": "DecodeRequest(r.Encode()) = r for every request whose strings are valid UTF-8.", "quantifier": "all requests", "why_tests_cant": "All strings (escaping), all int64 values.", "anchors": ["authorization/request.go:Encode", "authorization/request.go:DecodeRequest"]}
{"id": "C52", "title": "Unpadded base64url is injective and URL safe", "statement": "EncodeBase64WithoutPadding produces only A-Z a-z 0-9 - _, has length ceil(4n/3), and restoring the padding and decoding gives back the bytes; so distinct inputs encode differently; a generated code verifier always has 43 such characters.", "quantifier": "all byte sequences", "why_tests_cant": "All byte sequences.", "anchors": ["pkce/crypto.go"]}
{"id": "C53", "title": "PKCE verifiers decide exactly their relation", "statement": "FindVerifierByMethod succeeds exactly for 'plain' and 'S256'; plain accepts iff challenge = verifier; S256 accepts iff challenge is the unpadded base64url of SHA-256 of the verifier.", "quantifier": "all strings", "why_tests_cant": "All byte strings.", "anchors": ["pkce/verifier.go"]}
{"id": "C54", "title": "Basic credentials built by basic_auth are what the server reads", "statement": "For every user id and password, the Authorization header built by basic_auth.Header is read back by FindClientCredential and by the token endpoint as the same pair.", "quantifier": "all strings", "why_tests_cant": "Escaping bugs are input specific.", "anchors": ["basic_auth/util.go", "token_endpoint.go:findClientCredential"]}
{"id": "C55", "title": "OAuth errors are rendered faithfully", "statement": "The JSON body, WWW-Authenticate header and query rendering of an OAuthError contain exactly its code, and its description and URI when non-empty; distinct error types have distinct codes; the quoted header never contains raw CR, LF or an unescaped quote from a value; ErrServerError is 500, ErrInvalidToken 401, ErrInsufficientScope/AccessDenied 403.", "quantifier": "all error types, descriptions, URIs and realms", "why_tests_cant": "Header/JSON injection is input specific.", "anchors": ["oauth_error/errors.go"]}
{"id": "C56", "title": "X-OAUTH-USER-ID parses back to the user id", "statement": "strconv parsing of the X-OAUTH-USER-ID header set by a successful Validate yields exactly the authorization's user id, for every int64.", "quantifier": "all int64 user ids", "why_tests_cant": "2^64 values.", "anchors": ["resource_protector.go:Validate"]}
{"id": "C57", "title": "The JWK endpoint serves exactly the registered keys", "statement": "The document served by the JWK endpoint lists, for each key id, exactly the last key registered for it before Handler was called, whatever the map iteration order, and LoadPublicKeyFromJWK recovers the key from it.", "quantifier": "all registration histories, keys and iteration orders", "why_tests_cant": "Histories and iteration orders.", "anchors": ["jwk_endpoint.go", "crypto/key.go:PublicKeysJWK", "crypto/key.go:LoadPublicKeyFromJWK"]}
{"id": "C58", "title": "Secrets never reach the logger", "statement": "Neither the client secret presented at the token endpoint nor the resource owner's password influences anything passed to the logger other than through the backend's accept/reject answers.", "quantifier": "every request, endpoint configuration and sequence of answers of the application's DataInterface/Client implementation", "why_tests_cant": "A hyperproperty over pairs of runs.", "anchors": ["token_endpoint.go:validateClientBySecret", "grant/password.go:Password", "log/text.go"]}
{"id": "C59", "title": "Log labels identify their event and level", "statement": "Distinct log events have distinct names and distinct levels have distinct labels; a message is printed exactly when its level is at least the configured one.", "quantifier": "all events, levels and thresholds", "why_tests_cant": "Table property, stated for all values.", "anchors": ["log/text.go:LogEvent.String", "log/logger.go:LogLevel.String"]}
{"id": "C60", "title": "Token lifecycle on the reference store", "statement": "On the repository's reference store started without sessions, if no code is handed out twice: a token request that starts after a request presenting the same authorization code was answered 200 is never answered 200, in every interleaving of requests and crashes. After every history, the access token of a 200 answer is accepted by the protector while unexpired, with the user and client of the authorization it was issued for, after any further history of calls that does not refresh that token (while the store's authorization counter is below 2^63); and with the scope of the answer, unless that user and client were authorized again in the meantime.", "quantifier": "every history of requests against the reference store", "why_tests_cant": "Unbounded histories.", "anchors": ["test_helper/store.go", "grant/*.go", "resource_protector.go"]}
{"id": "C61", "title": "The token response body is faithful JSON", "statement": "The 200 body parses as a JSON object with token_type Bearer, the access token, the lifetime, and refresh_token/id_token exactly when non-empty, for all valid UTF-8 values.", "quantifier": "all token strings and lifetimes", "why_tests_cant": "Escaping is input specific.", "anchors": ["grant/interface.go:Response.JSON", "grant/interface.go:NewResponse"]}
{"id": "C62", "title": "An ID token minted for a client is accepted back as id_token_hint", "statement": "If the provider can sign ID tokens for a client with its configured key, then an unexpired ID token it signed is accepted as id_token_hint for prompt=none by the same client.", "quantifier": "all algorithms, keys and claims", "why_tests_cant": "All key kinds.", "anchors": ["authorization_endpoint.go:HandleRequest", "id_token/id_token.go:rawGen"]}
{"id": "C63", "title": "An accepted assertion is not expired", "statement": "Whenever an assertion (client assertion or JWT grant) is accepted, its exp claim is not in the past.", "quantifier": "all claims and clocks", "why_tests_cant": "All numeric encodings.", "anchors": ["assertion/error.go:HandleAssertionError"]}
{"id": "C64", "title": "max_age is parsed exactly and bounded", "statement": "The max_age carried by a request past validation is 0 when absent, otherwise the exact decimal value of the parameter, within [MinMaxAge, MaxMaxAge]; anything not an optionally signed decimal fitting an int is refused with invalid_request.", "quantifier": "all strings and policies", "why_tests_cant": "All strings.", "anchors": ["authorization_endpoint.go:HandleRequest"]}
{"id": "C65", "title": "at_hash and c_hash are what OpenID Connect prescribes", "statement": "The at_hash and c_hash claims are the left half of the digest named by the signing algorithm, in unpadded base64url, for every token, code and algorithm.", "quantifier": "all tokens, codes and algorithms", "why_tests_cant": "The encoding differs only for some digests (or only in padding).", "anchors": ["id_token/id_token.go:Hash"]}
{"id": "C66", "title": "The Basic challenge names the configured realm", "statement": "Every 401 answer of the token endpoint carries exactly one WWW-Authenticate header, a well-formed Basic challenge whose realm is the configured one.", "quantifier": "all realms, requests and backend answers", "why_tests_cant": "Quoting is input specific.", "anchors": ["token_endpoint.go:failWithAuthHeader"]}
{"id": "C67", "title": "Refusals of the token endpoint are standard JSON errors", "statement": "Every non-200 answer to a POST is a JSON object whose error is one of the standard token-endpoint codes or server_error; the status is 500 exactly for server_error, 401 only for invalid_client without description, and 400 otherwise; error_uri is present exactly when the configured builder gives one for this error.", "quantifier": "every request, endpoint configuration and sequence of answers of the application's DataInterface/Client implementation", "why_tests_cant": "Every failure path.", "anchors": ["token_endpoint.go:fail", "token_endpoint.go:failWithAuthHeader", "oauth_error/errors.go:JSON"]}
{"id": "C68", "title": "Valid token requests are granted", "statement": "A POST whose grant type is registered, whose client authenticates and may use the grant, and which presents what that grant requires (a live code bound to this client and redirect URI with a matching PKCE verifier; an unexpired refresh token of this client with offline_access; credentials the application knows and an allowed scope; an owner; a valid assertion), with a backend that answers every call successfully, is answered 200 with the token the backend issued.", "quantifier": "every request, endpoint configuration and sequence of answers of the application's DataInterface/Client implementation", "why_tests_cant": "Completeness over all requests and backends: a spurious refusal is input specific.", "anchors": ["token_endpoint.go:Handler", "grant/*.go"]}
{"id": "C69", "title": "The resource protector says why it refuses", "statement": "A refused request is answered exactly once, without body: 400 with a Bearer challenge invalid_request when it presents no token where the policy allows; 401 invalid_token when the application does not know the token, when it has expired (with a description saying so), or when its authorization is no longer active; a bare 500 without challenge when the application fails. These reasons exclude each other and each of them does refuse.", "quantifier": "every request, endpoint configuration and sequence of answers of the application's DataInterface/Client implementation", "why_tests_cant": "Every failure path and backend answer.", "anchors": ["resource_protector.go:Validate", "resource_protector.go:unauthorize"]}
{"id": "C70", "title": "Every authorization request is answered by one decision table", "statement": "What HandleRequest does is determined by the request, the policies and the application's answers: every run follows a row of a fixed decision table (which error screen, which error code with which description in which response mode, which screen, which artefacts), the table is unambiguous (a run that gets the answers of a row makes exactly its calls and ends as it says), and every row occurs. In particular a missing client_id, a missing redirect_uri, an unknown client and a redirect URI the client may not use lead to their error screens and nothing else.", "quantifier": "every request, endpoint configuration and sequence of answers of the application's DataInterface/Client implementation", "why_tests_cant": "All combinations of parameters, policies and callback answers.", "anchors": ["authorization_endpoint.go:HandleRequest"]}
{"id": "C71", "title": "Invalid authorization parameters are reported by the first fault", "statement": "Once the client is identified, a response type that names no flow is answered with invalid_request, a request with faults is answered with the error code and the description of the first fault in a fixed order, in the response mode the flow uses, and nothing else happens; a request without faults goes on and its request object has exactly its parameters.", "quantifier": "every request, endpoint configuration and sequence of answers of the application's DataInterface/Client implementation", "why_tests_cant": "All combinations of wrong parameters.", "anchors": ["authorization_endpoint.go:HandleRequest"]}
{"id": "C72", "title": "prompt=none is refused with the code that names the reason", "statement": "A valid prompt=none request is answered with interaction_required when the client's policy forbids it, login_required when there is no login session, consent_required when no earlier consent covers it, and invalid_request when a required hint is missing, unreadable or names another user.", "quantifier": "every request, endpoint configuration and sequence of answers of the application's DataInterface/Client implementation", "why_tests_cant": "All policies, hints and callback answers.", "anchors": ["authorization_endpoint.go:HandleRequest"]}
{"id": "C73", "title": "Valid interactive requests reach the right screen", "statement": "A valid request with another prompt shows the login screen for exactly this request when there is no session, and for a logged-in user fresh enough for prompt and max_age it shows the consent screen for exactly this client and request, or is answered at once when an earlier consent covers it and the policy allows leaving the screen out.", "quantifier": "every request, endpoint configuration and sequence of answers of the application's DataInterface/Client implementation", "why_tests_cant": "Completeness over all requests and callback answers.", "anchors": ["authorization_endpoint.go:HandleRequest"]}
{"id": "C74", "title": "CompleteRequest follows its decision table", "statement": "Every run of CompleteRequest asks for the request to complete, records the authorization, and issues what the flow of the request names; each row of the table is unambiguous and occurs; the only error it sends is server_error, to the redirect URI of the request with its state in its response mode.", "quantifier": "every request, endpoint configuration and sequence of answers of the application's DataInterface/Client implementation", "why_tests_cant": "All flows and callback answers.", "anchors": ["authorization_endpoint.go:CompleteRequest", "authorization_endpoint.go:complete"]}
{"id": "C75", "title": "No JWT is accepted outside its time", "statement": "A token request answered 200 on the strength of a JWT (as grant or as client assertion) was examined at a time of the library's clock which is neither after a non-zero exp nor before a non-zero iat or nbf of that JWT, and none of the three is a claim that is not a number.", "quantifier": "every request, endpoint configuration and sequence of answers of the application's DataInterface/Client implementation", "why_tests_cant": "All claim sets and clocks.", "anchors": ["assertion/assertion.go:HandleAssertionError", "grant/jwt.go:Jwt", "token_endpoint.go:validateClientByAssertion"]}
{"id": "C76", "title": "Every token request is answered by one decision table", "statement": "What the token endpoint does is determined by the request, the client and the application's answers: every run follows a row of a fixed decision table (which error code with which description, a Basic challenge, a token response, with exactly which calls before it), the table is unambiguous (a run that gets the answers of a row makes exactly its calls and ends as it says), and every row occurs.", "quantifier": "every request, endpoint configuration and sequence of answers of the application's DataInterface/Client implementation", "why_tests_cant": "All combinations of parameters, clients and backend answers.", "anchors": ["token_endpoint.go:Handler", "grant/*.go", "assertion/error.go:HandleAssertionError"]}
{"id": "C77", "title": "Requests are refused before a grant with the code that names the reason", "statement": "A non-POST request is answered 405; a POST without grant_type gets invalid_request and one with an unregistered grant type unsupported_grant_type, naming it; without credentials a Basic challenge is sent; an unknown client and a wrong secret are refused alike (a challenge if the secret was in the Authorization header, else 400 invalid_client); a grant type the client may not use gets unauthorized_client; a failing application gets server_error. Nothing but the client lookup is asked of the application.", "quantifier": "every request, endpoint configuration and sequence of answers of the application's DataInterface/Client implementation", "why_tests_cant": "Every combination of method, parameters, credentials and backend answer.", "anchors": ["token_endpoint.go:Handler", "token_endpoint.go:validateClientBySecret"]}
{"id": "C78", "title": "Grants are refused with the code that names the reason", "statement": "A missing parameter gets invalid_request naming it; a code of another client, another redirect URI or a PKCE challenge that does not fit get invalid_grant, unusable PKCE parameters invalid_request; an expired refresh token, one of another client, without active authorization or without offline_access invalid_grant; a scope the client may not ask for invalid_scope; a wrong password and a client without owner invalid_grant. No token is created, refreshed or replaced and the code stays unspent in all these cases: the calls made are exactly the ones leading to the refusal.", "quantifier": "every request, endpoint configuration and sequence of answers of the application's DataInterface/Client implementation", "why_tests_cant": "Every combination of request and backend answers.", "anchors": ["grant/authorization_code.go", "grant/refresh_token.go", "grant/password.go", "grant/client_credentials.go"]}
{"id": "C79", "title": "Assertions are refused with the code that names the reason", "statement": "An assertion (client assertion or JWT bearer grant) with an unusable algorithm or no key is unverifiable (invalid_grant); otherwise the first fault in a fixed order is reported: bad signature (invalid_client), expired, not yet valid, issued in the future (invalid_grant), no exp (invalid_request). An assertion without fault is recorded with the application, a refused record gets invalid_request, a missing aud invalid_request and another audience invalid_grant.", "quantifier": "every request, endpoint configuration and sequence of answers of the application's DataInterface/Client implementation", "why_tests_cant": "Every claim set, key and backend answer.", "anchors": ["assertion/error.go:HandleAssertionError", "grant/jwt.go", "token_endpoint.go:validateClientByAssertion"]}
{"id": "C80", "title": "HTTP inputs are read exactly", "statement": "Headers are matched without regard to ASCII case and the first one counts; parameters are matched by exact name, the first one counts, the body (only of POST, PUT and PATCH) before the query. Client credentials are taken from the Authorization header exactly when it is `Basic ` (any case) followed by a complete padded base64 text of user:password without a colon in the user, otherwise from the parameters the policy allows; a bearer token exactly from `Bearer ` (any case) and what follows up to the next space.", "quantifier": "Every request: all header lists, parameter lists, spellings and base64 texts.", "why_tests_cant": "All byte strings.", "anchors": ["token_endpoint.go:findClientCredential", "token_endpoint.go:findClientAssertion", "basic_auth/util.go:FindClientCredential", "resource_protector.go:findTokenFromRequest"]}
{"id": "C81", "title": "A redeemed code comes from a consent given to that client by that user", "statement": "In a deployment serving any number of authorization, token and protected requests at once, over a store that keeps its records, a 200 answer to a code exchange goes to an authenticated client, and the code it presented was created earlier by an authorization response for that same client, for the presented redirect URI, while the user whom the issued token names was logged in and had consented (then or before); a code_verifier given there fits the PKCE challenge given here. If the application continues only requests whose consent screen it showed, an authorization request of that client with that redirect URI, verifier and nonce had passed every check before.", "quantifier": "Every set of requests, every interleaving of their calls to the application, every point where one stops, every store that keeps its records (among them every run of the reference store).", "why_tests_cant": "A mix-up of codes between users or clients needs one schedule of many requests; tests run one flow at a time.", "anchors": ["authorization_endpoint.go:HandleRequest", "authorization_endpoint.go:CompleteRequest", "token_endpoint.go:Handler", "grant/authorization_code.go", "test_helper/store.go"]}
{"id": "C82", "title": "The identity a protected request gets was granted to that client", "statement": "In such a deployment a protected request that is admitted carries the user, client and scope of one authorization, exactly that user, client and scope were recorded earlier by a request entitled to (a completed consent of that user, that user's password presented by that client, the client's own account, or an assertion about that user signed by that client), that scope was allowed to that client, and the presented token was issued earlier to a request that speaks for that user and client.", "quantifier": "Every set of requests, every interleaving, every store that keeps its records (among them every run of the reference store).", "why_tests_cant": "Privilege escalation across requests is a property of whole histories.", "anchors": ["resource_protector.go:Validate", "token_endpoint.go:Handler", "grant/*.go", "authorization_endpoint.go:CompleteRequest", "test_helper/store.go"]}
{"id": "C83", "title": "A log line says what happened", "statement": "With colours taken out, the line logged for an endpoint event reads `[goidc:ENDPOINT:REALM:EVENT] MESSAGE ATTRS` where ATTRS is a JSON object with exactly the parameters of the event in key order; the line does not depend on the iteration order of the map; whoever reads the line recovers the event and the parameters; and the line is printed exactly when its level is at least the configured one.", "quantifier": "Every endpoint, realm, event and parameter map; every level and threshold.", "why_tests_cant": "All byte strings as parameter values (attackers choose many of them), all map orders.", "anchors": ["log/text.go:EndpointLog", "log/logger.go", "log/event.go"]}
{"id": "C84", "title": "Every answer of the token endpoint is explained in the log", "statement": "Right before the token endpoint answers, the log gets a line of the token endpoint that explains the answer: filed under the grant in question, with an event that belongs to the answer, at least as severe as the event calls for, naming a missing parameter, and naming the client that was looked up unless none was identified. No access token is handed out without such a line.", "quantifier": "every request, endpoint configuration and sequence of answers of the application's DataInterface/Client implementation", "why_tests_cant": "All requests, clients and backend answers, and every error path.", "anchors": ["token_endpoint.go:Handler", "grant/*.go", "assertion/error.go:HandleAssertionError", "log/event.go"]}
{"id": "C85", "title": "A failing application leaves a report that names the method", "statement": "When a method of the application's data interface fails during a token request (with any error, or with neither a value nor an error), the very next line of the log reports it, with the event for that kind of failure, at least at the level it calls for, and with the name of the method.", "quantifier": "every request, endpoint configuration and sequence of answers of the application's DataInterface/Client implementation", "why_tests_cant": "All requests and all failures at every point.", "anchors": ["token_endpoint.go:Handler", "grant/*.go", "assertion/*.go", "bridge/interface.go:DataInterface"]}
{"id": "C86", "title": "Refusals of the resource protector are explained in the log", "statement": "Every refusal of a protected request is preceded by a line of the protector's log with the path and an event that explains it, and a failing application is reported in it with the method.", "quantifier": "every request, endpoint configuration and sequence of answers of the application's DataInterface/Client implementation", "why_tests_cant": "All requests and backend answers.", "anchors": ["resource_protector.go:Validate", "resource_protector.go:ValidateWithScopes"]}
{"id": "C87", "title": "Error screens and failing callbacks of the authorization endpoint are reported", "statement": "Every error screen is preceded by a line of the log that explains it and names the parameter or method at fault; a callback that fails is reported by the next line, as an error, with its name.", "quantifier": "every request, endpoint configuration and sequence of answers of the application's DataInterface/Client implementation", "why_tests_cant": "All requests, policies and callback answers.", "anchors": ["authorization_endpoint.go:HandleRequest", "authorization_endpoint.go:CompleteRequest", "authorization_endpoint.go:CancelRequest"]}
{"id": "C88", "title": "A delivered code can be redeemed, and the tokens used", "statement": "On the reference store, with any other requests running at the same time: the code in an authorization response can be exchanged by the client it was made for (its secret, the same redirect URI, a fitting challenge if a verifier was given) for a token with the consented scope, with a refresh token exactly if that scope has offline_access and an ID token for that user, nonce and login time exactly if it has openid; and a refresh token in a token response can be used by the same client for a new token of the same scope, keeping the refresh token; and an access token in a token response admits the protected requests that present it, as that user and client with that scope. Unless another request spent or replaced it first, it expired, or the user authorized another scope in between.", "quantifier": "Every set of requests and every interleaving of their calls to the reference store, every request that redeems or refreshes.", "why_tests_cant": "Liveness over whole histories: some other request, at some point, could break the record that the exchange needs.", "anchors": ["authorization_endpoint.go:CompleteRequest", "token_endpoint.go:Handler", "grant/authorization_code.go", "grant/refresh_token.go", "test_helper/store.go"]}
{"id": "C89", "title": "A replaced access token is dead", "statement": "Over the reference store, in every interleaving of any requests: once an access token has been replaced by a refresh, every protected request that starts afterwards and presents the old token is refused with 401, and it cannot be replaced again, unless the store hands out a token of that very name again.", "quantifier": "Every set of requests, every interleaving of their calls to the reference store, every point where one stops.", "why_tests_cant": "The old token must stay refused for the rest of every history.", "anchors": ["resource_protector.go:Validate", "grant/refresh_token.go", "test_helper/store.go:RefreshAccessToken"]}
{"id": "C90", "title": "A request changes only the data of the client it speaks for", "statement": "In a deployment serving any number of authorization, token and protected requests at once, every call that records, spends, creates or replaces something concerns data of a client the calling request speaks for: the client that authenticated at the token endpoint, or the client of the authorization request that the logged-in user completed or had consented to. Over the reference store with fresh authorization codes, the authorizations, sessions and access tokens of a client are exactly the same after any calls of requests that do not speak for it.", "quantifier": "Every set of requests, every interleaving, every point where one stops; every store that keeps its records, and every run of the reference store.", "why_tests_cant": "One request in one schedule that touches another client's record would refute it.", "anchors": ["token_endpoint.go:Handler", "grant/*.go", "authorization_endpoint.go:HandleRequest", "authorization_endpoint.go:CompleteRequest", "test_helper/store.go"]}
{"id": "C91", "title": "Keys are loaded exactly from what they are written in", "statement": "The public-key loader succeeds exactly on data whose first PEM block is of type PUBLIC KEY and holds a PKIX public key, the private-key loader exactly on one of type RSA PRIVATE KEY holding a PKCS#1 key, and the key returned is the key in the block; everything else is an error and never a key; no data is accepted by both loaders; loading from a text equals loading from a file with that content, and an unreadable file is an error; loading from a JWK set gives the key whose id was asked for.", "quantifier": "All data, files, key ids and JWK sets.", "why_tests_cant": "All byte strings; a loader that takes the wrong block type confuses public and private keys.", "anchors": ["crypto/key.go:LoadPublicKeyFromData", "crypto/key.go:LoadPrivateKeyFromData", "crypto/key.go:LoadPublicKeyFromJWK"]}
{"id": "C92", "title": "Settings are what the last configuration call said", "statement": "After any sequence of configuration calls on a token endpoint or a resource protector, each setting is what the last call about it said and no call changes another setting; without calls, secrets and tokens are taken from the Authorization header only, client assertions are not accepted, errors carry no error_uri and no grant type is registered. An endpoint whose secret policy was never set grants tokens only to requests with Basic credentials; an endpoint without Support for a grant type refuses it without touching the application's data; after SetErrorURI every refused POST carries that error_uri; under the default policy a request handed to a screen has max_age in 60..86400 or none, and nonce and verifier of at most 255 bytes; no request is refused for its response_mode, responses travel by form_post or fragment where asked for (or where the flow is implicit or hybrid) and in the query otherwise; codes are good for 60 seconds, ID tokens say that they expire after a day, and consent is asked for again after a day.", "quantifier": "Every sequence of configuration calls, every request and backend answer.", "why_tests_cant": "Sequences of calls are unbounded; the defaults matter for every request that reaches an endpoint nobody configured.", "anchors": ["token_endpoint.go:NewTokenEndpoint", "token_endpoint.go:Support", "token_endpoint.go:AcceptClientSecret", "token_endpoint.go:SetErrorURI", "resource_protector.go:NewResourceProtector", "authorization/request.go:DefaultPolicy"]}
{"id": "C93", "title": "The reference store answers for what it was set up with, and only for that", "statement": "However the reference store was set up (users and clients created, grant types allowed, everything cleared, in any order and number) and whatever requests run over it concurrently: FindClientById finds exactly the last client made with that id since everything was cleared, with its own secret, redirect URI, owner and allowed grant types; FindUserId exactly the users created since, each under its own id. An access token is granted only to a request that presents exactly the registered secret, for a grant type allowed to that client, or an assertion about the client with an HMAC under that secret; every response of an authorization request goes to the registered redirect URI; no authorization request succeeds without asking the user; and the identity of an admitted protected request was justified by a completed consent, the exact password of a registered user, the registered owner of the client, or an assertion under the client's secret that names a registered user.", "quantifier": "Every history of set-up calls, every set of requests, every interleaving of their calls, every point where one stops.", "why_tests_cant": "Histories and schedules are unbounded, and a stale or foreign registration would show only in some of them.", "anchors": ["test_helper/client.go", "test_helper/store.go:CreateNewUser", "test_helper/store.go:CreateNewClient", "test_helper/store.go:ClearAll", "token_endpoint.go:Handler", "authorization_endpoint.go:HandleRequest", "resource_protector.go:Validate"]}
{"id": "C94", "title": "Tokens last as long as they say", "statement": "On the reference store, with one clock that never goes backwards and any requests running concurrently: the access token of a token response admits every protected request that presents it until expires_in seconds after the token request started (unless it is replaced or the user authorizes another scope), and once more than that has passed since it was handed out every request that presents it is refused with 401 (unless a token of that name is handed out again). A refresh token works for 30 days from the start of the request that first obtained it, keeps working across refreshes but is not prolonged by them, and is refused with invalid_grant once no token with it was made for more than 30 days.", "quantifier": "Every set of requests, every interleaving of their calls, every monotone clock.", "why_tests_cant": "The clock may advance by any amount between any two calls; a time taken from the wrong place shows only for some of them.", "anchors": ["test_helper/store.go:CreateOAuthToken", "test_helper/store.go:RefreshAccessToken", "resource_protector.go:Validate", "grant/refresh_token.go", "grant/interface.go:NewResponse"]}
{"id": "C95", "title": "An ID token is a JWS that says exactly the claims", "statement": "The ID token in a token response or in an authorization response is a JSON Web Signature in compact serialisation: the header says the client's algorithm, the type JWT and the key id if there is one; the payload is a JSON object that says exactly the claims of the ID token, each once, whatever bytes the nonce, the subject and the other strings consist of (no value can add, change or hide a claim); the signature is made with the client's key over exactly the text of these two parts. A JWS can be read in one way only.", "quantifier": "Every request, backend answer, client, key and claim value; every choice of the cryptographic primitives.", "why_tests_cant": "All byte strings as nonce, subject and issuer: one unescaped quote forges a claim.", "anchors": ["id_token/id_token.go:Generate", "grant/authorization_code.go", "authorization_endpoint.go:HandleRequest", "authorization_endpoint.go:CompleteRequest"]}
{"id": "C96", "title": "An accepted assertion is read as its JSON says", "statement": "When a request is granted on the strength of a client assertion or of a JWT bearer assertion that is a JWS, the algorithm and key id are those its header says, the key is the client's key for these, the signature is verified with it over exactly the text of header and payload, sub (the client, or the user), aud (the issuer) and exp (not passed) are what its payload says, and where a member occurs several times the last one counts for all of these alike.", "quantifier": "Every token text, JSON document, client, key and backend answer; every choice of the cryptographic primitives.", "why_tests_cant": "All texts of tokens, with all spacings, orders, duplicates and encodings; a signature checked over another text than the one that is read is forgery.", "anchors": ["token_endpoint.go:validateClientByAssertion", "grant/jwt.go", "assertion/error.go:HandleAssertionError"]}
{"id": "C97", "title": "A conforming assertion is accepted", "statement": "Whoever presents, as a client assertion or in a JWT bearer grant, a JWS whose header names an algorithm and key id for which the client has a key, whose signature verifies under it, whose payload has sub, aud equal to the issuer, an exp that has not passed and no iat or nbf in the future, in whatever order, spacing and company of other members, is authenticated or gets a token (if the application finds the client or user and records the assertion); and every token made by the JWT library from such claims with the client's key conforms.", "quantifier": "Every conforming token text, client, key, time and request; every choice of the cryptographic primitives.", "why_tests_cant": "All texts of tokens.", "anchors": ["token_endpoint.go:validateClientByAssertion", "grant/jwt.go", "assertion/error.go:HandleAssertionError"]}
{"id": "C98", "title": "Unrecognised parameters and headers are ignored", "statement": "Each endpoint looks only at the parameters and headers it documents: two requests that differ only in other parameters (in the body or the query) and other headers make the same calls, get the same response, and are logged alike; the protected application sees the same verdict and the same identity headers. In particular nobody can influence a token or authorization decision with a parameter of another endpoint or of an extension.", "quantifier": "Every pair of requests that agree on the recognised names, every configuration with the built-in grants, every run.", "why_tests_cant": "There are infinitely many other parameters and headers, in every number and position.", "anchors": ["token_endpoint.go:Handler", "grant/*.go", "authorization_endpoint.go:HandleRequest", "authorization_endpoint.go:CompleteRequest", "resource_protector.go:Validate", "resource_protector.go:ValidateWithScopes"]}
{"id": "C99", "title": "A refusal does not tell how close the guess was", "statement": "Whoever presents a client id and a secret that do not belong together gets the same response, byte for byte, whether the client exists or not; whoever presents an authorization code that is not usable for it gets the same response whether the code does not exist, belongs to another client or has lost its authorization; the same for refresh tokens (also when refreshing was not granted), and for access tokens at a resource. Whatever else the requests contain does not change that response.", "quantifier": "All pairs of requests, clients, codes, tokens and backend answers, and all runs.", "why_tests_cant": "It compares two runs over all pairs of requests and backend states; one description added in one branch makes an oracle.", "anchors": ["token_endpoint.go:validateClientBySecret", "token_endpoint.go:failByInvalidClientError", "grant/authorization_code.go", "grant/refresh_token.go", "resource_protector.go:Validate"]}
{"id": "C100", "title": "The code verifier stays on the server", "statement": "The code_verifier of an authorization request is given to nobody but the login screen, the consent screen and the session store of the application: two authorization requests (or continued requests) that differ only in their verifiers, both of allowed length, make the same calls but for the verifier in them, write the same log lines and send the same response to the browser. At the token endpoint an exchange of the code tells whether the presented challenge fits the verifier and nothing else: two verifiers that both fit or both do not fit are served alike.", "quantifier": "All pairs of verifiers, all requests, all backend answers and all runs.", "why_tests_cant": "It compares runs over all pairs of verifiers; a verifier that leaks into a redirect or a log line, or an answer that depends on how much of it matches, breaks PKCE without breaking any exchange.", "anchors": ["authorization_endpoint.go:HandleRequest", "authorization_endpoint.go:CompleteRequest", "authorization_endpoint.go:CancelRequest", "grant/authorization_code.go", "pkce/verifier.go"]}
{"id": "C101", "title": "One request makes a bounded number of calls and changes each thing at most once", "statement": "Whatever the request and whatever the application answers: serving one token request makes or refreshes at most one access token, creates or updates at most one authorization, disables at most one session, checks at most one password, records at most two assertions and makes no session or code; an authorization request (and its completion) makes at most one code, one session, one access token and shows at most one screen, touches an authorization only on completion, at most once, and never disables a session or checks a password; cancelling and protecting resources change nothing. The number of calls to the application is bounded by a constant (20, 25, 13, 4 and 7 calls), whatever the size of the request; this holds at every point where serving stops.", "quantifier": "Every request of any size, every sequence of backend answers, every point where serving stops.", "why_tests_cant": "A repeated call shows only with some answers of the backend; the sizes of requests are unbounded.", "anchors": ["token_endpoint.go:Handler", "grant/*.go", "authorization_endpoint.go:HandleRequest", "authorization_endpoint.go:CompleteRequest", "authorization_endpoint.go:CancelRequest", "resource_protector.go:Validate", "resource_protector.go:ValidateWithScopes"]}
{"id": "C102", "title": "Whatever is accepted as an assertion or hint is a JWS, read in one way", "statement": "When a request is granted on the strength of a client assertion or a JWT bearer assertion, or answered without asking the user on the strength of an ID token hint, the token presented is three base64url parts of which the first is a JSON object and the second begins with one (as encoding/json reads them), and algorithm, key id, claims, signed text and signature are those these parts say, with the last of several members of one name counting; no text can be read as a JWS in two ways, and a JWS by the book is read as the book says.", "quantifier": "Every token text whatever, client, key, request and backend answer; every choice of the cryptographic primitives.", "why_tests_cant": "All texts of tokens, also malformed ones: a second reading is a forgery.", "anchors": ["token_endpoint.go:validateClientByAssertion", "grant/jwt.go", "authorization_endpoint.go:HandleRequest", "assertion/error.go:HandleAssertionError"]}
{"id": "C103", "title": "DecodeRequest reads the request its JSON says", "statement": "Decoding the base64url text of a JSON object gives the request its members say: every field is what the last member of that name (but for case) with a value of the right sort says and empty otherwise, whatever the order, spacing, escapes and company of the members; members behind a flow with an unknown type are not read; the text of anything but an object gives the empty request. Two texts with the same members decode to the same request.", "quantifier": "Every text, with every spacing, order, duplication, case and encoding of its members.", "why_tests_cant": "All JSON texts; the request comes back from the browser and decides what is granted to whom.", "anchors": ["authorization/request.go:DecodeRequest", "flow/flow.go:UnmarshalJSON"]}
{"id": "C104", "title": "No request splits a response", "statement": "No header of a response contains a control character, in its name or its value: whatever a request holds, it cannot add a header to its response or end the header section. This holds for the authorization endpoint (redirects with state, error descriptions and parameters taken from the request), for completing and cancelling, for the token endpoint and for protected resources (challenges).", "quantifier": "Every request, configuration, backend answer and run.", "why_tests_cant": "All byte strings in all parameters; one unescaped value is enough.", "anchors": ["authorization/response.go", "authorization_endpoint.go:HandleRequest", "token_endpoint.go:failWithAuthHeader", "resource_protector.go:unauthorize", "oauth_error/errors.go:Header"]}
{"id": "C105", "title": "No request forges a log line", "statement": "Each log entry the default logger prints is one line: whatever a request holds, its entries contain, colours apart, no control character but the line feed at their end, so nobody can write log entries of his own, hide one or send escape sequences to the terminal.", "quantifier": "Every request, configuration, backend answer, log level and run.", "why_tests_cant": "All byte strings in all parameters, headers and paths.", "anchors": ["log/logger.go", "log/text.go", "log/color.go", "authorization_endpoint.go", "token_endpoint.go", "resource_protector.go"]}
{"id": "C106", "title": "Issued tokens and codes never reach the log", "statement": "What is logged while a request is served does not depend on the tokens and codes the application issues on it: had the application made up other access tokens, refresh tokens and authorization codes (and so other ID tokens), the same calls would have been made, the same lines logged and a response with the same status sent. So no log line contains an issued token or code, a part of one, or anything computed from one. The same holds at protected resources for the stored token that is found.", "quantifier": "Every request, every choice of the issued strings, every backend answer and run.", "why_tests_cant": "It compares runs over all pairs of issued strings; a token added to one debug line gives every reader of the log the user's access.", "anchors": ["token_endpoint.go:executeGrantHandler", "grant/*.go", "authorization_endpoint.go:HandleRequest", "authorization_endpoint.go:CompleteRequest", "resource_protector.go:Validate", "log/text.go"]}
{"id": "C107", "title": "A token request is read from its body", "statement": "What a token request asks for is read from its body (and its Authorization header): the query of its URL, which ends up in access logs and browser histories, has no influence on what happens.", "quantifier": "All pairs of token requests that differ in their URLs only, every configuration and run.", "why_tests_cant": "All pairs of queries; a parameter taken from the URL shows only when it is missing in the body.", "anchors": ["token_endpoint.go:Handler", "token_endpoint.go:findClientCredential", "grant/*.go"]}
{"id": "C108", "title": "The default logger prints what is at or above the level set last", "statement": "After any history of calls, a message of a level is printed, as one line behind a label, exactly if the level is at or above the one SetLevelForDefaultLogger accepted last (everything if none was); a level above fatal is refused with a panic and changes nothing. A printed line tells which level and which text it came from: two equal lines come from equal messages of the same level.", "quantifier": "Every history of calls to the logger, every level value and message text.", "why_tests_cant": "All histories and all integers passed as level; the level is global state.", "anchors": ["log/logger.go:SetLevelForDefaultLogger", "log/logger.go:defaultLogger", "log/color.go:paint"]}
{"id": "C109", "title": "Any spelling of the same parameters is the same request", "statement": "What is served is decided by what the bytes of a request say, not by how they spell it: the parameters are those of the texts between ampersands, with plus signs as blanks and percent escapes (in either case of their digits) as the bytes they stand for; texts with a semicolon or a malformed escape are left out, a bare name has the empty value. The body counts only under a form content type and up to 10 MiB. Two requests that say the same are served alike, and parameters posted by any client that encodes them by the book arrive as they were given.", "quantifier": "All byte strings as query and body, all headers, every endpoint and configuration.", "why_tests_cant": "All spellings of all parameters; a second reading of the same bytes lets a proxy and the endpoint see different requests.", "anchors": ["token_endpoint.go:Handler", "authorization_endpoint.go:HandleRequest", "resource_protector.go:Validate", "token_endpoint.go:findClientCredential"]}
{"id": "C110", "title": "PKCE protects clients that use it as RFC 7636 says", "statement": "A client that sends code_challenge (and its method) with its authorization request and code_verifier with its token request, as RFC 7636 prescribes, is protected: a code requested with a challenge is exchanged only by a request with a verifier that fits it.", "quantifier": "All authorization requests with a challenge, all token requests, all interleavings of the flow over the reference store.", "why_tests_cant": "All pairs of challenge and verifier in whole histories of a flow; a challenge that is ignored makes every positive test pass.", "anchors": ["authorization_endpoint.go:HandleRequest", "grant/authorization_code.go", "pkce/verifier.go"]}
{"id": "C111", "title": "An access token stands for the scope it was issued with", "statement": "A protected request that presents an access token is admitted with the scope of the token response the token came in, whatever the user authorizes later.", "quantifier": "All histories of token, authorization and protected requests over the reference store.", "why_tests_cant": "It relates two requests across any history between them.", "anchors": ["resource_protector.go:Validate", "test_helper/store.go:CreateOrUpdateAuthInfo", "grant/*.go"]}
{"id": "C112", "title": "No answer is kept for somebody else", "statement": "No response of the library may be kept by a cache: each one forbids storing it, or has a status caches do not store on their own account and no header that says otherwise. This holds for redirects and form pages with codes and tokens, for errors sent to the client, for tokens, for refusals of the token endpoint and of protected resources. (Requests to the token endpoint with another method than POST get an empty answer.)", "quantifier": "Every request, configuration, backend answer and run.", "why_tests_cant": "All paths that write a response; a response without the header on one error path is enough.", "anchors": ["authorization/response.go", "token_endpoint.go", "resource_protector.go", "authorization_endpoint.go"]}
{"id": "C113", "title": "An id_token_hint says whom the answer is about", "statement": "A request with an id_token_hint about some user is answered with a code or token only if the logged-in user is that user, as the application confirms (OpenID Connect Core, 3.1.2.1).", "quantifier": "All authorization requests with a hint, clients, policies, backend answers and runs.", "why_tests_cant": "All requests and runs; an unread hint is invisible while the right user is logged in.", "anchors": ["authorization_endpoint.go:HandleRequest", "authorization_endpoint.go:CompleteRequest"]}
{"id": "C114", "title": "max_age holds when the answer is given", "statement": "When a request with max_age is completed after the user's consent, the login is still at most max_age seconds old at that time.", "quantifier": "All continued requests, times and runs of CompleteRequest.", "why_tests_cant": "It relates times of two requests with a user between them.", "anchors": ["authorization_endpoint.go:CompleteRequest"]}
{"id": "C115", "title": "Authorization requests by GET and by POST are served alike", "statement": "OpenID Connect Core 3.1.2.1: the authorization endpoint serves GET and POST. Two authorization requests with the same path and parameter values have the same effects whatever their methods and wherever their parameters are: the same calls of the application with the same arguments in the same order, the same log lines, the same result, and responses that are equal up to the text accompanying a redirect (which goes to the same place). The same holds for completing and cancelling.", "quantifier": "All pairs of requests with equal parameter values, all methods, on the wire too, every policy, backend answer and run.", "why_tests_cant": "All pairs of requests and runs; one parameter read from the body only breaks one of the two methods for one kind of request.", "anchors": ["authorization_endpoint.go:HandleRequest", "authorization_endpoint.go:CompleteRequest", "authorization_endpoint.go:CancelRequest", "authorization/response.go"]}
{"id": "C116", "title": "Parameters without a value count as omitted", "statement": "RFC 6749, 3.1 and 3.2: at the token endpoint and the authorization endpoint, a request with parameters that are sent without a value is served exactly as the request without them.", "quantifier": "All requests (that name no parameter twice), all sets of empty parameters in body and URL, every configuration, backend answer and run.", "why_tests_cant": "All combinations of empty parameters; a parameter whose presence instead of its value is looked at shows only when it is sent empty.", "anchors": ["token_endpoint.go:Handler", "grant/*.go", "authorization_endpoint.go:HandleRequest"]}
{"id": "C117", "title": "Repeated parameters are refused", "statement": "RFC 6749, 3.1 and 3.2: a request that includes a parameter more than once is not granted, so that no two readers of the request can take it for different requests.", "quantifier": "All token and authorization requests.", "why_tests_cant": "All requests with repetitions, in body and URL.", "anchors": ["token_endpoint.go:Handler", "authorization_endpoint.go:HandleRequest"]}
{"id": "C118", "title": "Claims that are not understood are ignored", "statement": "RFC 7519, 4: of the tokens presented to the library - client assertions, assertions of the JWT grant, ID token hints - only the subject, audience, expiry, not-before, issued-at and identifier claims count, with the algorithm and key id of the header. Had all tokens carried other claims beside these, whatever their names and values, exactly the same would have happened on every token request and every authorization request.", "quantifier": "All token texts and all claim sets they may carry, all requests, configurations, backend answers and runs.", "why_tests_cant": "It compares runs over all pairs of claim sets; one look at a private claim changes results only for tokens that have it.", "anchors": ["assertion/assertion.go", "grant/jwt.go", "token_endpoint.go:validateClientByAssertion", "authorization_endpoint.go:HandleRequest"]}
{"id": "C119", "title": "An assertion names its issuer", "statement": "RFC 7523, 3 and OpenID Connect Core, 9: an assertion is accepted, as client authentication or as a grant, only if it names its issuer (iss), which for client authentication is the client itself.", "quantifier": "All token requests with assertions, configurations and runs.", "why_tests_cant": "All assertions; the missing check is invisible to tests whose assertions are well formed.", "anchors": ["assertion/assertion.go", "grant/jwt.go", "token_endpoint.go:validateClientByAssertion"]}
{"id": "C120", "title": "A request authenticates one client in one way", "statement": "RFC 6749, 2.3 and RFC 7521, 4.2: a token request that presents credentials of two clients - a Basic header of one and a client id or an assertion of another, or an assertion of one with the client id of another - is not granted.", "quantifier": "All token requests with several credentials, acceptance policies, configurations and runs.", "why_tests_cant": "All combinations of credentials; which one counts shows only when they disagree.", "anchors": ["token_endpoint.go:findClientCredential", "token_endpoint.go:findClientAssertion", "token_endpoint.go:Handler"]}
{"id": "C121", "title": "A grant of the application is served as its handler says", "statement": "TokenEndpoint.Support takes handlers of the application's own. Whatever a handler does, it runs only after a client has authenticated (and may use the grant type), once, with the request, that client and the current time, before which nothing but the authentication has happened; the endpoint then answers as the handler ended: with its tokens, with its error (with the error page it names or the configured one), or not at all if it panics. Otherwise the request is refused without running it. Handlers of other grant types have no influence.", "quantifier": "Every handler whatever, every set of other handlers, request, configuration, backend answer and run.", "why_tests_cant": "All functions of the application; the built-in grants are five of them.", "anchors": ["token_endpoint.go:Support", "token_endpoint.go:Handler", "token_endpoint.go:executeGrantHandler"]}
{"id": "C122", "title": "Extensions a token depends on are understood or refused", "statement": "RFC 7515, 4.1.11: an assertion whose header lists extensions as critical (crit) is refused if they are not supported; goidc supports none, so it is not accepted.", "quantifier": "All assertions with critical extensions, all requests, configurations and runs.", "why_tests_cant": "All headers; the missing check shows only for tokens that use an extension.", "anchors": ["token_endpoint.go:validateClientByAssertion", "assertion/assertion.go", "grant/jwt.go"]}
{"id": "C123", "title": "A code used twice revokes what was issued for it", "statement": "RFC 6749, 4.1.2: when a code is presented again and refused, the access token issued for it admits no request from then on.", "quantifier": "All histories of token, authorization and protected requests over the reference store.", "why_tests_cant": "It relates three requests across any history.", "anchors": ["grant/authorization_code.go", "resource_protector.go:Validate", "test_helper/store.go"]}
{"id": "C124", "title": "A hint is an ID token of this issuer for this client", "statement": "OpenID Connect Core, 3.1.2.1 and RFC 8725, 3: a silent request of a client whose policy asks for an id_token_hint succeeds only if the hint was issued by this issuer, for this client, with the algorithm ID tokens of the client are signed with.", "quantifier": "All silent authorization requests with a hint, clients, policies, libraries, backend answers and runs.", "why_tests_cant": "All hints; the missing checks show only for tokens of others under the same key.", "anchors": ["authorization_endpoint.go:HandleRequest"]}
{"id": "C125", "title": "An assertion serves once, also within one request", "statement": "Against a store that records an assertion (client and jti) at most once, no token request is granted that authenticates its client by an assertion and presents an assertion with the same jti (or both without any) as its grant; in particular, no assertion serves as both.", "quantifier": "All token requests with two assertions, all interleavings with other requests, every configuration and library.", "why_tests_cant": "All pairs of assertions and histories; either use alone is fine.", "anchors": ["token_endpoint.go:validateClientByAssertion", "grant/jwt.go", "assertion/assertion.go"]}
{"id": "C126", "title": "Only the holder of a client's key can use up its assertions", "statement": "RecordAssertionClaims is called for a client only by a token request of that client which has authenticated as it and carries an assertion with exactly these claims, signed with a key of the client and in its time. A request none of whose assertions is signed with a key of a client the application knows records nothing; so nobody else can use up the identifiers of a client's assertions.", "quantifier": "All deployments and interleavings of requests, configurations, libraries and backend answers.", "why_tests_cant": "It ranges over all histories; a record made one check too early shows only to the client whose assertion is then refused.", "anchors": ["assertion/assertion.go", "token_endpoint.go:validateClientByAssertion", "grant/jwt.go"]}
{"id": "C127", "title": "Only assertions for this server are recorded", "statement": "RecordAssertionClaims is only called for an assertion that is accepted: one made with a key of the client, in its time, and addressed to this issuer; an assertion addressed to another server does not use up an identifier here.", "quantifier": "All token requests with assertions, configurations, libraries and runs.", "why_tests_cant": "It is about the order of checks and effects on refused requests.", "anchors": ["assertion/assertion.go", "token_endpoint.go:validateClientByAssertion", "grant/jwt.go"]}
{"id": "C128", "title": "Revoking an authorization closes every door", "statement": "Once the application no longer shows an authorization as active (FindActiveAuthInfoById), no request that starts later uses it: a token request presenting a code or a refresh token of it is refused, no code of it is spent and no token of it refreshed, and no protected request with an access token of it is admitted, with or without required scopes.", "quantifier": "All deployments and interleavings, with any requests still running when the authorization is revoked; all configurations, libraries and backend answers.", "why_tests_cant": "It holds over every history after the revocation, at both endpoints and for all three credentials.", "anchors": ["grant/authorization_code.go", "grant/refresh_token.go", "resource_protector.go:Validate"]}
{"id": "C129", "title": "What has expired stays expired", "statement": "If the clock never goes back, then once it shows that an access token has expired no protected request that starts later and is shown that token with the same times is admitted, and once it shows that a refresh token has expired no later token request presenting it is granted; this holds for all 64-bit times, however the sums wrap, and whoever read the clock.", "quantifier": "All deployments and interleavings with a forward clock, all token times, configurations, libraries and backend answers.", "why_tests_cant": "It relates readings of the clock by different requests over any history.", "anchors": ["grant/refresh_token.go", "resource_protector.go:Validate"]}
{"id": "C130", "title": "Nothing more is done for a client that was removed", "statement": "Once the application no longer shows a client (FindClientById), no request that starts later records an authorization, creates or spends a code, or creates or refreshes a token for it, and no later token request is granted to it.", "quantifier": "All deployments and interleavings, with any requests still running when the client is removed; all configurations, libraries and backend answers.", "why_tests_cant": "It holds over every history after the removal, at every endpoint.", "anchors": ["token_endpoint.go:Handler", "authorization_endpoint.go:HandleRequest", "authorization_endpoint.go:CompleteRequest"]}
