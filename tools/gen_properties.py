#!/usr/bin/env python3
# Regenerates /verif/properties.jsonl (one JSON object per line).
import json
P = []
def p(title, statement, quantifier, why, anchors):
    P.append(dict(id="C%02d" % (len(P)+1), title=title, statement=statement,
                  quantifier=quantifier, why_tests_cant=why, anchors=anchors))
ENV = "every request, endpoint configuration and sequence of answers of the application's DataInterface/Client implementation"

p("Non-POST requests to the token endpoint are inert",
  "A request to the token endpoint whose method is not POST is answered with status 405 and nothing else happens: no DataInterface method is called and no other response is written.",
  ENV, "Tests send one or two methods against one store; the claim is about every method string, body and backend.",
  ["token_endpoint.go:TokenEndpoint.Handler"])
p("A token response is only sent to an authenticated client",
  "Whenever the token endpoint answers 200, then earlier in the same request either (a) FindClientById was asked for the client id of the presented credentials, returned a client without error and that client's MatchSecret accepted the presented secret, or (b) client assertions are enabled, a client assertion of the jwt-bearer type was presented, FindClientById was asked for its 'sub' claim, and the assertion's signature verified under that client's assertion key.",
  ENV, "An authentication bypass only needs one combination of parameters, headers and backend answers no test enumerates.",
  ["token_endpoint.go:TokenEndpoint.Handler", "token_endpoint.go:validateClientBySecret", "token_endpoint.go:validateClientByAssertion", "assertion/error.go:HandleAssertionError"])
p("A client never obtains a token through a grant type it is not allowed to use",
  "Whenever the token endpoint answers 200 to grant_type=gt for client c, c.CanUseGrantType(gt) is true, however the client authenticated.",
  ENV, "Tests cover the secret path only; the claim ranges over both authentication paths and every client.",
  ["token_endpoint.go:validateClientBySecret", "token_endpoint.go:validateClientByAssertion"])
p("The credential acceptance policy is respected",
  "With FromHeader only the Authorization header can supply client id and secret; with FromHeaderAndPostBody never the URL query; a Basic Authorization header always takes precedence; body/query credentials need both a non-empty id and a non-empty secret.",
  "every request and every acceptance setting", "The policy is about the absence of other sources, which needs all requests.",
  ["token_endpoint.go:findClientCredential", "token_endpoint.go:AcceptClientSecret"])
p("Only registered grant types are ever executed",
  "If grant_type is missing or has no handler registered through Support, the endpoint answers 400 (invalid_request resp. unsupported_grant_type) without calling the DataInterface; if several handlers were registered for a type the last one is the one executed.",
  "every registration history and every request", "Quantifies over all registration histories and grant_type strings.",
  ["token_endpoint.go:Support", "token_endpoint.go:Handler"])
p("Token endpoint responses are never cacheable and carry the right status",
  "Every response of the token endpoint other than 405 carries Cache-Control: no-store, Pragma: no-cache and a JSON content type; its status is 200, 400, 401, 403 or 500 when produced by the built-in grants, and 401 responses always carry a WWW-Authenticate: Basic challenge.",
  ENV, "A single forgotten exit path leaks tokens into caches; there are about a hundred exit paths times backend answers.",
  ["token_endpoint.go:setCommonResponseHeader", "token_endpoint.go:fail", "token_endpoint.go:failWithAuthHeader", "token_endpoint.go:success"])
p("Exactly one response per token request",
  "Every terminating, non-panicking run of the token endpoint with the built-in grant handlers writes exactly one HTTP response, and it is the last thing it does besides logging.",
  ENV, "Needs every path for every backend behaviour.",
  ["token_endpoint.go:Handler", "token_endpoint.go:executeGrantHandler"])
p("The token endpoint never panics",
  "No request and no backend behaviour makes the token endpoint with the built-in grants panic.",
  ENV, "A panic is triggered by one malformed input that no test sends.",
  ["token_endpoint.go:validateClientByAssertion", "assertion/error.go:HandleAssertionError", "grant/*.go"])
p("An authorization code is only honoured for the client and redirect URI it was issued to",
  "If the authorization_code grant succeeds, FindAuthSessionByCode returned a session for exactly the presented non-empty code, the session's redirect URI equals the presented redirect_uri byte for byte, FindActiveAuthInfoById returned an authorization for the session's auth id, and that authorization's client id equals the authenticated client's id.",
  ENV, "Binding must hold for all sessions, clients and strings, not for the two in the test store.",
  ["grant/authorization_code.go:AuthorizationCode"])
p("PKCE cannot be skipped",
  "If the session carries a non-empty code verifier and the authorization_code grant succeeds, then the request carried a non-empty code_challenge and code_challenge_method, the method is 'plain' or 'S256', and the challenge equals the verifier (plain) or the unpadded base64url SHA-256 of the verifier (S256).",
  ENV, "A downgrade is one unexplored parameter combination.",
  ["grant/authorization_code.go:AuthorizationCode", "pkce/verifier.go:FindVerifierByMethod", "pkce/verifier.go:Verify"])
p("An expired authorization code is rejected",
  "If the session's creation time plus its lifetime lies before the time of the token request, the authorization_code grant does not succeed.",
  ENV, "Ranges over all clocks and lifetimes.",
  ["grant/authorization_code.go:AuthorizationCode", "bridge/interface.go:AuthSession.GetExpiresIn"])
p("An authorization code yields at most one token response",
  "Provided the backend's DisableSession reports success at most once per code (and a session looked up by code carries that code), then among any number of concurrently executing token requests, in every interleaving of their DataInterface calls and with any of them crashing at any point, at most one request presenting a given code is answered 200. A store that spends the session atomically meets the proviso; the proviso is needed, since on the repository's reference store, whose DisableSession succeeds every time, two racing requests can both be answered 200 for one code.",
  "every number of concurrent requests, interleaving and crash point",
  "Races need specific schedules; unit tests run one request at a time.",
  ["grant/authorization_code.go:AuthorizationCode", "bridge/interface.go:DisableSession"])
p("The code is burned before the token leaves the server",
  "At every point of every run of an authorization_code request: if a 200 response has been written then DisableSession was called before on the session found for the code and reported success; hence a crash before that point never releases a token for a code that is still live.",
  "every crash point of every run", "Crash points are not reachable from unit tests.",
  ["grant/authorization_code.go:AuthorizationCode"])
p("ID token issued iff openid was granted, with exactly the session's claims",
  "A successful authorization_code response contains an id_token exactly when the authorization's granted scope contains the token 'openid' (and only then is the signing key used); the signed claims are iss=Issuer(), aud=client id, sub=subject, exp=now+IdTokenExpiresIn, iat=now, the session's nonce when non-empty, auth_time when non-negative, and no at_hash/c_hash.",
  ENV, "For all scopes, subjects, nonces and times.",
  ["grant/authorization_code.go:AuthorizationCode", "id_token/id_token.go:Gen", "id_token/id_token.go:rawGen"])
p("A refused token request leaves no token behind",
  "If the token endpoint does not answer 200, no access token has been created by the request.",
  ENV, "Needs every failure point after every side effect.",
  ["grant/*.go", "grant/authorization_code.go:AuthorizationCode"])
p("Refresh is only honoured for a live, matching, offline authorization",
  "If the refresh_token grant succeeds then the presented non-empty refresh token was found, created+lifetime is not before the request time, the authorization is active, belongs to the authenticated client, its scope contains 'offline_access', and the returned access token is the one RefreshAccessToken produced for that authorization and that old token.",
  ENV, "For all tokens, clocks, clients and scopes.",
  ["grant/refresh_token.go:RefreshToken"])
p("Expiry checks are exact to the second and fail closed on 64-bit overflow",
  "For refresh and access tokens: with non-negative stored times, acceptance implies now <= start+lifetime as mathematical integers (even when the int64 sum overflows), and when the sum does not overflow and now <= start+lifetime the expiry check passes.",
  "all int64 values of start, lifetime and clock", "Boundary and overflow cases over 2^192 combinations.",
  ["grant/refresh_token.go:RefreshToken", "resource_protector.go:Validate"])
p("Password grant only for verified credentials",
  "If the password grant succeeds, username and password were non-empty, FindUserId accepted exactly that pair, and the token was created for the authorization CreateOrUpdateAuthInfo returned for that user id, the authenticated client and the requested scope.",
  ENV, "For all credentials and backend answers.", ["grant/password.go:Password"])
p("Client-credentials grant only for clients with an owner",
  "If the client_credentials grant succeeds, the client's owner user id is non-negative and the token was created for the authorization of that owner, that client and the requested scope.",
  ENV, "For all clients and backend answers.", ["grant/client_credential.go:ClientCredentials"])
p("JWT-bearer grant only for a verified assertion addressed to this issuer",
  "If the JWT grant succeeds, the presented non-empty assertion's signature verified under the authenticated client's key for the assertion's alg/kid, it carries an exp claim, it was recorded through RecordAssertionClaims with the client's id, its aud is the non-empty Issuer(), and the user is the one FindUserIdBySubject returned for its sub.",
  ENV, "For all assertions and backend answers.", ["grant/jwt.go:JWT", "assertion/error.go:HandleAssertionError"])
p("An assertion cannot be replayed",
  "If the backend's RecordAssertionClaims accepts a given (client, jti) at most once, then over every history and interleaving of token requests at most one request per (client, jti) whose authentication or grant rests on such an assertion is answered 200.",
  "every history and interleaving of requests", "Histories and schedules.", ["assertion/error.go:HandleAssertionError", "grant/jwt.go:JWT", "token_endpoint.go:validateClientByAssertion"])
p("Direct grants never store a scope the client may not use",
  "In password, client_credentials and JWT grants, whenever CreateOrUpdateAuthInfo is called its scope is the request's scope parameter, and it is empty or allowed by the client's CanUseScope for direct grants.",
  ENV, "For all scopes/clients and all paths.", ["grant/password.go", "grant/client_credential.go", "grant/jwt.go"])
p("Backend failures are never turned into success and map to fixed errors",
  "In every grant, if a data operation reports an error or returns (nil, nil), the request is not answered 200; the answer is 400 for ErrFailed and 500 server_error for every other error kind and for (nil, nil), and no further data operation is called.",
  ENV, "All error kinds at all call sites, including error kinds outside the declared constants.",
  ["grant/*.go", "bridge/errors.go"])
p("Requests that fail client authentication change nothing",
  "If client authentication fails, the only DataInterface methods called are FindClientById, Issuer and (for assertions whose signature verified) RecordAssertionClaims; no token, session or authorization is created, refreshed or disabled.",
  ENV, "All failure paths and backends.", ["token_endpoint.go:Handler"])
p("The resource protector only admits live tokens",
  "If Validate returns true, the request carried a non-empty bearer token, FindOAuthTokenByAccessToken returned a token for it, the token was not expired at the protector's clock, and FindActiveAuthInfoById returned without error for the token's auth id.",
  ENV, "All tokens, clocks, backends.", ["resource_protector.go:Validate"])
p("The identity headers seen by the application are authentic",
  "If Validate returns true the request's X-OAUTH-USER-ID, X-OAUTH-CLIENT-ID and X-OAUTH-SCOPE headers have exactly one value each, taken from the authorization of the presented token, whatever values (in any capitalisation) the caller sent; all other headers are unchanged.",
  "every request header list and every backend", "Header spoofing must be impossible for all header lists.", ["resource_protector.go:Validate"])
p("The resource protector fails closed with one response",
  "Validate never panics; when it returns false exactly one response with status 400, 401 or 500 has been written and the request headers are untouched; when it returns true nothing has been written.",
  ENV, "All paths and backends.", ["resource_protector.go:Validate", "resource_protector.go:unauthorize"])
p("Scope enforcement of ValidateWithScopes",
  "ValidateWithScopes returns true iff Validate does and, when the request path is a key of the scope map, every listed scope is one of the space separated scopes of the token's authorization; otherwise the answer is 403 insufficient_scope naming the first missing scope.",
  "every path/scope map, request and backend", "All maps, paths and scope strings.", ["resource_protector.go:ValidateWithScopes", "scope/util.go:IncludeAll"])
p("The access token acceptance policy is respected",
  "With FromHeader only the Authorization header can supply the token; with FromHeaderAndPostBody a token in the body is accepted, with FromAll also one in the URL query.",
  "every request and setting", "All requests and settings.", ["resource_protector.go:findTokenFromRequest"])
p("The authorization endpoint is not an open redirector",
  "Whatever HandleRequest sends to the browser (redirect or auto-submitting form), success or error, goes to the redirect_uri of the request, and only after FindClientById returned a client for the request's client_id whose CanUseRedirectURI accepted that URI.",
  ENV + " and AuthorizationCallbacks", "All paths, URIs and backends.", ["authorization_endpoint.go:HandleRequest", "authorization/response.go"])
p("state is echoed unchanged",
  "Every redirect or form produced by the authorization endpoint carries the request's state parameter when it is non-empty and none when it is empty, and parsing the query string/fragment appended to the redirect URI yields exactly the response parameters, byte for byte.",
  "every state and parameter value (arbitrary bytes) and every redirect URI", "All byte strings; encoding bugs are input specific.",
  ["authorization/response.go:Success", "authorization/response.go:Error", "authorization_endpoint.go"])
p("Tokens are never delivered through a weaker response mode than the default",
  "With RequireResponseModeSecurityLevelCheck set, every success response of HandleRequest is delivered with a response mode at least as strong as the policy default of the flow; with the default policy no implicit or hybrid success response is delivered in the URL query.",
  "every request, policy and backend", "All mode strings and policies.", ["authorization_endpoint.go:HandleRequest", "response_mode/util.go:CompareSecurityLevel"])
p("prompt=none never interacts with the user",
  "If the validated prompt of the request contains none, HandleRequest never calls ShowLoginScreen or ShowConsentScreen.",
  "every request, client policy and backend", "All prompt strings.", ["authorization_endpoint.go:HandleRequest", "prompt/util.go:Validate"])
p("prompt=none completes only for a logged-in, matching, already consented user",
  "If HandleRequest with prompt=none sends a success response, then under the client's policy: login session confirmed (login-session and login-hint policies), hint matched the login user (hint policies), the authorization found for the login user and this client is active, its scope equals the request scope up to order, and its consent is younger than ConsentOmissionPeriod; with the Forbidden policy it never completes.",
  "every request, client policy and backend", "All hints/backends.", ["authorization_endpoint.go:HandleRequest"])
p("max_age is enforced",
  "If the request carries a valid max_age (>0) and HandleRequest completes or shows the consent screen, the time elapsed since GetAuthTime is at most max_age.",
  "every request, clock and backend", "All clocks and prompts.", ["authorization_endpoint.go:HandleRequest"])
p("prompt=login forces re-authentication",
  "If prompt contains login, HandleRequest neither completes nor shows consent unless RequestIsFromLogin returned true during the request; otherwise the login screen is shown.",
  "every request and backend", "All prompt strings.", ["authorization_endpoint.go:HandleRequest"])
p("Consent is skipped only when it may be",
  "HandleRequest completes without the consent screen only if the prompt does not contain consent, an authorization of the login user for this client is active, has the same scope tokens as the request, AuthorizedAt+ConsentOmissionPeriod is later than now, and either prompt=none or the client's policy is OmitConsentIfCan.",
  "every request, policy and backend", "All backends/scopes.", ["authorization_endpoint.go:HandleRequest", "scope/util.go:Same"])
p("offline_access is only granted with explicit consent and never to the implicit flow",
  "The scope handed to the login/consent screens, to sessions and to completion contains offline_access only if the flow is not implicit and the prompt contains consent; apart from removing offline_access the scope is the request's scope, token for token.",
  "every request and policy", "All scope strings.", ["authorization_endpoint.go:HandleRequest", "scope/util.go:Remove"])
p("ID-token flows require openid and nonce",
  "If HandleRequest proceeds past validation for a response_type containing id_token, the effective scope contains openid and the nonce is non-empty; nonce and code_verifier never exceed the policy's byte limits.",
  "every request and policy", "All strings.", ["authorization_endpoint.go:HandleRequest"])
p("The authorization session is stored before the code is disclosed and matches the request",
  "Whenever a code is sent to the browser, CreateAuthSession succeeded before with exactly that code, the request's redirect URI, code verifier and nonce, the policy's session lifetime and the current auth time.",
  ENV + " and AuthorizationCallbacks; every crash point", "Crash points and all paths.", ["authorization_endpoint.go:completeAuthorizationCodeFlowRequest", "authorization_endpoint.go:completeHybridFlowRequest", "authorization/request.go:ToSession"])
p("Front-channel responses contain exactly what response_type asked for",
  "A success response contains code iff the flow is code/hybrid, access_token iff RequireAccessToken, id_token iff RequireIdToken; the access token is one created by CreateOAuthToken(info, false) in this request; the id_token is signed over at_hash iff a non-empty access token is delivered and c_hash iff a code is delivered, computed with the hash of the client's alg.",
  ENV + " and AuthorizationCallbacks", "All flows and backends.", ["authorization_endpoint.go:completeImplicitFlowRequest", "authorization_endpoint.go:completeHybridFlowRequest", "id_token/id_token.go"])
p("Front-channel access tokens come with their lifetime",
  "Every success response of the authorization endpoint containing access_token also contains token_type=bearer and expires_in equal to the decimal lifetime of the token.",
  ENV + " and AuthorizationCallbacks", "All flows.", ["authorization_endpoint.go:completeImplicitFlowRequest", "authorization_endpoint.go:completeHybridFlowRequest"])
p("Complete and Cancel answer the continued request and nothing else",
  "CancelRequest sends exactly one access_denied error to the redirect URI of the continued request and touches no data; CompleteRequest sends exactly one response, to that same URI, and records the authorization for exactly the login user and the continued request's client and scope before any code or token is created.",
  ENV + " and AuthorizationCallbacks", "All continued requests.", ["authorization_endpoint.go:CompleteRequest", "authorization_endpoint.go:CancelRequest"])
p("One outcome per authorization request",
  "Every non-panicking run of HandleRequest ends with exactly one of: one error screen, one login screen, one consent screen, one redirect/form (a failing login or consent screen callback is followed by a server_error redirect); it returns true iff the consent screen was shown successfully or a success response was sent.",
  ENV + " and AuthorizationCallbacks", "All paths.", ["authorization_endpoint.go:HandleRequest"])
p("form_post pages cannot be injected into",
  "In the form_post page no parameter value nor the target URI can introduce markup: the page is the fixed template with the HTML-escaped values, and unescaping each value attribute gives back the parameter value.",
  "all parameter values and URIs (arbitrary bytes)", "XSS needs one special byte sequence.", ["authorization/response.go:render"])
p("Scope strings behave like lists of space separated tokens",
  "Include is membership in the split; IncludeAll is conjunction of memberships and reports the first missing one; Remove deletes exactly the equal tokens and keeps the others in order; Same is an equivalence relation that holds exactly for permutations of the same tokens.",
  "all strings", "All byte strings.", ["scope/util.go"])
p("response_type is judged independently of order and nothing else is accepted",
  "JudgeByResponseType gives the same flow for every ordering of the same tokens, accepts exactly the seven OpenID Connect response types up to order, never DirectGrant, and never 'none', duplicates or extra spaces.",
  "all strings", "All byte strings.", ["flow/flow.go:JudgeByResponseType"])
p("prompt validation",
  "prompt.Validate accepts exactly the strings whose space separated tokens are all none/login/consent/select_account, without mixing none with another token.",
  "all strings", "All byte strings.", ["prompt/util.go:Validate"])
p("Response modes are totally ordered by strength",
  "CompareSecurityLevel is a total preorder; among the valid modes query < fragment < form_post; an unknown mode is weaker than every valid one.",
  "all strings", "All byte strings.", ["response_mode/util.go"])
p("FlowType JSON round-trips",
  "UnmarshalJSON(MarshalJSON(f)) = f for every flow type, and UnmarshalJSON accepts nothing else.",
  "all flow types and byte strings", "All byte strings.", ["flow/flow.go:MarshalJSON", "flow/flow.go:UnmarshalJSON"])
p("The authorization request survives the login round-trip",
  "DecodeRequest(r.Encode()) = r for every request whose strings are valid UTF-8.",
  "all requests", "All strings (escaping), all int64 values.", ["authorization/request.go:Encode", "authorization/request.go:DecodeRequest"])
p("Unpadded base64url is injective and URL safe",
  "EncodeBase64WithoutPadding produces only A-Z a-z 0-9 - _, has length ceil(4n/3), and restoring the padding and decoding gives back the bytes; so distinct inputs encode differently; a generated code verifier always has 43 such characters.",
  "all byte sequences", "All byte sequences.", ["pkce/crypto.go"])
p("PKCE verifiers decide exactly their relation",
  "FindVerifierByMethod succeeds exactly for 'plain' and 'S256'; plain accepts iff challenge = verifier; S256 accepts iff challenge is the unpadded base64url of SHA-256 of the verifier.",
  "all strings", "All byte strings.", ["pkce/verifier.go"])
p("Basic credentials built by basic_auth are what the server reads",
  "For every user id and password, the Authorization header built by basic_auth.Header is read back by FindClientCredential and by the token endpoint as the same pair.",
  "all strings", "Escaping bugs are input specific.", ["basic_auth/util.go", "token_endpoint.go:findClientCredential"])
p("OAuth errors are rendered faithfully",
  "The JSON body, WWW-Authenticate header and query rendering of an OAuthError contain exactly its code, and its description and URI when non-empty; distinct error types have distinct codes; the quoted header never contains raw CR, LF or an unescaped quote from a value; ErrServerError is 500, ErrInvalidToken 401, ErrInsufficientScope/AccessDenied 403.",
  "all error types, descriptions, URIs and realms", "Header/JSON injection is input specific.", ["oauth_error/errors.go"])
p("X-OAUTH-USER-ID parses back to the user id",
  "strconv parsing of the X-OAUTH-USER-ID header set by a successful Validate yields exactly the authorization's user id, for every int64.",
  "all int64 user ids", "2^64 values.", ["resource_protector.go:Validate"])
p("The JWK endpoint serves exactly the registered keys",
  "The document served by the JWK endpoint lists, for each key id, exactly the last key registered for it before Handler was called, whatever the map iteration order, and LoadPublicKeyFromJWK recovers the key from it.",
  "all registration histories, keys and iteration orders", "Histories and iteration orders.", ["jwk_endpoint.go", "crypto/key.go:PublicKeysJWK", "crypto/key.go:LoadPublicKeyFromJWK"])
p("Secrets never reach the logger",
  "Neither the client secret presented at the token endpoint nor the resource owner's password influences anything passed to the logger other than through the backend's accept/reject answers.",
  ENV, "A hyperproperty over pairs of runs.", ["token_endpoint.go:validateClientBySecret", "grant/password.go:Password", "log/text.go"])
p("Log labels identify their event and level",
  "Distinct log events have distinct names and distinct levels have distinct labels; a message is printed exactly when its level is at least the configured one.",
  "all events, levels and thresholds", "Table property, stated for all values.", ["log/text.go:LogEvent.String", "log/logger.go:LogLevel.String"])
p("Token lifecycle on the reference store",
  "On the repository's reference store started without sessions, if no code is handed out twice: a token request that starts after a request presenting the same authorization code was answered 200 is never answered 200, in every interleaving of requests and crashes. After every history, the access token of a 200 answer is accepted by the protector while unexpired, with the user and client of the authorization it was issued for, after any further history of calls that does not refresh that token (while the store's authorization counter is below 2^63); and with the scope of the answer, unless that user and client were authorized again in the meantime.",
  "every history of requests against the reference store", "Unbounded histories.", ["test_helper/store.go", "grant/*.go", "resource_protector.go"])
p("The token response body is faithful JSON",
  "The 200 body parses as a JSON object with token_type Bearer, the access token, the lifetime, and refresh_token/id_token exactly when non-empty, for all valid UTF-8 values.",
  "all token strings and lifetimes", "Escaping is input specific.", ["grant/interface.go:Response.JSON", "grant/interface.go:NewResponse"])
p("An ID token minted for a client is accepted back as id_token_hint",
  "If the provider can sign ID tokens for a client with its configured key, then an unexpired ID token it signed is accepted as id_token_hint for prompt=none by the same client.",
  "all algorithms, keys and claims", "All key kinds.", ["authorization_endpoint.go:HandleRequest", "id_token/id_token.go:rawGen"])
p("An accepted assertion is not expired",
  "Whenever an assertion (client assertion or JWT grant) is accepted, its exp claim is not in the past.",
  "all claims and clocks", "All numeric encodings.", ["assertion/error.go:HandleAssertionError"])
p("max_age is parsed exactly and bounded",
  "The max_age carried by a request past validation is 0 when absent, otherwise the exact decimal value of the parameter, within [MinMaxAge, MaxMaxAge]; anything not an optionally signed decimal fitting an int is refused with invalid_request.",
  "all strings and policies", "All strings.", ["authorization_endpoint.go:HandleRequest"])
p("at_hash and c_hash are what OpenID Connect prescribes",
  "The at_hash and c_hash claims are the left half of the digest named by the signing algorithm, in unpadded base64url, for every token, code and algorithm.",
  "all tokens, codes and algorithms", "The encoding differs only for some digests (or only in padding).", ["id_token/id_token.go:Hash"])
p("The Basic challenge names the configured realm",
  "Every 401 answer of the token endpoint carries exactly one WWW-Authenticate header, a well-formed Basic challenge whose realm is the configured one.",
  "all realms, requests and backend answers", "Quoting is input specific.", ["token_endpoint.go:failWithAuthHeader"])
p("Refusals of the token endpoint are standard JSON errors",
  "Every non-200 answer to a POST is a JSON object whose error is one of the standard token-endpoint codes or server_error; the status is 500 exactly for server_error, 401 only for invalid_client without description, and 400 otherwise; error_uri is present exactly when the configured builder gives one for this error.",
  ENV, "Every failure path.", ["token_endpoint.go:fail", "token_endpoint.go:failWithAuthHeader", "oauth_error/errors.go:JSON"])
p("Valid token requests are granted",
  "A POST whose grant type is registered, whose client authenticates and may use the grant, and which presents what that grant requires (a live code bound to this client and redirect URI with a matching PKCE verifier; an unexpired refresh token of this client with offline_access; credentials the application knows and an allowed scope; an owner; a valid assertion), with a backend that answers every call successfully, is answered 200 with the token the backend issued.",
  ENV, "Completeness over all requests and backends: a spurious refusal is input specific.", ["token_endpoint.go:Handler", "grant/*.go"])
p("The resource protector says why it refuses",
  "A refused request is answered exactly once, without body: 400 with a Bearer challenge invalid_request when it presents no token where the policy allows; 401 invalid_token when the application does not know the token, when it has expired (with a description saying so), or when its authorization is no longer active; a bare 500 without challenge when the application fails. These reasons exclude each other and each of them does refuse.",
  ENV, "Every failure path and backend answer.", ["resource_protector.go:Validate", "resource_protector.go:unauthorize"])
p("Every authorization request is answered by one decision table",
  "What HandleRequest does is determined by the request, the policies and the application's answers: every run follows a row of a fixed decision table (which error screen, which error code with which description in which response mode, which screen, which artefacts), the table is unambiguous (a run that gets the answers of a row makes exactly its calls and ends as it says), and every row occurs. In particular a missing client_id, a missing redirect_uri, an unknown client and a redirect URI the client may not use lead to their error screens and nothing else.",
  ENV, "All combinations of parameters, policies and callback answers.", ["authorization_endpoint.go:HandleRequest"])
p("Invalid authorization parameters are reported by the first fault",
  "Once the client is identified, a response type that names no flow is answered with invalid_request, a request with faults is answered with the error code and the description of the first fault in a fixed order, in the response mode the flow uses, and nothing else happens; a request without faults goes on and its request object has exactly its parameters.",
  ENV, "All combinations of wrong parameters.", ["authorization_endpoint.go:HandleRequest"])
p("prompt=none is refused with the code that names the reason",
  "A valid prompt=none request is answered with interaction_required when the client's policy forbids it, login_required when there is no login session, consent_required when no earlier consent covers it, and invalid_request when a required hint is missing, unreadable or names another user.",
  ENV, "All policies, hints and callback answers.", ["authorization_endpoint.go:HandleRequest"])
p("Valid interactive requests reach the right screen",
  "A valid request with another prompt shows the login screen for exactly this request when there is no session, and for a logged-in user fresh enough for prompt and max_age it shows the consent screen for exactly this client and request, or is answered at once when an earlier consent covers it and the policy allows leaving the screen out.",
  ENV, "Completeness over all requests and callback answers.", ["authorization_endpoint.go:HandleRequest"])
p("CompleteRequest follows its decision table",
  "Every run of CompleteRequest asks for the request to complete, records the authorization, and issues what the flow of the request names; each row of the table is unambiguous and occurs; the only error it sends is server_error, to the redirect URI of the request with its state in its response mode.",
  ENV, "All flows and callback answers.", ["authorization_endpoint.go:CompleteRequest", "authorization_endpoint.go:complete"])
p("No JWT is accepted outside its time",
  "A token request answered 200 on the strength of a JWT (as grant or as client assertion) was examined at a time of the library's clock which is neither after a non-zero exp nor before a non-zero iat or nbf of that JWT, and none of the three is a claim that is not a number.",
  ENV, "All claim sets and clocks.", ["assertion/assertion.go:HandleAssertionError", "grant/jwt.go:Jwt", "token_endpoint.go:validateClientByAssertion"])
p("Every token request is answered by one decision table",
  "What the token endpoint does is determined by the request, the client and the application's answers: every run follows a row of a fixed decision table (which error code with which description, a Basic challenge, a token response, with exactly which calls before it), the table is unambiguous (a run that gets the answers of a row makes exactly its calls and ends as it says), and every row occurs.",
  ENV, "All combinations of parameters, clients and backend answers.", ["token_endpoint.go:Handler", "grant/*.go", "assertion/error.go:HandleAssertionError"])
p("Requests are refused before a grant with the code that names the reason",
  "A non-POST request is answered 405; a POST without grant_type gets invalid_request and one with an unregistered grant type unsupported_grant_type, naming it; without credentials a Basic challenge is sent; an unknown client and a wrong secret are refused alike (a challenge if the secret was in the Authorization header, else 400 invalid_client); a grant type the client may not use gets unauthorized_client; a failing application gets server_error. Nothing but the client lookup is asked of the application.",
  ENV, "Every combination of method, parameters, credentials and backend answer.", ["token_endpoint.go:Handler", "token_endpoint.go:validateClientBySecret"])
p("Grants are refused with the code that names the reason",
  "A missing parameter gets invalid_request naming it; a code of another client, another redirect URI or a PKCE challenge that does not fit get invalid_grant, unusable PKCE parameters invalid_request; an expired refresh token, one of another client, without active authorization or without offline_access invalid_grant; a scope the client may not ask for invalid_scope; a wrong password and a client without owner invalid_grant. No token is created, refreshed or replaced and the code stays unspent in all these cases: the calls made are exactly the ones leading to the refusal.",
  ENV, "Every combination of request and backend answers.", ["grant/authorization_code.go", "grant/refresh_token.go", "grant/password.go", "grant/client_credentials.go"])
p("Assertions are refused with the code that names the reason",
  "An assertion (client assertion or JWT bearer grant) with an unusable algorithm or no key is unverifiable (invalid_grant); otherwise the first fault in a fixed order is reported: bad signature (invalid_client), expired, not yet valid, issued in the future (invalid_grant), no exp (invalid_request). An assertion without fault is recorded with the application, a refused record gets invalid_request, a missing aud invalid_request and another audience invalid_grant.",
  ENV, "Every claim set, key and backend answer.", ["assertion/error.go:HandleAssertionError", "grant/jwt.go", "token_endpoint.go:validateClientByAssertion"])
p("HTTP inputs are read exactly",
  "Headers are matched without regard to ASCII case and the first one counts; parameters are matched by exact name, the first one counts, the body (only of POST, PUT and PATCH) before the query. Client credentials are taken from the Authorization header exactly when it is `Basic ` (any case) followed by a complete padded base64 text of user:password without a colon in the user, otherwise from the parameters the policy allows; a bearer token exactly from `Bearer ` (any case) and what follows up to the next space.",
  "Every request: all header lists, parameter lists, spellings and base64 texts.", "All byte strings.", ["token_endpoint.go:findClientCredential", "token_endpoint.go:findClientAssertion", "basic_auth/util.go:FindClientCredential", "resource_protector.go:findTokenFromRequest"])
p("A redeemed code comes from a consent given to that client by that user",
  "In a deployment serving any number of authorization, token and protected requests at once, over a store that keeps its records, a 200 answer to a code exchange goes to an authenticated client, and the code it presented was created earlier by an authorization response for that same client, for the presented redirect URI, while the user whom the issued token names was logged in and had consented (then or before); a code_verifier given there fits the PKCE challenge given here. If the application continues only requests whose consent screen it showed, an authorization request of that client with that redirect URI, verifier and nonce had passed every check before.",
  "Every set of requests, every interleaving of their calls to the application, every point where one stops, every store that keeps its records (among them every run of the reference store).", "A mix-up of codes between users or clients needs one schedule of many requests; tests run one flow at a time.", ["authorization_endpoint.go:HandleRequest", "authorization_endpoint.go:CompleteRequest", "token_endpoint.go:Handler", "grant/authorization_code.go", "test_helper/store.go"])
p("The identity a protected request gets was granted to that client",
  "In such a deployment a protected request that is admitted carries the user, client and scope of one authorization, exactly that user, client and scope were recorded earlier by a request entitled to (a completed consent of that user, that user's password presented by that client, the client's own account, or an assertion about that user signed by that client), that scope was allowed to that client, and the presented token was issued earlier to a request that speaks for that user and client.",
  "Every set of requests, every interleaving, every store that keeps its records (among them every run of the reference store).", "Privilege escalation across requests is a property of whole histories.", ["resource_protector.go:Validate", "token_endpoint.go:Handler", "grant/*.go", "authorization_endpoint.go:CompleteRequest", "test_helper/store.go"])
p("A log line says what happened",
  "With colours taken out, the line logged for an endpoint event reads `[goidc:ENDPOINT:REALM:EVENT] MESSAGE ATTRS` where ATTRS is a JSON object with exactly the parameters of the event in key order; the line does not depend on the iteration order of the map; whoever reads the line recovers the event and the parameters; and the line is printed exactly when its level is at least the configured one.",
  "Every endpoint, realm, event and parameter map; every level and threshold.", "All byte strings as parameter values (attackers choose many of them), all map orders.", ["log/text.go:EndpointLog", "log/logger.go", "log/event.go"])
p("Every answer of the token endpoint is explained in the log",
  "Right before the token endpoint answers, the log gets a line of the token endpoint that explains the answer: filed under the grant in question, with an event that belongs to the answer, at least as severe as the event calls for, naming a missing parameter, and naming the client that was looked up unless none was identified. No access token is handed out without such a line.",
  ENV, "All requests, clients and backend answers, and every error path.", ["token_endpoint.go:Handler", "grant/*.go", "assertion/error.go:HandleAssertionError", "log/event.go"])
p("A failing application leaves a report that names the method",
  "When a method of the application's data interface fails during a token request (with any error, or with neither a value nor an error), the very next line of the log reports it, with the event for that kind of failure, at least at the level it calls for, and with the name of the method.",
  ENV, "All requests and all failures at every point.", ["token_endpoint.go:Handler", "grant/*.go", "assertion/*.go", "bridge/interface.go:DataInterface"])
p("Refusals of the resource protector are explained in the log",
  "Every refusal of a protected request is preceded by a line of the protector's log with the path and an event that explains it, and a failing application is reported in it with the method.",
  ENV, "All requests and backend answers.", ["resource_protector.go:Validate", "resource_protector.go:ValidateWithScopes"])
p("Error screens and failing callbacks of the authorization endpoint are reported",
  "Every error screen is preceded by a line of the log that explains it and names the parameter or method at fault; a callback that fails is reported by the next line, as an error, with its name.",
  ENV, "All requests, policies and callback answers.", ["authorization_endpoint.go:HandleRequest", "authorization_endpoint.go:CompleteRequest", "authorization_endpoint.go:CancelRequest"])
p("A delivered code can be redeemed, and the tokens used",
  "On the reference store, with any other requests running at the same time: the code in an authorization response can be exchanged by the client it was made for (its secret, the same redirect URI, a fitting challenge if a verifier was given) for a token with the consented scope, with a refresh token exactly if that scope has offline_access and an ID token for that user, nonce and login time exactly if it has openid; and a refresh token in a token response can be used by the same client for a new token of the same scope, keeping the refresh token; and an access token in a token response admits the protected requests that present it, as that user and client with that scope. Unless another request spent or replaced it first, it expired, or the user authorized another scope in between.",
  "Every set of requests and every interleaving of their calls to the reference store, every request that redeems or refreshes.", "Liveness over whole histories: some other request, at some point, could break the record that the exchange needs.", ["authorization_endpoint.go:CompleteRequest", "token_endpoint.go:Handler", "grant/authorization_code.go", "grant/refresh_token.go", "test_helper/store.go"])
p("A replaced access token is dead",
  "Over the reference store, in every interleaving of any requests: once an access token has been replaced by a refresh, every protected request that starts afterwards and presents the old token is refused with 401, and it cannot be replaced again, unless the store hands out a token of that very name again.",
  "Every set of requests, every interleaving of their calls to the reference store, every point where one stops.", "The old token must stay refused for the rest of every history.", ["resource_protector.go:Validate", "grant/refresh_token.go", "test_helper/store.go:RefreshAccessToken"])
p("A request changes only the data of the client it speaks for",
  "In a deployment serving any number of authorization, token and protected requests at once, every call that records, spends, creates or replaces something concerns data of a client the calling request speaks for: the client that authenticated at the token endpoint, or the client of the authorization request that the logged-in user completed or had consented to. Over the reference store with fresh authorization codes, the authorizations, sessions and access tokens of a client are exactly the same after any calls of requests that do not speak for it.",
  "Every set of requests, every interleaving, every point where one stops; every store that keeps its records, and every run of the reference store.", "One request in one schedule that touches another client's record would refute it.", ["token_endpoint.go:Handler", "grant/*.go", "authorization_endpoint.go:HandleRequest", "authorization_endpoint.go:CompleteRequest", "test_helper/store.go"])
p("Keys are loaded exactly from what they are written in",
  "The public-key loader succeeds exactly on data whose first PEM block is of type PUBLIC KEY and holds a PKIX public key, the private-key loader exactly on one of type RSA PRIVATE KEY holding a PKCS#1 key, and the key returned is the key in the block; everything else is an error and never a key; no data is accepted by both loaders; loading from a text equals loading from a file with that content, and an unreadable file is an error; loading from a JWK set gives the key whose id was asked for.",
  "All data, files, key ids and JWK sets.", "All byte strings; a loader that takes the wrong block type confuses public and private keys.", ["crypto/key.go:LoadPublicKeyFromData", "crypto/key.go:LoadPrivateKeyFromData", "crypto/key.go:LoadPublicKeyFromJWK"])
p("Settings are what the last configuration call said",
  "After any sequence of configuration calls on a token endpoint or a resource protector, each setting is what the last call about it said and no call changes another setting; without calls, secrets and tokens are taken from the Authorization header only, client assertions are not accepted, errors carry no error_uri and no grant type is registered. An endpoint whose secret policy was never set grants tokens only to requests with Basic credentials; an endpoint without Support for a grant type refuses it without touching the application's data; after SetErrorURI every refused POST carries that error_uri; under the default policy a request handed to a screen has max_age in 60..86400 or none, and nonce and verifier of at most 255 bytes; no request is refused for its response_mode, responses travel by form_post or fragment where asked for (or where the flow is implicit or hybrid) and in the query otherwise; codes are good for 60 seconds, ID tokens say that they expire after a day, and consent is asked for again after a day.",
  "Every sequence of configuration calls, every request and backend answer.", "Sequences of calls are unbounded; the defaults matter for every request that reaches an endpoint nobody configured.", ["token_endpoint.go:NewTokenEndpoint", "token_endpoint.go:Support", "token_endpoint.go:AcceptClientSecret", "token_endpoint.go:SetErrorURI", "resource_protector.go:NewResourceProtector", "authorization/request.go:DefaultPolicy"])
p("The reference store answers for what it was set up with, and only for that",
  "However the reference store was set up (users and clients created, grant types allowed, everything cleared, in any order and number) and whatever requests run over it concurrently: FindClientById finds exactly the last client made with that id since everything was cleared, with its own secret, redirect URI, owner and allowed grant types; FindUserId exactly the users created since, each under its own id. An access token is granted only to a request that presents exactly the registered secret, for a grant type allowed to that client, or an assertion about the client with an HMAC under that secret; every response of an authorization request goes to the registered redirect URI; no authorization request succeeds without asking the user; and the identity of an admitted protected request was justified by a completed consent, the exact password of a registered user, the registered owner of the client, or an assertion under the client's secret that names a registered user.",
  "Every history of set-up calls, every set of requests, every interleaving of their calls, every point where one stops.", "Histories and schedules are unbounded, and a stale or foreign registration would show only in some of them.", ["test_helper/client.go", "test_helper/store.go:CreateNewUser", "test_helper/store.go:CreateNewClient", "test_helper/store.go:ClearAll", "token_endpoint.go:Handler", "authorization_endpoint.go:HandleRequest", "resource_protector.go:Validate"])
p("Tokens last as long as they say",
  "On the reference store, with one clock that never goes backwards and any requests running concurrently: the access token of a token response admits every protected request that presents it until expires_in seconds after the token request started (unless it is replaced or the user authorizes another scope), and once more than that has passed since it was handed out every request that presents it is refused with 401 (unless a token of that name is handed out again). A refresh token works for 30 days from the start of the request that first obtained it, keeps working across refreshes but is not prolonged by them, and is refused with invalid_grant once no token with it was made for more than 30 days.",
  "Every set of requests, every interleaving of their calls, every monotone clock.", "The clock may advance by any amount between any two calls; a time taken from the wrong place shows only for some of them.", ["test_helper/store.go:CreateOAuthToken", "test_helper/store.go:RefreshAccessToken", "resource_protector.go:Validate", "grant/refresh_token.go", "grant/interface.go:NewResponse"])
p("An ID token is a JWS that says exactly the claims",
  "The ID token in a token response or in an authorization response is a JSON Web Signature in compact serialisation: the header says the client's algorithm, the type JWT and the key id if there is one; the payload is a JSON object that says exactly the claims of the ID token, each once, whatever bytes the nonce, the subject and the other strings consist of (no value can add, change or hide a claim); the signature is made with the client's key over exactly the text of these two parts. A JWS can be read in one way only.",
  "Every request, backend answer, client, key and claim value; every choice of the cryptographic primitives.", "All byte strings as nonce, subject and issuer: one unescaped quote forges a claim.", ["id_token/id_token.go:Generate", "grant/authorization_code.go", "authorization_endpoint.go:HandleRequest", "authorization_endpoint.go:CompleteRequest"])
p("An accepted assertion is read as its JSON says",
  "When a request is granted on the strength of a client assertion or of a JWT bearer assertion that is a JWS, the algorithm and key id are those its header says, the key is the client's key for these, the signature is verified with it over exactly the text of header and payload, sub (the client, or the user), aud (the issuer) and exp (not passed) are what its payload says, and where a member occurs several times the last one counts for all of these alike.",
  "Every token text, JSON document, client, key and backend answer; every choice of the cryptographic primitives.", "All texts of tokens, with all spacings, orders, duplicates and encodings; a signature checked over another text than the one that is read is forgery.", ["token_endpoint.go:validateClientByAssertion", "grant/jwt.go", "assertion/error.go:HandleAssertionError"])
p("A conforming assertion is accepted",
  "Whoever presents, as a client assertion or in a JWT bearer grant, a JWS whose header names an algorithm and key id for which the client has a key, whose signature verifies under it, whose payload has sub, aud equal to the issuer, an exp that has not passed and no iat or nbf in the future, in whatever order, spacing and company of other members, is authenticated or gets a token (if the application finds the client or user and records the assertion); and every token made by the JWT library from such claims with the client's key conforms.",
  "Every conforming token text, client, key, time and request; every choice of the cryptographic primitives.", "All texts of tokens.", ["token_endpoint.go:validateClientByAssertion", "grant/jwt.go", "assertion/error.go:HandleAssertionError"])
p("Unrecognised parameters and headers are ignored",
  "Each endpoint looks only at the parameters and headers it documents: two requests that differ only in other parameters (in the body or the query) and other headers make the same calls, get the same response, and are logged alike; the protected application sees the same verdict and the same identity headers. In particular nobody can influence a token or authorization decision with a parameter of another endpoint or of an extension.",
  "Every pair of requests that agree on the recognised names, every configuration with the built-in grants, every run.", "There are infinitely many other parameters and headers, in every number and position.", ["token_endpoint.go:Handler", "grant/*.go", "authorization_endpoint.go:HandleRequest", "authorization_endpoint.go:CompleteRequest", "resource_protector.go:Validate", "resource_protector.go:ValidateWithScopes"])
p("A refusal does not tell how close the guess was",
  "Whoever presents a client id and a secret that do not belong together gets the same response, byte for byte, whether the client exists or not; whoever presents an authorization code that is not usable for it gets the same response whether the code does not exist, belongs to another client or has lost its authorization; the same for refresh tokens (also when refreshing was not granted), and for access tokens at a resource. Whatever else the requests contain does not change that response.",
  "All pairs of requests, clients, codes, tokens and backend answers, and all runs.", "It compares two runs over all pairs of requests and backend states; one description added in one branch makes an oracle.", ["token_endpoint.go:validateClientBySecret", "token_endpoint.go:failByInvalidClientError", "grant/authorization_code.go", "grant/refresh_token.go", "resource_protector.go:Validate"])
p("The code verifier stays on the server",
  "The code_verifier of an authorization request is given to nobody but the login screen, the consent screen and the session store of the application: two authorization requests (or continued requests) that differ only in their verifiers, both of allowed length, make the same calls but for the verifier in them, write the same log lines and send the same response to the browser. At the token endpoint an exchange of the code tells whether the presented challenge fits the verifier and nothing else: two verifiers that both fit or both do not fit are served alike.",
  "All pairs of verifiers, all requests, all backend answers and all runs.", "It compares runs over all pairs of verifiers; a verifier that leaks into a redirect or a log line, or an answer that depends on how much of it matches, breaks PKCE without breaking any exchange.", ["authorization_endpoint.go:HandleRequest", "authorization_endpoint.go:CompleteRequest", "authorization_endpoint.go:CancelRequest", "grant/authorization_code.go", "pkce/verifier.go"])
p("One request makes a bounded number of calls and changes each thing at most once",
  "Whatever the request and whatever the application answers: serving one token request makes or refreshes at most one access token, creates or updates at most one authorization, disables at most one session, checks at most one password, records at most two assertions and makes no session or code; an authorization request (and its completion) makes at most one code, one session, one access token and shows at most one screen, touches an authorization only on completion, at most once, and never disables a session or checks a password; cancelling and protecting resources change nothing. The number of calls to the application is bounded by a constant (20, 25, 13, 4 and 7 calls), whatever the size of the request; this holds at every point where serving stops.",
  "Every request of any size, every sequence of backend answers, every point where serving stops.", "A repeated call shows only with some answers of the backend; the sizes of requests are unbounded.", ["token_endpoint.go:Handler", "grant/*.go", "authorization_endpoint.go:HandleRequest", "authorization_endpoint.go:CompleteRequest", "authorization_endpoint.go:CancelRequest", "resource_protector.go:Validate", "resource_protector.go:ValidateWithScopes"])
p("Whatever is accepted as an assertion or hint is a JWS, read in one way",
  "When a request is granted on the strength of a client assertion or a JWT bearer assertion, or answered without asking the user on the strength of an ID token hint, the token presented is three base64url parts of which the first is a JSON object and the second begins with one (as encoding/json reads them), and algorithm, key id, claims, signed text and signature are those these parts say, with the last of several members of one name counting; no text can be read as a JWS in two ways, and a JWS by the book is read as the book says.",
  "Every token text whatever, client, key, request and backend answer; every choice of the cryptographic primitives.", "All texts of tokens, also malformed ones: a second reading is a forgery.", ["token_endpoint.go:validateClientByAssertion", "grant/jwt.go", "authorization_endpoint.go:HandleRequest", "assertion/error.go:HandleAssertionError"])
p("DecodeRequest reads the request its JSON says",
  "Decoding the base64url text of a JSON object gives the request its members say: every field is what the last member of that name (but for case) with a value of the right sort says and empty otherwise, whatever the order, spacing, escapes and company of the members; members behind a flow with an unknown type are not read; the text of anything but an object gives the empty request. Two texts with the same members decode to the same request.",
  "Every text, with every spacing, order, duplication, case and encoding of its members.", "All JSON texts; the request comes back from the browser and decides what is granted to whom.", ["authorization/request.go:DecodeRequest", "flow/flow.go:UnmarshalJSON"])
p("No request splits a response",
  "No header of a response contains a control character, in its name or its value: whatever a request holds, it cannot add a header to its response or end the header section. This holds for the authorization endpoint (redirects with state, error descriptions and parameters taken from the request), for completing and cancelling, for the token endpoint and for protected resources (challenges).",
  "Every request, configuration, backend answer and run.", "All byte strings in all parameters; one unescaped value is enough.", ["authorization/response.go", "authorization_endpoint.go:HandleRequest", "token_endpoint.go:failWithAuthHeader", "resource_protector.go:unauthorize", "oauth_error/errors.go:Header"])
p("No request forges a log line",
  "Each log entry the default logger prints is one line: whatever a request holds, its entries contain, colours apart, no control character but the line feed at their end, so nobody can write log entries of his own, hide one or send escape sequences to the terminal.",
  "Every request, configuration, backend answer, log level and run.", "All byte strings in all parameters, headers and paths.", ["log/logger.go", "log/text.go", "log/color.go", "authorization_endpoint.go", "token_endpoint.go", "resource_protector.go"])
p("Issued tokens and codes never reach the log",
  "What is logged while a request is served does not depend on the tokens and codes the application issues on it: had the application made up other access tokens, refresh tokens and authorization codes (and so other ID tokens), the same calls would have been made, the same lines logged and a response with the same status sent. So no log line contains an issued token or code, a part of one, or anything computed from one. The same holds at protected resources for the stored token that is found.",
  "Every request, every choice of the issued strings, every backend answer and run.", "It compares runs over all pairs of issued strings; a token added to one debug line gives every reader of the log the user's access.", ["token_endpoint.go:executeGrantHandler", "grant/*.go", "authorization_endpoint.go:HandleRequest", "authorization_endpoint.go:CompleteRequest", "resource_protector.go:Validate", "log/text.go"])
p("A token request is read from its body",
  "What a token request asks for is read from its body (and its Authorization header): the query of its URL, which ends up in access logs and browser histories, has no influence on what happens.",
  "All pairs of token requests that differ in their URLs only, every configuration and run.", "All pairs of queries; a parameter taken from the URL shows only when it is missing in the body.", ["token_endpoint.go:Handler", "token_endpoint.go:findClientCredential", "grant/*.go"])
p("The default logger prints what is at or above the level set last",
  "After any history of calls, a message of a level is printed, as one line behind a label, exactly if the level is at or above the one SetLevelForDefaultLogger accepted last (everything if none was); a level above fatal is refused with a panic and changes nothing. A printed line tells which level and which text it came from: two equal lines come from equal messages of the same level.",
  "Every history of calls to the logger, every level value and message text.", "All histories and all integers passed as level; the level is global state.", ["log/logger.go:SetLevelForDefaultLogger", "log/logger.go:defaultLogger", "log/color.go:paint"])
p("Any spelling of the same parameters is the same request",
  "What is served is decided by what the bytes of a request say, not by how they spell it: the parameters are those of the texts between ampersands, with plus signs as blanks and percent escapes (in either case of their digits) as the bytes they stand for; texts with a semicolon or a malformed escape are left out, a bare name has the empty value. The body counts only under a form content type and up to 10 MiB. Two requests that say the same are served alike, and parameters posted by any client that encodes them by the book arrive as they were given.",
  "All byte strings as query and body, all headers, every endpoint and configuration.", "All spellings of all parameters; a second reading of the same bytes lets a proxy and the endpoint see different requests.", ["token_endpoint.go:Handler", "authorization_endpoint.go:HandleRequest", "resource_protector.go:Validate", "token_endpoint.go:findClientCredential"])
p("PKCE protects clients that use it as RFC 7636 says",
  "A client that sends code_challenge (and its method) with its authorization request and code_verifier with its token request, as RFC 7636 prescribes, is protected: a code requested with a challenge is exchanged only by a request with a verifier that fits it.",
  "All authorization requests with a challenge, all token requests, all interleavings of the flow over the reference store.", "All pairs of challenge and verifier in whole histories of a flow; a challenge that is ignored makes every positive test pass.", ["authorization_endpoint.go:HandleRequest", "grant/authorization_code.go", "pkce/verifier.go"])
p("An access token stands for the scope it was issued with",
  "A protected request that presents an access token is admitted with the scope of the token response the token came in, whatever the user authorizes later.",
  "All histories of token, authorization and protected requests over the reference store.", "It relates two requests across any history between them.", ["resource_protector.go:Validate", "test_helper/store.go:CreateOrUpdateAuthInfo", "grant/*.go"])
p("No answer is kept for somebody else",
  "No response of the library may be kept by a cache: each one forbids storing it, or has a status caches do not store on their own account and no header that says otherwise. This holds for redirects and form pages with codes and tokens, for errors sent to the client, for tokens, for refusals of the token endpoint and of protected resources. (Requests to the token endpoint with another method than POST get an empty answer.)",
  "Every request, configuration, backend answer and run.", "All paths that write a response; a response without the header on one error path is enough.", ["authorization/response.go", "token_endpoint.go", "resource_protector.go", "authorization_endpoint.go"])
p("An id_token_hint says whom the answer is about",
  "A request with an id_token_hint about some user is answered with a code or token only if the logged-in user is that user, as the application confirms (OpenID Connect Core, 3.1.2.1).",
  "All authorization requests with a hint, clients, policies, backend answers and runs.", "All requests and runs; an unread hint is invisible while the right user is logged in.", ["authorization_endpoint.go:HandleRequest", "authorization_endpoint.go:CompleteRequest"])
p("max_age holds when the answer is given",
  "When a request with max_age is completed after the user's consent, the login is still at most max_age seconds old at that time.",
  "All continued requests, times and runs of CompleteRequest.", "It relates times of two requests with a user between them.", ["authorization_endpoint.go:CompleteRequest"])
p("Authorization requests by GET and by POST are served alike",
  "OpenID Connect Core 3.1.2.1: the authorization endpoint serves GET and POST. Two authorization requests with the same path and parameter values have the same effects whatever their methods and wherever their parameters are: the same calls of the application with the same arguments in the same order, the same log lines, the same result, and responses that are equal up to the text accompanying a redirect (which goes to the same place). The same holds for completing and cancelling.",
  "All pairs of requests with equal parameter values, all methods, on the wire too, every policy, backend answer and run.", "All pairs of requests and runs; one parameter read from the body only breaks one of the two methods for one kind of request.", ["authorization_endpoint.go:HandleRequest", "authorization_endpoint.go:CompleteRequest", "authorization_endpoint.go:CancelRequest", "authorization/response.go"])
p("Parameters without a value count as omitted",
  "RFC 6749, 3.1 and 3.2: at the token endpoint and the authorization endpoint, a request with parameters that are sent without a value is served exactly as the request without them.",
  "All requests (that name no parameter twice), all sets of empty parameters in body and URL, every configuration, backend answer and run.", "All combinations of empty parameters; a parameter whose presence instead of its value is looked at shows only when it is sent empty.", ["token_endpoint.go:Handler", "grant/*.go", "authorization_endpoint.go:HandleRequest"])
p("Repeated parameters are refused",
  "RFC 6749, 3.1 and 3.2: a request that includes a parameter more than once is not granted, so that no two readers of the request can take it for different requests.",
  "All token and authorization requests.", "All requests with repetitions, in body and URL.", ["token_endpoint.go:Handler", "authorization_endpoint.go:HandleRequest"])
p("Claims that are not understood are ignored",
  "RFC 7519, 4: of the tokens presented to the library - client assertions, assertions of the JWT grant, ID token hints - only the subject, audience, expiry, not-before, issued-at and identifier claims count, with the algorithm and key id of the header. Had all tokens carried other claims beside these, whatever their names and values, exactly the same would have happened on every token request and every authorization request.",
  "All token texts and all claim sets they may carry, all requests, configurations, backend answers and runs.", "It compares runs over all pairs of claim sets; one look at a private claim changes results only for tokens that have it.", ["assertion/assertion.go", "grant/jwt.go", "token_endpoint.go:validateClientByAssertion", "authorization_endpoint.go:HandleRequest"])
p("An assertion names its issuer",
  "RFC 7523, 3 and OpenID Connect Core, 9: an assertion is accepted, as client authentication or as a grant, only if it names its issuer (iss), which for client authentication is the client itself.",
  "All token requests with assertions, configurations and runs.", "All assertions; the missing check is invisible to tests whose assertions are well formed.", ["assertion/assertion.go", "grant/jwt.go", "token_endpoint.go:validateClientByAssertion"])
p("A request authenticates one client in one way",
  "RFC 6749, 2.3 and RFC 7521, 4.2: a token request that presents credentials of two clients - a Basic header of one and a client id or an assertion of another, or an assertion of one with the client id of another - is not granted.",
  "All token requests with several credentials, acceptance policies, configurations and runs.", "All combinations of credentials; which one counts shows only when they disagree.", ["token_endpoint.go:findClientCredential", "token_endpoint.go:findClientAssertion", "token_endpoint.go:Handler"])
p("A grant of the application is served as its handler says",
  "TokenEndpoint.Support takes handlers of the application's own. Whatever a handler does, it runs only after a client has authenticated (and may use the grant type), once, with the request, that client and the current time, before which nothing but the authentication has happened; the endpoint then answers as the handler ended: with its tokens, with its error (with the error page it names or the configured one), or not at all if it panics. Otherwise the request is refused without running it. Handlers of other grant types have no influence.",
  "Every handler whatever, every set of other handlers, request, configuration, backend answer and run.", "All functions of the application; the built-in grants are five of them.", ["token_endpoint.go:Support", "token_endpoint.go:Handler", "token_endpoint.go:executeGrantHandler"])
p("Extensions a token depends on are understood or refused",
  "RFC 7515, 4.1.11: an assertion whose header lists extensions as critical (crit) is refused if they are not supported; goidc supports none, so it is not accepted.",
  "All assertions with critical extensions, all requests, configurations and runs.", "All headers; the missing check shows only for tokens that use an extension.", ["token_endpoint.go:validateClientByAssertion", "assertion/assertion.go", "grant/jwt.go"])
p("A code used twice revokes what was issued for it",
  "RFC 6749, 4.1.2: when a code is presented again and refused, the access token issued for it admits no request from then on.",
  "All histories of token, authorization and protected requests over the reference store.", "It relates three requests across any history.", ["grant/authorization_code.go", "resource_protector.go:Validate", "test_helper/store.go"])
p("A hint is an ID token of this issuer for this client",
  "OpenID Connect Core, 3.1.2.1 and RFC 8725, 3: a silent request of a client whose policy asks for an id_token_hint succeeds only if the hint was issued by this issuer, for this client, with the algorithm ID tokens of the client are signed with.",
  "All silent authorization requests with a hint, clients, policies, libraries, backend answers and runs.", "All hints; the missing checks show only for tokens of others under the same key.", ["authorization_endpoint.go:HandleRequest"])
p("An assertion serves once, also within one request",
  "Against a store that records an assertion (client and jti) at most once, no token request is granted that authenticates its client by an assertion and presents an assertion with the same jti (or both without any) as its grant; in particular, no assertion serves as both.",
  "All token requests with two assertions, all interleavings with other requests, every configuration and library.", "All pairs of assertions and histories; either use alone is fine.", ["token_endpoint.go:validateClientByAssertion", "grant/jwt.go", "assertion/assertion.go"])
p("Only the holder of a client's key can use up its assertions",
  "RecordAssertionClaims is called for a client only by a token request of that client which has authenticated as it and carries an assertion with exactly these claims, signed with a key of the client and in its time. A request none of whose assertions is signed with a key of a client the application knows records nothing; so nobody else can use up the identifiers of a client's assertions.",
  "All deployments and interleavings of requests, configurations, libraries and backend answers.", "It ranges over all histories; a record made one check too early shows only to the client whose assertion is then refused.", ["assertion/assertion.go", "token_endpoint.go:validateClientByAssertion", "grant/jwt.go"])
p("Only assertions for this server are recorded",
  "RecordAssertionClaims is only called for an assertion that is accepted: one made with a key of the client, in its time, and addressed to this issuer; an assertion addressed to another server does not use up an identifier here.",
  "All token requests with assertions, configurations, libraries and runs.", "It is about the order of checks and effects on refused requests.", ["assertion/assertion.go", "token_endpoint.go:validateClientByAssertion", "grant/jwt.go"])
p("Revoking an authorization closes every door",
  "Once the application no longer shows an authorization as active (FindActiveAuthInfoById), no request that starts later uses it: a token request presenting a code or a refresh token of it is refused, no code of it is spent and no token of it refreshed, and no protected request with an access token of it is admitted, with or without required scopes.",
  "All deployments and interleavings, with any requests still running when the authorization is revoked; all configurations, libraries and backend answers.", "It holds over every history after the revocation, at both endpoints and for all three credentials.", ["grant/authorization_code.go", "grant/refresh_token.go", "resource_protector.go:Validate"])
p("What has expired stays expired",
  "If the clock never goes back, then once it shows that an access token has expired no protected request that starts later and is shown that token with the same times is admitted, and once it shows that a refresh token has expired no later token request presenting it is granted; this holds for all 64-bit times, however the sums wrap, and whoever read the clock.",
  "All deployments and interleavings with a forward clock, all token times, configurations, libraries and backend answers.", "It relates readings of the clock by different requests over any history.", ["grant/refresh_token.go", "resource_protector.go:Validate"])
p("Nothing more is done for a client that was removed",
  "Once the application no longer shows a client (FindClientById), no request that starts later records an authorization, creates or spends a code, or creates or refreshes a token for it, and no later token request is granted to it.",
  "All deployments and interleavings, with any requests still running when the client is removed; all configurations, libraries and backend answers.", "It holds over every history after the removal, at every endpoint.", ["token_endpoint.go:Handler", "authorization_endpoint.go:HandleRequest", "authorization_endpoint.go:CompleteRequest"])
with open("/verif/properties.jsonl", "w") as f:
    for x in P: f.write(json.dumps(x) + "\n")
print(len(P))
