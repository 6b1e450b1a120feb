# DESIGN — a Lean 4 model of lyokato/goidc

The table and the approach were written before the proofs and are kept current as the model grows.

## Approach

* **Go strings** are byte lists (`GoStr := List UInt8`); `len` is the byte length, comparison is
  bytewise. `int64` is Lean's wrapping `Int64`.
* **Effects** are modelled by a small free monad `Prog α`: `ret`, `panic` (a Go run-time panic) and
  `call q k`, where `q : Query` is one call the library makes to code outside it (a `DataInterface`
  method, an `AuthorizationCallbacks` method, the clock, the logger, the `http.ResponseWriter`, a Go
  map `range`) and `k` receives an **arbitrary** answer of the type that call can return. `(T, *Error)`
  results are pairs `Option T × Option ErrType`, so `(nil, nil)`, `(v, err)` and error kinds outside
  the declared constants are all possible answers.
* `Runs p t o` says that `p` has a complete run with call/answer trace `t` and outcome `o`;
  `Steps p t` says `t` is the trace of a possibly unfinished run (crash point). Every theorem about an
  endpoint quantifies over all traces, i.e. over all behaviours of the application's back end.
* **Concurrency** is modelled by interleavings: a global trace of `(thread, event)` pairs whose
  projection to each thread is a `Steps` trace of that thread's program. Store assumptions are
  predicates on the global trace, stated in the theorem.
* **Libraries outside the repo** (SHA-2, JWT signing/verification, JSON/base64 decoding inside the jwt
  library, `net/url.Parse` success) are fields of a structure `Lib` the theorems quantify over. Pure
  standard library functions the repo's behaviour visibly depends on (`strings.Split/Join`,
  `sort.Strings`, `strconv.Atoi/Quote/%d`, base64, `url.QueryEscape`, `url.Values.Encode`,
  `html.EscapeString`, JSON string quoting, `http.Header`, `Request.FormValue/BasicAuth`) are modelled
  concretely.

## Layout

`lean/Verif/Model/*`   the model, each definition citing file and lines in /repo
`lean/Verif/Spec/*`    small specifications used in statements; they use the model only for its types (requests,
                       clients, calls), not for its decisions
`lean/Verif/Lemmas/*`  helper lemmas
`lean/Verif/Props/*`   the property theorems `Cnn_…`, with non-vacuity examples next to them
`lean/Verif/Sample/*`  a concrete client, library and back end on which the examples and counterexamples run
`lean/Verif/Conformance/*` the repository's own tests replayed on the model; these validate the model, they prove no property
`tools/`               generators of properties.jsonl and MANIFEST.json
`seeded/`              log of the wrong programs the theorems were tested against

Names: `Cnn_…_partial` is a proved part of a property that does not hold (or is not proved) in full;
`Cnn_false` is the kernel-checked refutation of the full statement, by a concrete run of the model.
A property whose full statement is false of the code has status "partial" in the manifest.

## Per property: what is modelled and how it is proved

| ids | model | proof |
|---|---|---|
| C01–C08, C23, C24 | `tokenHandler` (token_endpoint.go) over the five grants | run inversion / weakest-precondition calculus over `Prog`; C03, C08 are false of the code (client assertion path): negation by concrete run + partial theorem |
| C09–C11, C13–C15 | `authorizationCode` grant | success-run inversion; C11, C15 false: negation + partial |
| C12, C21 | interleavings of token requests | counting over projections, with store contracts; negation for an idempotent `DisableSession` |
| C16–C20, C22 | other grants, `Int64` arithmetic | success-run inversion |
| C25–C29, C56 | `ResourceProtector` | as above; C27 (nil auth info) and C29 false: negation + partial |
| C30–C44, C62, C64 | `HandleRequest`, `CompleteRequest`, `CancelRequest`, `complete*` | all-events invariants and success-run inversion; C33, C35, C42, C62 false in corners: negation + partial |
| C31, C45 | redirect / form rendering, bytes | encoder/parser round-trips by induction; C45 false for the URI |
| C46–C50, C53, C59 | pure packages | induction / finite tables |
| C51, C61 | JSON + base64url | printer/parser round-trip by induction |
| C52, C54, C55 | base64, Basic auth, error rendering | induction; C54 false for reserved characters |
| C57 | JWK endpoint | fold over registrations, permutations for map order |
| C58 | logger calls are events | two-run (noninterference) theorem; false for the password |
| C60 | reference store of test_helper as a state machine | invariant over request histories |
| C63 | jwt claim validation | decision logic; false for exp = 0 |
| C65–C67 | token hash, Basic challenge, refusals of the token endpoint | digest/prefix algebra; header grammar by induction over the realm; all-paths invariant of the error writer; C65, C66 false in corners: negation + partial |
| C68 | the whole token endpoint, read forwards | the run of an accepted request is constructed: every backend that answers the calls makes the handler end in 200 |
| C69 | `Validate` | `Verdict` lists the reasons with the calls establishing them; run inversion, forward construction, and exclusivity by cases |
| C70 | `HandleRequest` from start to end | `Spec/AuthDecision.lean` is a decision table written as composed stages; every stage of the model is proved to follow it (Hoare triples over the calls that are not log lines), two rows either agree or differ by an answer, and for every row a run with its answers is constructed |
| C71 | the parameter checks | `faults`: ordered list of propositions about the HTTP parameters with error codes and descriptions; corollary of C70 |
| C72 | the `prompt=none` branches | corollaries of C70, one per reason |
| C73 | the interactive branches | corollaries of C70: which call comes next |
| C74 | `CompleteRequest`, `complete` | as C70 |
| C75 | `Jwt.parse` in `validateClientByAssertion` and the JWT grant | inversion of a 200 run; times against `Spec/Jwt.lean`, which does not use the model's checks |
| C76 | `TokenEndpoint.Handler`, credentials, assertions, the five grants | `Spec/TokenDecision.lean` is a decision table in do-notation over a small relation monad; each function of the model is proved to follow its table, two rows agree or differ by an answer, every row has a run |
| C77 | the steps before a grant | corollaries of C76 |
| C78 | the refusals of the grants | corollaries of C76, one per reason, with the exact calls |
| C79 | the refusals of assertions | corollaries of C76; the first fault of a list |
| C80 | `net/http` readers used by the endpoints (`FormValue`, `PostFormValue`, `Header.Get`, `BasicAuth`), `FindClientCredential`, `findTokenFromRequest` | equivalence with `Spec/Http` (case folding by letter, first occurrence, base64 by bits); induction on the text and on the digits |
| C81 | all endpoints as concurrent threads over one global call sequence; store contract `Spec.KeepsRecords` | every key call (record, session, token, refresh) of an endpoint is characterised by the calls before it (Hoare-style `token_key`, `handleRequest_key`, `completeRequest_key`); then chased through the global sequence; `KeepsRecords` of the reference store by induction over its runs |
| C82 | same | same, from the two lookups of `Validate` back to the recording and issuing requests |
| C83 | `log/text.go`, `log/logger.go`, `encoding/json` of a string map | insertion sort is a function of the multiset of pairs; the JSON text is parsed by `Spec/Json`; the colour sequences are removed by a relation (`Spec/LogText`) |
| C84 | log lines of `token_endpoint.go`, `grant/*.go`, `assertion/*.go` | a history predicate `Aud`: every write is preceded by a line that stands in `Spec.Explains` to the reply; one lemma per error site |
| C85 | the same | `Rep`: every failing answer is followed by a log call; one lemma per call site; two sites carry a wrong method name (refuted as stated, proved with these names) |
| C86 | log lines of `resource_protector.go` | `Prec`/`Foll` (line before / after); silent insufficient_scope and wrong label refuted by runs |
| C87 | log lines of `authorization_endpoint.go` | `Prec`/`Foll`; silent data failures refuted by a run |
| C88 | `CompleteRequest` + `Handler` + `grant/authorization_code.go`, `grant/refresh_token.go` over `test_helper/store.go` | `TF`: a decision table whose calls are answered by the reference store under interference; store invariants (`Authorizes`, `Refreshable`) along the run |
| C89 | `Validate` + `grant/refresh_token.go` over `test_helper/store.go` | store invariant (the name is absent) along the run, then the verdicts of C69 |
| C90 | all endpoints; `test_helper/store.go` | `global_key`: what precedes each mutating call in its own request; `Explains` ties store contents to the calls that made them; induction over the run |
| C91 | `crypto/key.go`; PEM, PKIX, PKCS#1, JWK parsing and file reading as parameters (`JwxLib`) | equivalence with `PublicKeyPem`, `PrivateKeyPem`, `KeyOfSet` (`Spec/Jwk`) |
| C92 | histories of configuration calls (`Model/Settings`) | induction on the history (`lastSetting`), then the endpoint theorems C02, C05, C39, C64, C67 |
| C93 | `test_helper/client.go`, set-up functions of `test_helper/store.go` (`Model/Reference`: clients are objects, the map points to them) | invariants by induction on the set-up history; then C03, C30, C34, C37, C82 over the store that results |
| C94 | `test_helper/store.go` with the clock made explicit (`stepAt`), the protector and the refresh grant | `Spec/Clock`: `ClockRun`, one monotone clock for the store and the endpoints; invariants on the ages of all stored tokens, then C88 and C69 |
| C95 | golang-jwt's compact serialisation (`Model/Jws`: `Jws.lib` makes a `Lib` from the primitives `Prims`: SHA-2, signature and verification functions, float64 conversion) under the endpoints | `IsJws`, `TokenSays` (`Spec/Jws`): the text made by `Jws.sign` is a JWS of exactly the claims; then C14, C41 |
| C96 | `Jws.decode`, `Jws.sigOk` under the endpoints | the parser is complete for JSON texts (C60), so what is decoded from a JWS is the last member of each name; then C03, C23 |
| C97 | the same, the other way | `Conforms` implies `GoodAssertion`, then C68; `C97_signed`: what `Jws.sign` makes conforms |
| C98 | all endpoints, on pairs of requests that agree on the documented names (Spec/Ignored.lean) | the handler is the same program for both, since each `formValue`/`header` it asks for depends on the entries of that name only; the protector's two programs run alike up to the headers they pass on |
| C99 | pairs of runs of the token endpoint and of the resource protector (Spec/Discreet.lean) | the decision table of C76 with `render` in place of `Says` fixes each refusal to one response; partial: an expired refresh token of another client is answered as expired, since the expiry is checked before the client (`C99_refresh_false`, in general `C99_refresh_leak`) |
| C100 | pairs of runs of `HandleRequest`, `CompleteRequest`, `CancelRequest` and the token endpoint that differ in the code verifier (Spec/Verifier.lean: `rebound` replaces it in the calls that carry it and leaves log lines and responses alone) | simulation (`SimR`) of the one run by the other, part by part; at the token endpoint `checkPkce` depends on the verifier only through `ChallengeFits` |
| C101 | the calls of one request, by kind (Spec/Cost.lean), at every point of every run of the token endpoint with the built-in grants, `HandleRequest`, `CompleteRequest`, `CancelRequest`, `Validate` and `ValidateWithScopes` | a cost bound per kind for each part of the model (`Costs`, `XCosts`: separate bounds for success and failure), added up along bind and joined along branches; prefixes by completing the run |
| C102 | tokens of any text (Spec/LooseJws.lean on Spec/LooseJson.lean: JSON with ill-formed UTF-8 and lone surrogates read as U+FFFD, base64url with or without padding as golang-jwt decodes it, anything behind the payload object) | soundness of the JSON parser, the string scanner and the base64 decoder for that grammar (induction on fuel and length), uniqueness by the completeness direction; then the acceptance theorems of C96 |
| C103 | `DecodeRequest` on base64url texts of JSON documents (Spec/Decode.lean: names equal but for case, the last member of the right sort counts, reading stops at a bad flow type) | simulation of the field-by-field decoder by induction on the members; from texts to members by the grammar of C102; uniqueness of the request said; false for flow types written with escapes (C103_false) |
| C104 | names and values of the headers of every response written (Spec/Lines.lean) at every point of every run of all endpoints; `url.Parse` as a library function that refuses control characters before the fragment | a predicate on responses carried through the programs (`FrontQ`, `TokQ`, `protQ`), and the alphabet of query escaping, hex escaping and quoting; false for the fragment (C104_false) |
| C105 | the bytes the default logger prints for every log line written at every point of every run | the realm of every line (`FrontQ`, `TokQ`, `protQ`), JSON string encoding has no control characters, colours taken out by C83's `Uncoloured`; false for the URL path (C105_false) |
| C106 | runs with other strings in the tokens and codes answered by the application (Spec/Issued.lean), at the token endpoint, `HandleRequest`, `CompleteRequest`, `Validate`, `ValidateWithScopes` | a simulation of the program by itself (`SimE`: events related one by one), with every call that issues nothing left alone (`FrontQ`, `TokQ`) |
| C107 | token requests with the same body and headers and other URLs | equality of the programs for equal values of the recognised parameters; false for parameters missing in the body (C107_false) |
| C108 | the logger as an object with a history of calls (`Model/Logger.lean`), `fmt.Sprintf` being any function that copies text without percent signs | induction over histories against the inductive `Spec.Threshold`; injectivity of labelled lines |
| C109 | requests as bytes: raw query, payload, headers (`Model/Wire.lean`), with `mime.ParseMediaType` and the multipart parser as arbitrary functions | the reading of the bytes equals the inductive `Spec.Seen` (both directions), so it is unique; round trip with `url.Values.Encode` |
| C110 | one code flow (authorization, decision, token request) over the reference store, `Spec.codeFlow` | false: the code has it the other way round (C110_false by a run of the flow); proved: both parameters are unread, and the reversed protection, through the key calls of each endpoint |
| C111 | deployments over the reference store | false (C111_false: a second consent changes the scope of the token); proved: the scope is that of the last authorization, by an invariant of the store |
| C112 | the responses all endpoints write | every write of each program is of one of the forms the RFCs keep out of caches |
| C113 | `HandleRequest` with hints | counterexample; simulation of runs that differ in the hints (exact extent); C34 for the silent case |
| C114 | `CompleteRequest`, `CancelRequest` with the continued request | counterexample; simulation of runs whose continued requests agree in what the answer is made of |
| C115 | the authorization endpoint with two requests; `Model/Wire` for GET with a query and POST with a form body | simulation, event by event up to the text of redirects |
| C116 | `Req.formValue`, `postFormValue` under both endpoints | the endpoints read a request through lookups only; a lookup does not see empty parameters |
| C117 | the same with repeated parameters | counterexample; only the first value is ever looked at |
| C118 | `Lib.jwtDecode` under the token endpoint with any list of built-in grants and under the authorization endpoint | simulation over two libraries whose tokens agree on six claims; the endpoints look at no other |
| C119 | the same with `iss` set or removed | counterexample; instance of C118 |
| C120 | `findClientCredential`, `findClientAssertion` | counterexample; beside the credential that counts no other is looked at |
| C121 | `TokenEndpoint.handler` with any `GrantFunc` as handler | decomposition of runs into authentication, handler and answer, in both directions |
| C122 | `Jws.lib` under the token endpoint | counterexample; instance of C97 |
| C123 | all endpoints over the reference store | counterexample (a history of five requests) |
| C124 | `checkIdTokenHint` over `Jws.lib` | counterexample; simulation over two libraries whose hints agree on algorithm, subject and times |
| C125 | `validateClientByAssertion`, `Grant.jwt`, the store's contract `RecordsOnce` | anatomy of a granted run: two records in one request |
| C126 | every endpoint in any interleaving (`Endpoint`, `Interleaves`) | the keyed-call invariant of C84, its claims key now carrying the assertion, its holder's key and the clock (`MadeByHolder`) |
| C127 | `checkAssertionClaims` and its two callers | counterexample (recorded before the audience is compared); the true part by the same invariant |
| C128 | token endpoint and resource protector against a backend that has revoked (`Revoked`) | anatomy of granted runs; keyed-call invariant for spending and refreshing |
| C129 | token endpoint and resource protector under a forward clock (`ClockForward`) | anatomy of granted runs; order of the clock readings in the history |
| C130 | every endpoint against a backend that has removed a client (`Removed`) | counterexample (`CompleteRequest` does not look the client up); C90's speakers and the keyed-call invariant for everything else |

## Trusted base

* Lean 4.33.0's kernel. No `sorry`, no axioms of our own, no `native_decide`, no `bv_decide`; `decide +kernel`
  is evaluated by the kernel.
* Axioms: every property theorem depends on a subset of `propext`, `Classical.choice`, `Quot.sound`
  (Lean's standard three). Roughly 2 % depend on none, 10 % on `propext` only, 40 % on `propext` and `Quot.sound`,
  the others on all three.
* The faithfulness of the model to the Go code and to the libraries it calls, which is by reading only: no Go code was
  compiled or run. What is modelled how is said below and in the comment of each definition. As a check of the reading,
  `Conformance` replays on the model every test of the repository (about 60 HTTP exchanges with the token endpoint, the
  protector test, the exact RSA-signed ID token of id_token_test.go, the unit tests of the helper packages) except
  crypto/key_test.go and jwk_endpoint_test.go, whose PEM and ASN.1 inputs are below the model; all pass. These are tests, not
  proofs, and no claim rests on them.
* Fields of `Lib` and `JwxLib` that are propositions are the only assumptions about libraries: SHA digests have their
  lengths, decoding a JWT keeps its text, and a JWK set that was written is read back. C95-C97 replace `Lib` by golang-jwt's
  code over `Prims`, whose assumptions are: digests have their lengths, every int64 is in
  float64's range and one of at most 53 bits survives it, and a signature that was made verifies.

## What is modelled

| code | where |
|---|---|
| token_endpoint.go (all) | `Model/TokenEndpoint` |
| grant/*.go (five grants, response JSON) | `Model/Grant`, `Model/Types`, `Model/Json` |
| assertion/error.go | `Model/Assertion` |
| resource_protector.go (all) | `Model/ResourceProtector` |
| authorization_endpoint.go (HandleRequest, CompleteRequest, CancelRequest, complete*) | `Model/AuthorizationEndpoint` |
| authorization/request.go (Encode, DecodeRequest), authorization/response.go | `Model/Json`, `Model/AuthResponse` |
| id_token, pkce, basic_auth | `Model/Pkce` |
| scope, prompt, flow, response_mode, oauth_error, log | modules of the same names |
| jwk_endpoint.go, crypto/key.go (all) | `Model/Jwk` |
| test_helper/store.go (the `DataInterface` methods) | `Model/TestStore` |
| test_helper/client.go, set-up functions of test_helper/store.go | `Model/Reference` |
| bridge/interface.go, bridge/errors.go | `Model/Types`, `Model/Prog` (one `Query` per method) |
| net/http: FormValue, PostFormValue, BasicAuth, headers | `Model/Http` |
| net/http `ParseForm`/`ParseMultipartForm`, net/url `ParseQuery` (from the raw query and payload) | `Model/Wire` |
| net/url, html, base64, utf8, strconv, encoding/json as used | `Model/GoStr`, `Model/Encoding`, `Model/Json` |
| golang-jwt v3.2.2: algorithm table, key types, claim times, error flags | `Model/Lib` |
| golang-jwt v3.2.2: SignedString, Parse, segments, claims and header as JSON | `Model/Jws` |

Simplifications that matter:

* an application call is one event with an arbitrary answer; application callbacks do not call back into goidc and
  do not write to the `ResponseWriter` themselves, except where the code hands it to them (`ShowErrorScreen`,
  `ShowLoginScreen`, `ShowConsentScreen`), which is the event itself;
* getters of `bridge.Client`, `AuthInfo`, `AuthSession`, `OAuthToken` are pure: an object is the record of its getters'
  values. `MatchSecret`, `CanUseRedirectURI`, `CanUseScope`, `CanUseGrantType`, `CanUseFlow` and `AssertionKey` are
  arbitrary pure functions;
* objects the store returns are snapshots: the reference store returns pointers to records it later changes in place
  (`RefreshAccessToken`, `CreateOrUpdateAuthInfo`), so that a concurrent request may see newer values than the model's;
* the endpoints work on the parsed request (lists of pairs); `Model/Wire` is the reading of the bytes, as of Go 1.17
  (texts with `;` are dropped), with `mime.ParseMediaType` and the multipart parser as arbitrary functions;
* the writer accepts what it is given: network errors and partial writes are not modelled (goidc ignores them). A crash
  point is a prefix of the trace (`Steps`);
* a JSON number claim is the `int64` goidc and golang-jwt convert it to;
* `strings.ToLower` is ASCII; `strconv.IsPrint` on non-ASCII runes is a parameter; JSON nesting limits are left out;
* Go map iteration order: the parameters of a response and the JWK set are proved for every order; log parameter maps are
  sorted by `json.Marshal` in Go and in the model.

## What is not modelled

* cryptography: signing and verifying are `Lib` fields constrained by nothing (theorems say which key, algorithm and
  claims go in). `Sample/Sha2` and `Sample/Crypto` implement SHA-2, HMAC and RSA signatures, for examples only: no theorem
  rests on them;
* randomness: callbacks and stores create codes and tokens; `pkce.GenRandomCodeVerifier` is a function of its random bytes;
* a handler of the application (C121) ends with a response, an error or a panic: `nil, nil`, which Go's types allow too, is left out;
* the net/http server around the handlers, TLS, timeouts, and the logger's output device;
* test_helper/http_client.go and matcher.go (HTTP client and assertions of the tests), and the tests;
* memory, goroutine preemption inside one call: a call is atomic, requests interleave between calls
  (`Spec/Concurrency`); handlers share no mutable state of their own (`handlers` map and endpoint settings are written
  at set-up).

## Known deviations of the code from the properties

Each has a `Cnn_false` theorem, and a `_partial` theorem for what does hold; the notes in MANIFEST.json say what is missing.

* C03: a client that authenticates with an assertion is never checked for the grant type.
* C08: a malformed client assertion panics the handler (nil client in a log line).
* C11: the lifetime of an authorization code is never compared with the clock.
* C15: `DisableSession` or ID token signing may fail after the token was created.
* C27: a nil authorization with a nil error panics (the wrong variable is tested).
* C29: a token in body or query is only looked at when the header says `Bearer` with an empty token.
* C33: `prompt="none none"` passes validation and is treated as interactive.
* C35: `prompt=none` skips the max_age check.
* C42: the implicit flow calls the lifetime `rexpires_in`.
* C44: a failing login screen demanded by prompt=login or max_age is not reported to the client.
* C45: the redirect URI is not escaped in the form_post page.
* C54: `basic_auth` query-escapes, the server does not unescape.
* C58: a password refused with an error is logged in clear.
* C59: the levels error and fatal are labelled DEBUG.
* C62: for RSA and ECDSA clients no `id_token_hint` can ever be accepted.
* C63: `exp: 0` counts as absent.
* C65: at_hash and c_hash use padded standard base64.
* C66: the realm of the Basic challenge is not quoted.
* C85: two store methods are logged under other names.
* C86: insufficient_scope is not logged, and some lines of the protector are filed under token_endpoint.
* C87: failures of the data interface at the authorization endpoint are mostly silent.
* C99: an expired refresh token of another client is answered differently from one that does not exist.
* C103: a flow type written with an escape is not recognised and stops the decoder.
* C104: the fragment of a redirect URI is put into the Location header unchecked.
* C105: the decoded URL path is printed to the log without quoting.
* C107: parameters missing in the body of a token request are taken from its URL; of a multipart body the URL even wins over the body.
* C110: PKCE is the wrong way round: `code_challenge` at the authorization endpoint and `code_verifier` at the token endpoint, where RFC 7636 has them, are ignored.
* C111: a later consent of the same user to the same client changes the scope of access tokens issued before.
* C113: an `id_token_hint` is ignored unless the request is silent and the client's policy asks for it.
* C114: `max_age` is not looked at when a request is completed.
* C117: repeated parameters are not refused; the first value counts.
* C119: the issuer of an assertion is not looked at.
* C120: a request with credentials of two clients is granted to the one whose credential is looked at first.
* C122: assertions with critical extensions (`crit`) are accepted.
* C123: a code used twice is refused, but the token issued for it stays valid.
* C124: issuer, audience and algorithm of an `id_token_hint` are not looked at (the key is).
* C127: an assertion addressed to another server is refused, but its `jti` has been recorded by then: the claims are recorded before the audience is compared.
* C130: a login completed after its client was removed still records an authorization and creates a code or token for that client.
