import Verif.Spec.Accept
import Verif.Spec.AuthDecision
import Verif.Spec.Json
import Verif.Spec.Protector

/-! # The decision table of the token endpoint

How a token request is answered, as a function of the request, of the client and of what the application
answered.  A table is a relation between the calls made (other than log lines), with their answers, and
a result. -/

namespace Goidc.Spec

/-- How a request to the token endpoint ends. -/
inductive Reply
  /-- an error with this code and description -/
  | refused (code : OAuthErrorType) (desc : GoStr)
  /-- 401 `invalid_client` with a challenge -/
  | challenged
  /-- the token is sent, with the scope of the authorization and an ID token (empty: none) -/
  | granted (token : OAuthToken) (scope idToken : GoStr)
  /-- 405 -/
  | wrongMethod
  /-- the handler panics -/
  | crash

/-- A table: the calls made, and either a result for what follows or the end of the request. -/
def Table (α : Type) : Type := List Event → α ⊕ Reply → Prop

/-- No calls; the result `a`. -/
def Table.done {α : Type} (a : α) : Table α := fun calls res => calls = [] ∧ res = .inl a

/-- One table after another: an end of the first is the end. -/
def Table.andThen {α β : Type} (a : Table α) (b : α → Table β) : Table β := fun calls res =>
  (∃ e, res = .inr e ∧ a calls (.inr e)) ∨ ∃ c1 c2 x, calls = c1 ++ c2 ∧ a c1 (.inl x) ∧ b x c2 res

instance : Monad Table where
  pure := Table.done
  bind := Table.andThen

/-- The request ends with this reply. -/
def reply (e : Reply) : Table Empty := fun calls res => calls = [] ∧ res = .inr e

/-- If `p` holds, the request ends with `e`. -/
def endIf (p : Prop) (e : Reply) : Table Unit := fun calls res =>
  calls = [] ∧ ((p ∧ res = .inr e) ∨ (¬ p ∧ res = .inl ()))

/-- Something with the property `P`; if there is nothing, the request ends with `e`. -/
def find {α : Type} (P : α → Prop) (e : Reply) : Table α := fun calls res =>
  calls = [] ∧ ((∃ a, P a ∧ res = .inl a) ∨ ((∀ a, ¬ P a) ∧ res = .inr e))

/-- The answer to a call that cannot fail. -/
def observe (q : Query) : Table q.Resp := fun calls res => ∃ x, calls = [⟨q, x⟩] ∧ res = .inl x

/-- The answer to a call that can fail.  If the application refuses (`ErrFailed`), the request ends with
`e`; if it fails otherwise or returns nothing, with `server_error`. -/
inductive Obtain {α : Type} (q : Query) (value : q.Resp → Option α × Option ErrType) (e : Reply) : Table α
  | refused {x v} : value x = (v, some .failed) → Obtain q value e [⟨q, x⟩] (.inr e)
  | failed {x v err} : value x = (v, some err) → err ≠ .failed →
      Obtain q value e [⟨q, x⟩] (.inr (.refused .serverError []))
  | nothing {x} : value x = (none, none) → Obtain q value e [⟨q, x⟩] (.inr (.refused .serverError []))
  | value {x a} : value x = (some a, none) → Obtain q value e [⟨q, x⟩] (.inl a)

/-- The request ends unless the parameter is there. -/
def require (r : Req) (name : GoStr) : Table Unit :=
  endIf (r.formValue name = []) (.refused .invalidRequest (b!"missing '" ++ name ++ b!"' parameter"))

/-! ## Assertions -/

/-- The `iat` recorded for an assertion: the claim if it is a number, and -1 otherwise. -/
def RecordedIat (tk : JwtToken) (n : Int64) : Prop :=
  NumberClaim tk b!"iat" n ∨ (∀ m, ¬ NumberClaim tk b!"iat" m) ∧ n = -1

/-- The `jti` recorded for an assertion: the claim if it is a string, and empty otherwise. -/
def RecordedJti (tk : JwtToken) (s : GoStr) : Prop :=
  tk.claimStr b!"jti" = some s ∨ tk.claimStr b!"jti" = none ∧ s = []

/-- The token `tk` is a valid assertion (with the text `a`) of the client `c`. -/
def assertionOf (lib : Lib) (c : Client) (a : GoStr) (tk : JwtToken) : Table Unit := do
  let key ← find (fun k => c.assertionKey (tk.alg.getD []) (tk.kid.getD []) = some k)
    (.refused .invalidGrant b!"assertion unverifiable")
  let wall ← observe .wallNow
  endIf (¬ SignatureOk lib (tk.alg.getD []) a key) (.refused .invalidClient b!"invalid assertion signature")
  endIf (¬ NotExpired wall (tk.claim b!"exp")) (.refused .invalidGrant b!"assertion expired")
  endIf (¬ NotEarly wall (tk.claim b!"nbf")) (.refused .invalidGrant b!"assertion not valid yet")
  endIf (¬ NotEarly wall (tk.claim b!"iat")) (.refused .invalidGrant b!"invalid assertion")
  let exp ← find (fun n => NumberClaim tk b!"exp" n)
    (.refused .invalidRequest b!"'exp' parameter not found in assertion")
  let iat ← find (RecordedIat tk) .crash
  let jti ← find (RecordedJti tk) .crash
  let _ ← Obtain (.recordAssertionClaims c.id jti iat exp) (fun e => (some (), e)) (.refused .invalidRequest [])
  let aud ← find (fun s => tk.claimStr b!"aud" = some s)
    (.refused .invalidRequest b!"'aud' parameter not found in assertion")
  let issuer ← observe .issuer
  endIf (issuer = []) (.refused .serverError [])
  endIf (aud ≠ issuer) (.refused .invalidGrant (b!"invalid 'aud' parameter '" ++ aud ++ b!"' in assertion"))

/-- What can be wrong with a decoded assertion, in the order of the checks, when the client has the key
`key` for it and the library's clock says `wall`. -/
def assertionFaults (lib : Lib) (a : GoStr) (tk : JwtToken) (key : Key) (wall : Int64) :
    List (Prop × OAuthErrorType × GoStr) :=
  [(¬ SignatureOk lib (tk.alg.getD []) a key, .invalidClient, b!"invalid assertion signature"),
   (¬ NotExpired wall (tk.claim b!"exp"), .invalidGrant, b!"assertion expired"),
   (¬ NotEarly wall (tk.claim b!"nbf"), .invalidGrant, b!"assertion not valid yet"),
   (¬ NotEarly wall (tk.claim b!"iat"), .invalidGrant, b!"invalid assertion"),
   ((∀ n, ¬ NumberClaim tk b!"exp" n), .invalidRequest, b!"'exp' parameter not found in assertion")]

/-- The first fault that applies. -/
def FirstOf (l : List (Prop × OAuthErrorType × GoStr)) (x : OAuthErrorType × GoStr) : Prop :=
  ∃ pre p post, l = pre ++ (p, x) :: post ∧ (∀ y ∈ pre, ¬ y.1) ∧ p

/-- The algorithm of the token is one of the library's. -/
def UsableAlg (tk : JwtToken) : Prop := ∃ alg ∈ knownAlgs, tk.alg = some alg

/-! ## Which client -/

/-- The client presented an id and a secret (in the Authorization header, or not). -/
def clientBySecret (r : Req) (cid sec : GoStr) (inHeader : Bool) : Table Client := do
  let c ← Obtain (.findClientById cid) id (if inHeader then .challenged else .refused .invalidClient [])
  endIf (c.matchSecret sec = false) (if inHeader then .challenged else .refused .invalidClient [])
  endIf (c.canUseGrantType (r.formValue b!"grant_type") = false) (.refused .unauthorizedClient [])
  pure c

/-- The client presented an assertion. -/
def clientByAssertion (lib : Lib) (a : GoStr) : Table Client := do
  let tk ← find (fun tk => lib.jwtDecode a = some tk) .crash
  endIf (¬ UsableAlg tk) (.refused .invalidGrant b!"assertion unverifiable")
  let sub ← find (fun s => tk.claimStr b!"sub" = some s)
    (.refused .invalidRequest b!"'sub' parameter not found in assertion")
  let c ← Obtain (.findClientById sub) id (.refused .invalidClient [])
  assertionOf lib c a tk
  pure c

/-- The credentials a request carries. -/
inductive Credential
  | secret (cid sec : GoStr) (inHeader : Bool)
  | assertion (a : GoStr)

/-- A secret goes before an assertion. -/
def CarriesCredential (cfg : TokenCfg) (r : Req) : Credential → Prop
  | .secret cid sec b => Presented cfg.acceptance r cid sec b
  | .assertion a => (∀ cid sec b, ¬ Presented cfg.acceptance r cid sec b) ∧ cfg.acceptClientAssertion = true ∧
      PresentedAssertion r a

/-- The client that sends the request. -/
def clientOf (cfg : TokenCfg) (lib : Lib) (r : Req) : Table Client := do
  match ← find (CarriesCredential cfg r) .challenged with
  | .secret cid sec b => clientBySecret r cid sec b
  | .assertion a => clientByAssertion lib a

/-! ## Grants -/

/-- What a grant yields: the token, the scope and the ID token. -/
abbrev Yield := OAuthToken × GoStr × GoStr

/-- The ID token of a code grant. -/
def codeIdToken (lib : Lib) (c : Client) (info : AuthInfo) (sess : AuthSession) (now : Int64) : Table GoStr :=
  fun calls res =>
    (¬ HasWord info.scope b!"openid" ∧ calls = [] ∧ res = .inl []) ∨
    (HasWord info.scope b!"openid" ∧ ∃ iss, calls = [⟨.issuer, iss⟩] ∧
      ((¬ KeyFits lib c.idTokenAlg c.idTokenKey ∧ res = .inr (.refused .serverError [])) ∨
       (KeyFits lib c.idTokenAlg c.idTokenKey ∧ ∃ tok claims, res = .inl tok ∧
          SignedBy lib c.idTokenAlg c.idTokenKeyId claims c.idTokenKey tok ∧
          ∀ k v, (k, v) ∈ claims ↔ CodeIdTokenClaims iss info.clientId info.subject sess.nonce
            (now + sess.idTokenExpiresIn) now sess.authTime k v)))

/-- The challenge fits the verifier the code was requested with. -/
def ChallengeFits (lib : Lib) (r : Req) (verifier : GoStr) : Prop :=
  (r.formValue b!"code_challenge_method" = b!"plain" ∧ r.formValue b!"code_challenge" = verifier) ∨
  (r.formValue b!"code_challenge_method" = b!"S256" ∧
    r.formValue b!"code_challenge" = base64url (lib.sha256 verifier))

/-- The authorization_code grant. -/
def codeGrant (lib : Lib) (r : Req) (c : Client) (now : Int64) : Table Yield := do
  require r b!"redirect_uri"
  require r b!"code"
  let sess ← Obtain (.findAuthSessionByCode (r.formValue b!"code")) id (.refused .invalidGrant [])
  let info ← Obtain (.findActiveAuthInfoById sess.authId) id (.refused .invalidGrant [])
  endIf (info.clientId ≠ c.id) (.refused .invalidGrant [])
  endIf (sess.redirectURI ≠ r.formValue b!"redirect_uri") (.refused .invalidGrant
    (b!"indicated 'redirect_uri' (" ++ r.formValue b!"redirect_uri" ++ b!") is not allowed for this client"))
  endIf (sess.codeVerifier ≠ [] ∧ r.formValue b!"code_challenge_method" = [])
    (.refused .invalidRequest b!"missing 'code_challenge_method' parameter")
  endIf (sess.codeVerifier ≠ [] ∧ r.formValue b!"code_challenge" = [])
    (.refused .invalidRequest b!"missing 'code_challenge' parameter")
  endIf (sess.codeVerifier ≠ [] ∧ r.formValue b!"code_challenge_method" ∉ [b!"plain", b!"S256"])
    (.refused .invalidRequest
      (b!"unsupported 'code_challenge_method': '" ++ r.formValue b!"code_challenge_method" ++ b!"'"))
  endIf (sess.codeVerifier ≠ [] ∧ ¬ ChallengeFits lib r sess.codeVerifier) (.refused .invalidGrant
    (b!"invalid 'code_challenge': '" ++ r.formValue b!"code_challenge" ++ b!"'"))
  let token ← Obtain (.createOAuthToken (some info) true) id (.refused .invalidGrant [])
  let _ ← Obtain (.disableSession sess) (fun e => (some (), e)) (.refused .invalidGrant [])
  let idt ← codeIdToken lib c info sess now
  pure (token, info.scope, idt)

/-- The refresh_token grant. -/
def refreshGrant (r : Req) (c : Client) (now : Int64) : Table Yield := do
  require r b!"refresh_token"
  let old ← Obtain (.findOAuthTokenByRefreshToken (r.formValue b!"refresh_token")) id (.refused .invalidGrant [])
  endIf (old.createdAt + old.refreshTokenExpiresIn < now) (.refused .invalidGrant b!"expired 'refresh_token'")
  let info ← Obtain (.findActiveAuthInfoById old.authId) id (.refused .invalidGrant [])
  endIf (info.clientId ≠ c.id) (.refused .invalidGrant [])
  endIf (¬ HasWord info.scope b!"offline_access") (.refused .invalidGrant [])
  let token ← Obtain (.refreshAccessToken info old) id (.refused .invalidGrant [])
  pure (token, info.scope, [])

/-- The client may ask for the scope itself. -/
def mayAskScope (r : Req) (c : Client) : Table Unit :=
  endIf (r.formValue b!"scope" ≠ [] ∧ c.canUseScope .directGrant (r.formValue b!"scope") = false)
    (.refused .invalidScope [])

/-- An authorization is created for the user, and a token for it. -/
def newToken (r : Req) (c : Client) (user : Int64) : Table Yield := do
  let info ← Obtain (.createOrUpdateAuthInfo user c.id (r.formValue b!"scope")) id (.refused .invalidGrant [])
  let token ← Obtain (.createOAuthToken (some info) true) id (.refused .invalidGrant [])
  pure (token, info.scope, [])

/-- The password grant. -/
def passwordGrant (r : Req) (c : Client) : Table Yield := do
  require r b!"username"
  require r b!"password"
  mayAskScope r c
  let user ← Obtain (.findUserId (r.formValue b!"username") (r.formValue b!"password")) (fun x => (some x.1, x.2))
    (.refused .invalidGrant [])
  newToken r c user

/-- The client_credentials grant. -/
def clientGrant (r : Req) (c : Client) : Table Yield := do
  endIf (c.ownerUserId.toInt < 0) (.refused .invalidGrant [])
  mayAskScope r c
  newToken r c c.ownerUserId

/-- The JWT bearer grant. -/
def jwtGrant (lib : Lib) (r : Req) (c : Client) : Table Yield := do
  require r b!"assertion"
  let tk ← find (fun tk => lib.jwtDecode (r.formValue b!"assertion") = some tk)
    (.refused .invalidGrant b!"invalid assertion format")
  endIf (¬ UsableAlg tk) (.refused .invalidGrant b!"assertion unverifiable")
  assertionOf lib c (r.formValue b!"assertion") tk
  let sub ← find (fun s => tk.claimStr b!"sub" = some s) (.refused .invalidRequest b!"'sub' parameter not found")
  let user ← Obtain (.findUserIdBySubject sub) (fun x => (some x.1, x.2))
    (.refused .invalidGrant (b!"invalid 'sub' parameter '" ++ sub ++ b!"' in assertion"))
  mayAskScope r c
  newToken r c user

/-- The grants of the library. -/
inductive GrantKind
  | code | refresh | password | client | jwt

/-- The function the application registers for a grant. -/
def GrantKind.handler (lib : Lib) : GrantKind → GrantFunc
  | .code => Grant.authorizationCode lib
  | .refresh => Grant.refreshToken
  | .password => Grant.password
  | .client => Grant.clientCredentials
  | .jwt => Grant.jwt lib

/-- The table of a grant, for the client `c` at the time `now`. -/
def grantTable (lib : Lib) (r : Req) (c : Client) (now : Int64) : GrantKind → Table Yield
  | .code => codeGrant lib r c now
  | .refresh => refreshGrant r c now
  | .password => passwordGrant r c
  | .client => clientGrant r c
  | .jwt => jwtGrant lib r c

/-- The table of the token endpoint, for a request whose grant type, if it is registered, is `kind`. -/
def tokenTable (cfg : TokenCfg) (lib : Lib) (r : Req) (kind : GrantKind) : Table Empty := do
  endIf (r.method ≠ b!"POST") .wrongMethod
  require r b!"grant_type"
  endIf (∀ h, ¬ Registered cfg r h) (.refused .unsupportedGrantType
    (b!"unsupported 'grant_type' parameter: '" ++ r.formValue b!"grant_type" ++ b!"'"))
  let c ← clientOf cfg lib r
  let now ← observe .now
  let y ← grantTable lib r c now kind
  reply (.granted y.1 y.2.1 y.2.2)

/-- The request is a POST for a registered grant, and its client was authenticated with these calls; the
clock said `now`. -/
structure Admitted (cfg : TokenCfg) (lib : Lib) (r : Req) (kind : GrantKind) (c : Client) (now : Int64) (calls : List Event) :
    Prop where
  post : r.method = b!"POST"
  grantType : r.formValue b!"grant_type" ≠ []
  registered : Registered cfg r (kind.handler lib)
  client : ∃ c1, clientOf cfg lib r c1 (.inl c) ∧ calls = c1 ++ [⟨.now, now⟩]

/-! ## What is observed -/

/-- The headers of every answer to a POST. -/
def tokenHeaders : Params :=
  [(b!"Cache-Control", b!"no-store"), (b!"Pragma", b!"no-cache"),
   (b!"Content-Type", b!"application/json; charset=UTF-8")]

/-- The body is an error object.  (A description or URI that is not valid UTF-8 is changed by JSON.) -/
def ErrorBody (cfg : TokenCfg) (code : OAuthErrorType) (desc : GoStr) (body : GoStr) : Prop :=
  ∃ d u, (d = [] ↔ desc = []) ∧ (ValidUtf8 desc → d = desc) ∧
    (u = [] ↔ errorURI cfg.errorURIBuilder code = []) ∧
    (ValidUtf8 (errorURI cfg.errorURIBuilder code) → u = errorURI cfg.errorURIBuilder code) ∧
    JsonText body (.obj (errorMembers code.string d u))

/-- The answer is this reply. -/
def Says (cfg : TokenCfg) (resp : HttpResp) : Reply → Prop
  | .refused code desc => resp.status = (if code = .serverError then 500 else 400) ∧
      resp.headers.Perm tokenHeaders ∧ ErrorBody cfg code desc resp.body
  | .challenged => resp.status = 401 ∧
      resp.headers.Perm ((b!"WWW-Authenticate", b!"Basic realm=\"" ++ cfg.realm ++ b!"\"") :: tokenHeaders) ∧
      ErrorBody cfg .invalidClient [] resp.body
  | .granted token scope idToken => resp.status = 200 ∧ resp.headers.Perm tokenHeaders ∧
      (ValidUtf8 token.accessToken → ValidUtf8 token.refreshToken → ValidUtf8 scope → ValidUtf8 idToken →
        ∃ lifetime, CanonicalDecimal lifetime token.accessTokenExpiresIn.toInt ∧
          JsonText resp.body (.obj (tokenMembers token.accessToken lifetime token.refreshToken scope idToken)))
  | .wrongMethod => resp.status = 405 ∧ resp.headers = [] ∧ resp.body = []
  | .crash => False

/-- The run `t` with outcome `o` made the calls `calls` and ended with the reply `e`, where `S` relates the
responses to the replies they express. -/
def RepliesBy (S : HttpResp → Reply → Prop) (t : List Event) (o : Outcome Unit) (calls : List Event) (e : Reply) : Prop :=
  (∃ resp, interactions t = calls ++ [wrote resp] ∧ o = .ok () ∧ S resp e) ∨
  (e = .crash ∧ interactions t = calls ∧ o = .panic)

/-- The run `t` with outcome `o` made the calls `calls` and ended with this reply. -/
def RepliesWith (cfg : TokenCfg) (t : List Event) (o : Outcome Unit) (calls : List Event) (e : Reply) : Prop :=
  RepliesBy (Says cfg) t o calls e

/-- The same reply, up to the value of the ID token (whose claims are a set, and not a list). -/
def Reply.Alike : Reply → Reply → Prop
  | .granted token scope _, .granted token' scope' _ => token = token' ∧ scope = scope'
  | e, e' => e = e'

end Goidc.Spec
