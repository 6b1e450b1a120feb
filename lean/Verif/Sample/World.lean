import Verif.Lemmas.Exec
import Verif.Model.AuthorizationEndpoint
import Verif.Model.TokenEndpoint
import Verif.Model.ResourceProtector

/-!
# A concrete outside world

Used only to show that the hypotheses of theorems are met by actual runs, and to refute properties
that do not hold.
-/

namespace Goidc.Sample

/-- A token whose decoded form is fixed. -/
def jwt : JwtToken where
  raw := b!"tok"
  alg := some b!"HS256"
  kid := some b!"k1"
  claims := [(b!"sub", .str b!"client"), (b!"aud", .str b!"https://issuer"), (b!"exp", .float 2000),
    (b!"jti", .str b!"j1")]

/-- A library that decodes exactly `tok` and accepts signatures under the key `key`. -/
def lib : Lib where
  sha256 _ := List.replicate 32 7
  sha384 _ := List.replicate 48 7
  sha512 _ := List.replicate 64 7
  sha256_length _ := by simp
  sha384_length _ := by simp
  sha512_length _ := by simp
  isPrint _ := true
  urlParseOk _ := true
  jwtDecode s := if s = b!"tok" then some jwt else none
  jwtDecode_raw s t h := by
    split at h
    · rename_i hs; cases h; exact hs.symm
    · cases h
  sigOk _ _ k := k = b!"key"
  sign _ _ _ _ := b!"signed"
  signOk _ _ := true

/-- A client that may do everything but use the grant type `forbidden`. -/
def client : Client where
  id := b!"client"
  ownerUserId := 5
  idTokenAlg := b!"HS256"
  idTokenKeyId := b!"k1"
  idTokenKey := some (.bytes b!"key")
  matchSecret s := s = b!"secret"
  canUseFlow _ := true
  canUseGrantType gt := gt ≠ b!"forbidden"
  canUseScope _ s := s ≠ b!"admin"
  canUseRedirectURI u := u = b!"https://app/cb"
  assertionKey _ _ := some (.bytes b!"key")
  noConsentPromptPolicy := .omitConsentIfCan
  nonePromptPolicy := .allowWithLoginSession

def info : AuthInfo where
  id := 11
  clientId := b!"client"
  userId := 5
  subject := b!"subject"
  scope := b!"openid offline_access"
  authorizedAt := 900
  isActive := true

def session : AuthSession where
  code := b!"code"
  authId := 11
  authTime := 800
  idTokenExpiresIn := 600
  redirectURI := b!"https://app/cb"
  codeVerifier := b!"verifier"
  expiresIn := 300
  nonce := b!"nonce"
  createdAt := 950

def token : OAuthToken where
  authId := 11
  accessToken := b!"at"
  accessTokenExpiresIn := 3600
  refreshedAt := 950
  refreshToken := b!"rt"
  refreshTokenExpiresIn := 7200
  createdAt := 950

/-- The answers of the sample world. -/
structure World where
  client : Option Client × Option ErrType := (some Sample.client, none)
  session : Option AuthSession × Option ErrType := (some Sample.session, none)
  info : Option AuthInfo × Option ErrType := (some Sample.info, none)
  foundToken : Option OAuthToken × Option ErrType := (some Sample.token, none)
  newToken : Option OAuthToken × Option ErrType := (some Sample.token, none)
  newInfo : Option AuthInfo × Option ErrType := (some Sample.info, none)
  user : Int64 × Option ErrType := (5, none)
  disable : Option ErrType := none
  record : Option ErrType := none
  storeSession : Option ErrType := none
  now : Int64 := 1000
  issuer : GoStr := b!"https://issuer"
  showLogin : Bool := true
  showConsent : Bool := true
  loggedIn : Option Bool := some true
  fromLogin : Option Bool := some false
  authTime : Option Int64 := some 800
  loginUser : Option Int64 := some 5
  newCode : Option GoStr := some b!"code"
  continued : Option (Option Request) := none
  subjectMatches : Option Bool := some true

/-- How the sample world answers. -/
def World.answer (w : World) : (q : Query) → q.Resp
  | .issuer => w.issuer
  | .findClientById _ => w.client
  | .findAuthSessionByCode _ => w.session
  | .findActiveAuthInfoById _ => w.info
  | .findAuthInfoByUserIdAndClientId _ _ => w.info
  | .findOAuthTokenByAccessToken _ => w.foundToken
  | .findOAuthTokenByRefreshToken _ => w.foundToken
  | .createOAuthToken _ _ => w.newToken
  | .refreshAccessToken _ _ => w.newToken
  | .findUserId _ _ => w.user
  | .createOrUpdateAuthInfo _ _ _ => w.newInfo
  | .createAuthSession _ _ => w.storeSession
  | .disableSession _ => w.disable
  | .findUserIdBySubject _ => w.user
  | .recordAssertionClaims _ _ _ _ => w.record
  | .showErrorScreen _ => ()
  | .showLoginScreen _ => w.showLogin
  | .showConsentScreen _ _ => w.showConsent
  | .chooseLocale l => some l
  | .confirmLoginSession => w.loggedIn
  | .requestIsFromLogin => w.fromLogin
  | .getAuthTime => w.authTime
  | .getLoginUserId => w.loginUser
  | .createAuthorizationCode => w.newCode
  | .continue_ => w.continued
  | .loginUserIsMatchedToSubject _ => w.subjectMatches
  | .now => w.now
  | .wallNow => w.now
  | .log _ => ()
  | .write _ => ()
  | .mapRange m => ⟨m, List.Perm.refl _⟩

/-- Run a program in the sample world. -/
def World.run {α : Type} (w : World) (p : Prog α) : List Event × Outcome α × Unit :=
  exec (pureWorld w.answer) p ()

/-- The status of the response the run ends with. -/
def World.status {α : Type} (w : World) (p : Prog α) : Option Nat :=
  (lastWrite (w.run p).1).map (·.status)

theorem World.runs {α : Type} (w : World) (p : Prog α) : Runs p (w.run p).1 (w.run p).2.1 := exec_runs ..

theorem World.steps {α : Type} {w : World} {p : Prog α} {n : Nat} (h : w.status p = some n) :
    ∃ pre resp, Steps p (pre ++ [wrote resp]) ∧ resp.status = n := exec_status h

/-- The five built-in grants, registered under their names. -/
def tokenCfg : TokenCfg where
  realm := b!"realm"
  handlers := [(Grant.typeAuthorizationCode, Grant.authorizationCode lib),
    (Grant.typeRefreshToken, Grant.refreshToken), (Grant.typePassword, Grant.password),
    (Grant.typeClientCredentials, Grant.clientCredentials), (Grant.typeJWT, Grant.jwt lib)]
  errorURIBuilder := none
  acceptance := .fromHeader
  acceptClientAssertion := true

/-- "client:secret" in Basic form. -/
def basic : GoStr × GoStr := (b!"Authorization", b!"Basic Y2xpZW50OnNlY3JldA==")

/-- A POST to the token endpoint with the client's credentials in the header. -/
def post (body : Params) : Req where
  method := b!"POST"
  path := b!"/token"
  headers := [basic]
  body := body
  query := []

/-- A POST authenticated by a client assertion. -/
def postAssertion (a : GoStr) (body : Params) : Req where
  method := b!"POST"
  path := b!"/token"
  headers := []
  body := (b!"client_assertion", a) ::
    (b!"client_assertion_type", b!"urn:ietf:params:oauth:client-assertion-type:jwt-bearer") :: body
  query := []

/-- A code exchange with a correct plain PKCE challenge. -/
def codeBody : Params :=
  [(b!"grant_type", b!"authorization_code"), (b!"code", b!"code"), (b!"redirect_uri", b!"https://app/cb"),
   (b!"code_challenge_method", b!"plain"), (b!"code_challenge", b!"verifier")]

def refreshBody : Params := [(b!"grant_type", b!"refresh_token"), (b!"refresh_token", b!"rt")]

def passwordBody : Params :=
  [(b!"grant_type", b!"password"), (b!"username", b!"u"), (b!"password", b!"p"), (b!"scope", b!"openid")]

def ccBody : Params := [(b!"grant_type", b!"client_credentials"), (b!"scope", b!"openid")]

def jwtBody : Params := [(b!"grant_type", Grant.typeJWT), (b!"assertion", b!"tok"), (b!"scope", b!"openid")]

example : ({} : World).status (TokenEndpoint.handler tokenCfg lib (post codeBody)) = some 200 := by decide +kernel
example : ({} : World).status (TokenEndpoint.handler tokenCfg lib (post refreshBody)) = some 200 := by decide +kernel
example : ({} : World).status (TokenEndpoint.handler tokenCfg lib (post passwordBody)) = some 200 := by decide +kernel
example : ({} : World).status (TokenEndpoint.handler tokenCfg lib (post ccBody)) = some 200 := by decide +kernel
example : ({} : World).status (TokenEndpoint.handler tokenCfg lib (post jwtBody)) = some 200 := by decide +kernel
example : ({} : World).status (TokenEndpoint.handler tokenCfg lib (postAssertion b!"tok" ccBody)) = some 200 := by
  decide +kernel

end Goidc.Sample
