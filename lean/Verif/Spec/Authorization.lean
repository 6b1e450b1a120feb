import Verif.Spec.FrontChannel
import Verif.Spec.Words
import Verif.Spec.Encoding
import Verif.Spec.Grants

/-! # Vocabulary for the properties of the authorization endpoint -/

namespace Goidc.Spec

/-- The application returned `clnt` for the request's `client_id`.  (`FindClientById` may return an
error besides the client; only kinds outside the three documented ones are ignored by goidc.) -/
def FoundClient (r : Req) (clnt : Client) (t : List Event) : Prop :=
  ∃ e : Option ErrType, (e = none ∨ ∃ n, e = some (.other n)) ∧
    ⟨.findClientById (r.formValue b!"client_id"), (some clnt, e)⟩ ∈ t

/-- The values a parameter list has for a name. -/
def valuesOf (ps : Params) (k : GoStr) : List GoStr := (ps.filter fun kv => kv.1 == k).map fun kv => kv.2

/-- How well a channel hides its parameters. -/
def strength : Channel → Nat
  | .query => 0
  | .fragment => 1
  | .form => 2

/-- An earlier consent covers the request: the authorization `info` the application has for the login
user and this client is active, has the same scope tokens in some order, and is younger than the
policy's omission period. -/
def Consented (policy : Policy) (clientId scope : GoStr) (info : AuthInfo) (t : List Event) : Prop :=
  ∃ uid now, ⟨.getLoginUserId, some uid⟩ ∈ t ∧
    ⟨.findAuthInfoByUserIdAndClientId uid clientId, (some info, none)⟩ ∈ t ∧
    info.isActive = true ∧
    (∀ ws wt, Words info.scope ws → Words scope wt → ws.Perm wt) ∧
    ⟨.now, now⟩ ∈ t ∧ (0 ≤ policy.consentOmissionPeriod.toInt →
      now.toInt < info.authorizedAt.toInt + policy.consentOmissionPeriod.toInt)

/-- The scope goidc works with: the requested one, minus every `offline_access` token when the flow is
implicit or the prompt has no `consent`. -/
def EffectiveScope (flow : FlowType) (prompt requested effective : GoStr) : Prop :=
  ∀ ws ps, Words requested ws → Words prompt ps →
    if b!"offline_access" ∈ ws ∧ (flow = .implicit ∨ b!"consent" ∉ ps) then
      let rest := ws.filter fun w => decide (w ≠ b!"offline_access")
      (rest ≠ [] ∧ Words effective rest) ∨ (rest = [] ∧ effective = [])
    else effective = requested

/-- An ID token hint verified under the client's ID token key and unexpired, with subject `sub`. -/
def VerifiedHint (lib : Lib) (clnt : Client) (hint sub : GoStr) (t : List Event) : Prop :=
  ∃ tk key now, lib.jwtDecode hint = some tk ∧ clnt.idTokenKey = some key ∧
    SignatureOk lib (tk.alg.getD []) hint key ∧
    ⟨.wallNow, now⟩ ∈ t ∧ NotExpired now (tk.claim b!"exp") ∧ tk.claimStr b!"sub" = some sub

/-- What each client policy requires of a `prompt=none` request. -/
def SilentlyAllowed (lib : Lib) (r : Req) (clnt : Client) (t : List Event) : Prop :=
  match clnt.nonePromptPolicy with
  | .forbidden => False
  | .allowWithLoginSession => ⟨.confirmLoginSession, some true⟩ ∈ t
  | .allowIfLoginHintMatched => ⟨.confirmLoginSession, some true⟩ ∈ t ∧ r.formValue b!"login_hint" ≠ [] ∧
      ⟨.loginUserIsMatchedToSubject (r.formValue b!"login_hint"), some true⟩ ∈ t
  | .allowIfIdTokenHintMatched => ∃ sub, VerifiedHint lib clnt (r.formValue b!"id_token_hint") sub t ∧
      ⟨.loginUserIsMatchedToSubject sub, some true⟩ ∈ t
  | .other => False

/-- A separator followed by an optional part of a URL. -/
def urlPart (sep : UInt8) : Option GoStr → GoStr
  | none => []
  | some s => sep :: s

/-- A URL cut into what precedes the query and fragment, the query and the fragment (RFC 3986): the
fragment starts at the first `#`, the query at the first `?` before it. -/
def UrlParts (u base : GoStr) (query fragment : Option GoStr) : Prop :=
  63 ∉ base ∧ 35 ∉ base ∧ (∀ q, query = some q → 35 ∉ q) ∧
  u = base ++ urlPart 63 query ++ urlPart 35 fragment

/-- The request object handed to the application (login and consent screens). -/
def Handed (t : List Event) (req : Request) : Prop :=
  (∃ b, ⟨.showLoginScreen req, b⟩ ∈ t) ∨ ∃ c b, ⟨.showConsentScreen c req, b⟩ ∈ t

/-- The value of `at_hash` and `c_hash`: the left half of the SHA-2 digest named by the last three
characters of the signing algorithm, in padded standard base64.  (OpenID Connect asks for unpadded
base64url, see C65.) -/
def LeftHalfHash (lib : Lib) (alg tok h : GoStr) : Prop :=
  (∃ p, alg = p ++ b!"256" ∧ h = base64 ((lib.sha256 tok).take 16)) ∨
  (∃ p, alg = p ++ b!"384" ∧ h = base64 ((lib.sha384 tok).take 24)) ∨
  (∃ p, alg = p ++ b!"512" ∧ h = base64 ((lib.sha512 tok).take 32))

/-- The claims of an ID token delivered through the browser next to the access tokens `ats` and codes
`cs` (none or one each): those of the code flow, `at_hash` for a non-empty access token, `c_hash` for a
code. -/
def FrontIdTokenClaims (lib : Lib) (alg iss aud sub nonce : GoStr) (exp iat authTime : Int64) (ats cs : List GoStr)
    (k : GoStr) (v : JVal) : Prop :=
  CodeIdTokenClaims iss aud sub nonce exp iat authTime k v ∨
  (k = b!"at_hash" ∧ ∃ a h, ats = [a] ∧ a ≠ [] ∧ LeftHalfHash lib alg a h ∧ v = .str h) ∨
  (k = b!"c_hash" ∧ ∃ c h, cs = [c] ∧ LeftHalfHash lib alg c h ∧ v = .str h)

/-- Something the user or the browser sees: a screen or a response. -/
def isVisible : Query → Bool
  | .showErrorScreen _ | .showLoginScreen _ | .showConsentScreen _ _ | .write _ => true
  | _ => false

/-- A login or consent screen callback that reported an error. -/
def ScreenFailed (e : Event) : Prop :=
  (∃ req, e = ⟨.showLoginScreen req, false⟩) ∨ ∃ c req, e = ⟨.showConsentScreen c req, false⟩

/-- A call that creates a code, a token or a session. -/
def createsGrant : Query → Bool
  | .createAuthorizationCode | .createOAuthToken _ _ | .createAuthSession _ _ => true
  | _ => false

/-- The authorization the application has on record for a created code session or token. -/
def grantOwner : Query → Option (Option AuthInfo)
  | .createOAuthToken i _ => some i
  | .createAuthSession i _ => some i
  | _ => none

end Goidc.Spec
