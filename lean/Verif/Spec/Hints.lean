import Verif.Spec.Ignored
import Verif.Spec.Authorization

/-!
# Specification: what the answer to an authorization request depends on

The application keeps the request between `HandleRequest` and `CompleteRequest`.  Here: what it means that two histories
differ in parts of that request only, and what OpenID Connect asks of `id_token_hint`, `login_hint` and `max_age`.
-/

namespace Goidc.Spec

/-- The two requests agree in everything an answer is made of: flow, client, redirect URI, scope, response mode, state,
nonce and code verifier.  They may differ in `prompt`, `max_age`, `display`, the locale and the hints. -/
structure SameAnswer (q q' : Request) : Prop where
  flow : q'.flow = q.flow
  clientId : q'.clientId = q.clientId
  redirectURI : q'.redirectURI = q.redirectURI
  scope : q'.scope = q.scope
  responseMode : q'.responseMode = q.responseMode
  state : q'.state = q.state
  nonce : q'.nonce = q.nonce
  codeVerifier : q'.codeVerifier = q.codeVerifier

/-- The same event with the request changed by `m`, wherever the application gives or receives a request. -/
def recast (m : Request → Request) : Event → Event
  | ⟨.showLoginScreen q, x⟩ => ⟨.showLoginScreen (m q), x⟩
  | ⟨.showConsentScreen c q, x⟩ => ⟨.showConsentScreen c (m q), x⟩
  | ⟨.continue_, some (some q)⟩ => ⟨.continue_, some (some (m q))⟩
  | e => e

/-- The parameters of the authorization endpoint other than the hints. -/
def unhintedNames : List GoStr := authorizationParamNames.filter fun n => n ≠ b!"id_token_hint" ∧ n ≠ b!"login_hint"

/-- The request with other hints. -/
def rehinted (idTokenHint loginHint : GoStr) (q : Request) : Request :=
  { q with idTokenHint := idTokenHint, loginHint := loginHint }

/-- OpenID Connect Core 3.1.2.1: a request whose `id_token_hint` is a token about the subject `sub` is answered positively
only if the logged-in user is that subject, which the application was asked. -/
def HintHonoured (lib : Lib) (hint : GoStr) (t : List Event) : Prop :=
  ∀ tkn sub, lib.jwtDecode hint = some tkn → tkn.claimStr b!"sub" = some sub →
    ⟨.loginUserIsMatchedToSubject sub, some true⟩ ∈ t

/-- OpenID Connect Core 3.1.2.1: at the time of a positive answer to a request with `max_age` the login is at most that
old, as far as the run tells the times of both. -/
def AgeHonoured (maxAge : Int64) (t : List Event) : Prop :=
  0 < maxAge.toInt → ∀ login now, ⟨.getAuthTime, some login⟩ ∈ t → ⟨.now, now⟩ ∈ t → now.toInt - login.toInt ≤ maxAge.toInt

end Goidc.Spec
