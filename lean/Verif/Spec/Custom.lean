import Verif.Spec.Grants

/-!
# Specification: grants of the application

`TokenEndpoint.Support` takes any handler.  What one does is up to the application (any function of the request, the client
and the time that may call the application's data interface and ends with a token response, an error or a panic).
-/

namespace Goidc.Spec

/-- Headers of an answer with a token or an error. -/
def plugHeaders : Params :=
  [(b!"Cache-Control", b!"no-store"), (b!"Pragma", b!"no-cache"), (b!"Content-Type", b!"application/json; charset=UTF-8")]

/-- The page that explains an error: the one the handler named, or the one the endpoint is configured with. -/
def errorPage (cfg : TokenCfg) (err : OAuthError) : GoStr :=
  if err.uri ≠ [] then err.uri else match cfg.errorURIBuilder with | some f => f err.type | none => []

/-- `t` and `o` are how the endpoint ends for the client `c` after the handler ended with `e`. -/
inductive EndsAs (cfg : TokenCfg) (gt : GoStr) (c : Client) : Outcome (Except OAuthError Response) → List Event → Outcome Unit → Prop
  | tokens {res} : EndsAs cfg gt c (.ok (.ok res))
      [logged ⟨.debug, b!"token_endpoint", gt, .accessTokenGranted, [(b!"client_id", c.id)]⟩, wrote ⟨200, plugHeaders, res.json⟩] (.ok ())
  | error {err} : EndsAs cfg gt c (.ok (.error err))
      [wrote ⟨err.type.statusCode, plugHeaders, OAuthError.json ⟨err.type, err.description, errorPage cfg err⟩⟩] (.ok ())
  | panic : EndsAs cfg gt c .panic [] .panic

/-- The client may use the grant type, if it authenticated with a secret (assertions: see C03). -/
def MayUse (cfg : TokenCfg) (r : Req) (c : Client) : Prop :=
  (∃ cid sec b, Presented cfg.acceptance r cid sec b) → c.canUseGrantType (r.formValue b!"grant_type") = true

end Goidc.Spec
