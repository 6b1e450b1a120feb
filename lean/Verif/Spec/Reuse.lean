import Verif.Spec.TokenScope

/-!
# Specification: a code that is used twice

RFC 6749, 4.1.2: "If an authorization code is used more than once, the authorization server MUST deny the request and SHOULD
revoke (when possible) all tokens previously issued based on that authorization code."
-/

namespace Goidc.Spec

/-- Over the reference store: once a code was presented again (by a request `k` that is refused), the access token issued for it
(to the request `i`) admits no later request `j`. -/
def ReuseRevokes : Prop :=
  ∀ (users : List TestUser) (clients : List Client) (ths : Nat → Thread) (g1 g2 g3 : List (Nat × Event)) (s : StoreState) (i j k : Nat)
    (cfg : TokenCfg) (lib : Lib) (r r' : Req) (resp resp' : HttpResp) (res : Response) (pcfg : ProtectorCfg) (plib : Lib) (pr pr' : Req),
    (∀ k, Endpoint (ths k)) → Interleaves ths (g1 ++ g2 ++ g3) → ContinuesShown (g1 ++ g2 ++ g3) →
    StoreRun (StoreState.init users clients) ((g1 ++ g2 ++ g3).map (·.2)) s → AllBuiltIn lib cfg →
    Registered cfg r (Grant.authorizationCode lib) → Registered cfg r' (Grant.authorizationCode lib) →
    r'.formValue b!"code" = r.formValue b!"code" →
    ths i = ⟨TokenEndpoint.handler cfg lib r⟩ → (i, wrote resp) ∈ g1 → resp.status = 200 → resp.body = Response.json res →
    ths k = ⟨TokenEndpoint.handler cfg lib r'⟩ → (k, wrote resp') ∈ g2 → resp'.status = 400 →
    (∀ e, (j, e) ∉ g1 ++ g2) → BearerToken pcfg.acceptance pr res.accessToken →
    ¬ Runs (ResourceProtector.validate pcfg plib pr) (callsOf j g3) (.ok (true, pr'))

end Goidc.Spec
