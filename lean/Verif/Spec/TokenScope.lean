import Verif.Spec.Origin
import Verif.Spec.Json
import Verif.Lemmas.TestStore

/-! # Specification: the scope an access token stands for -/

namespace Goidc.Spec

/-- In the calls `t`, the user `uid` was last authorized for the client `cid` with the scope `sc`. -/
def LastAuthorized (t : List Event) (uid : Int64) (cid sc : GoStr) : Prop :=
  ∃ a b rr, t = a ++ ⟨.createOrUpdateAuthInfo uid cid sc, rr⟩ :: b ∧
    ∀ sc' rr', ⟨.createOrUpdateAuthInfo uid cid sc', rr'⟩ ∉ b

/-- Over the reference store, an access token stands for the scope it was issued with: a protected request that presents it
is admitted with that scope. -/
def KeepsScope : Prop :=
  ∀ (users : List TestUser) (clients : List Client) (ths : Nat → Thread) (g : List (Nat × Event)) (s : StoreState) (i j : Nat)
    (cfg : TokenCfg) (lib : Lib) (r : Req) (resp : HttpResp) (res : Response) (pcfg : ProtectorCfg) (plib : Lib) (pr pr' : Req),
    (∀ k, Endpoint (ths k)) → Interleaves ths g → ContinuesShown g → StoreRun (StoreState.init users clients) (g.map (·.2)) s →
    ths i = ⟨TokenEndpoint.handler cfg lib r⟩ → AllBuiltIn lib cfg → (i, wrote resp) ∈ g → resp.status = 200 →
    resp.body = Response.json res → (∀ k e tk, (k, e) ∈ g → Issues tk e → tk.accessToken = res.accessToken → k = i) →
    Runs (ResourceProtector.validate pcfg plib pr) (callsOf j g) (.ok (true, pr')) →
    BearerToken pcfg.acceptance pr res.accessToken → headerValues pr' b!"X-OAUTH-SCOPE" = [res.scope]

end Goidc.Spec
