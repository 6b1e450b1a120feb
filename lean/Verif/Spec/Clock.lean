import Verif.Model.TestStore

/-! # The reference store and the clock -/

namespace Goidc.Spec

/-- `ClockRun s lo t hi s'`: the reference store answers the calls `t` from state `s` to state `s'` while the clock, which
never goes backwards, runs from `lo` to `hi`.  All the readings of the clock — by the endpoints and by the store — are
readings of this one clock. -/
inductive ClockRun : StoreState → Int64 → List Event → Int64 → StoreState → Prop
  | nil {s lo hi} : lo ≤ hi → ClockRun s lo [] hi s
  | cons {s lo n1 n2 e s' t hi s''} : lo ≤ n1 → n1 ≤ n2 → s.stepAt n1 n2 e.q e.r s' → ClockRun s' n2 t hi s'' →
      ClockRun s lo (e :: t) hi s''

/-- In the calls `g`, no new token with the refresh token `rt` is made. -/
def NoNewRefreshToken (g : List (Nat × Event)) (rt : GoStr) : Prop :=
  ∀ k info b (tk : OAuthToken), (k, ⟨.createOAuthToken info b, (some tk, none)⟩) ∈ g → tk.refreshToken ≠ rt

end Goidc.Spec
