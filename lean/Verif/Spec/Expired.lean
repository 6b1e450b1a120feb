import Verif.Spec.Concurrency

/-! # What has expired -/

namespace Goidc.Spec

/-- The clock never goes back from one reading to the next, whoever reads it. -/
def ClockForward (g : List (Nat × Event)) : Prop :=
  ∀ a b c i j n m, g = a ++ (i, ⟨.now, n⟩) :: (b ++ (j, ⟨.now, m⟩) :: c) → n ≤ m

/-- The access token of this record had expired when the clock said `now`. -/
def AccessExpired (t : OAuthToken) (now : Int64) : Prop := t.refreshedAt + t.accessTokenExpiresIn < now

/-- The refresh token of this record had expired when the clock said `now`. -/
def RefreshExpired (t : OAuthToken) (now : Int64) : Prop := t.createdAt + t.refreshTokenExpiresIn < now

end Goidc.Spec
