import Verif.Spec.Concurrency

/-! # Authorizations that were revoked -/

namespace Goidc.Spec

/-- In this part of the history the application does not show the authorization as active. -/
def Revoked (b : List (Nat × Event)) (id : Int64) : Prop :=
  ∀ k info, (k, ⟨.findActiveAuthInfoById id, (some info, none)⟩) ∉ b

/-- The application answered a code, a refresh token or an access token with a record of the authorization `id`. -/
inductive BelongsTo (id : Int64) : Event → Prop
  | code (code : GoStr) (s : AuthSession) : s.authId = id → BelongsTo id ⟨.findAuthSessionByCode code, (some s, none)⟩
  | refresh (tok : GoStr) (t : OAuthToken) : t.authId = id → BelongsTo id ⟨.findOAuthTokenByRefreshToken tok, (some t, none)⟩
  | access (tok : GoStr) (t : OAuthToken) : t.authId = id → BelongsTo id ⟨.findOAuthTokenByAccessToken tok, (some t, none)⟩

end Goidc.Spec
