import Verif.Spec.TokenDecision
import Verif.Spec.Concurrency

/-! # Requests that follow one another -/

namespace Goidc.Spec

/-- `r` is a POST for the grant `kind`, sent by the client `c` with its secret; the client may use the
grant. -/
structure RequestOf (cfg : TokenCfg) (lib : Lib) (r : Req) (kind : GrantKind) (c : Client) : Prop where
  post : r.method = b!"POST"
  grantType : r.formValue b!"grant_type" ≠ []
  registered : Registered cfg r (kind.handler lib)
  secret : ∃ sec b, Presented cfg.acceptance r c.id sec b ∧ c.matchSecret sec = true
  allowed : c.canUseGrantType (r.formValue b!"grant_type") = true

/-- `c` is the client of the list with its id. -/
def TheClient (clients : List Client) (c : Client) : Prop := c ∈ clients ∧ ∀ c' ∈ clients, c'.id = c.id → c' = c

/-- From some moment on (the calls `g`), every authorization of the user for the client asks for the
scope `sc`. -/
def OnlyAuthorized (g : List (Nat × Event)) (user : Int64) (clientId sc : GoStr) : Prop :=
  ∀ k sc' rr, (k, ⟨.createOrUpdateAuthInfo user clientId sc', rr⟩) ∈ g → sc' = sc

/-- Only request `j` spends the code. -/
def OnlySpentBy (g : List (Nat × Event)) (code : GoStr) (j : Nat) : Prop :=
  ∀ k x rr, (k, ⟨.disableSession x, rr⟩) ∈ g → x.code = code → k = j

/-- In the calls `g`, every new token of the authorization `id` is for the scope `sc`. -/
def OnlyTokens (g : List (Nat × Event)) (id : Int64) (sc : GoStr) : Prop :=
  ∀ k (info : AuthInfo) b rr, (k, ⟨.createOAuthToken (some info) b, rr⟩) ∈ g → info.id = id → info.scope = sc

/-- In the calls `g`, only the requests `i` and `j` refresh a token of the authorization `id`. -/
def OnlyRefreshedBy (g : List (Nat × Event)) (id : Int64) (i j : Nat) : Prop :=
  ∀ k info old (tk : OAuthToken), (k, ⟨.refreshAccessToken info old, (some tk, none)⟩) ∈ g → tk.authId = id → k = i ∨ k = j

/-- No token found in `t` under the refresh token `k` has expired at the time seen in `t`. -/
def RefreshNotExpired (t : List Event) (k : GoStr) : Prop :=
  ∀ (old : OAuthToken) now, ⟨.findOAuthTokenByRefreshToken k, (some old, none)⟩ ∈ t → ⟨.now, now⟩ ∈ t →
    ¬ (old.createdAt + old.refreshTokenExpiresIn < now)

/-- In the calls `g`, the access token `a` is not replaced by a refreshed one. -/
def NotRefreshed (g : List (Nat × Event)) (a : GoStr) : Prop :=
  ∀ k info (old : OAuthToken) rr, (k, ⟨.refreshAccessToken info old, rr⟩) ∈ g → old.accessToken ≠ a

/-- No token found in `t` under the access token `k` has expired at the time seen in `t`. -/
def AccessNotExpired (t : List Event) (k : GoStr) : Prop :=
  ∀ (tk : OAuthToken) now, ⟨.findOAuthTokenByAccessToken k, (some tk, none)⟩ ∈ t → ⟨.now, now⟩ ∈ t →
    ¬ (tk.refreshedAt + tk.accessTokenExpiresIn < now)

end Goidc.Spec
