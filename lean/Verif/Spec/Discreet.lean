import Verif.Spec.TokenDecision

/-! # Refusals that do not tell why

A client that guesses codes or tokens must not learn from the answer which of its guesses exist.  So the
answers to the guesses have to be the same, byte by byte. -/

namespace Goidc.Spec

/-- Two runs made the calls `calls` and `calls'`, and were then answered with one and the same response: the
same status, the same headers and the same body. -/
def AnsweredAlike (t calls t' calls' : List Event) : Prop :=
  ∃ resp, interactions t = calls ++ [wrote resp] ∧ interactions t' = calls' ++ [wrote resp]

/-- Why a client is not authenticated by the secret `sec` presented for `cid`: the calls that tell. -/
inductive ClientUnusable (cid sec : GoStr) : List Event → Prop
  /-- there is no such client -/
  | unknown {v} : ClientUnusable cid sec [⟨.findClientById cid, (v, some .failed)⟩]
  /-- the secret is wrong -/
  | wrongSecret {c : Client} : c.matchSecret sec = false → ClientUnusable cid sec [⟨.findClientById cid, (some c, none)⟩]

/-- Why the client `c` cannot use the code `code`: the calls that tell. -/
inductive CodeUnusable (c : Client) (code : GoStr) : List Event → Prop
  /-- there is no such code -/
  | unknown {v} : CodeUnusable c code [⟨.findAuthSessionByCode code, (v, some .failed)⟩]
  /-- there is, but its authorization is gone -/
  | revoked {sess : AuthSession} {v} : CodeUnusable c code
      [⟨.findAuthSessionByCode code, (some sess, none)⟩, ⟨.findActiveAuthInfoById sess.authId, (v, some .failed)⟩]
  /-- it belongs to another client -/
  | foreign {sess : AuthSession} {info : AuthInfo} : info.clientId ≠ c.id → CodeUnusable c code
      [⟨.findAuthSessionByCode code, (some sess, none)⟩, ⟨.findActiveAuthInfoById sess.authId, (some info, none)⟩]

/-- Why the client `c` cannot use the refresh token `tok` at the time `now`, other than that it has expired:
the calls that tell. -/
inductive RefreshUnusable (c : Client) (now : Int64) (tok : GoStr) : List Event → Prop
  /-- there is no such token -/
  | unknown {v} : RefreshUnusable c now tok [⟨.findOAuthTokenByRefreshToken tok, (v, some .failed)⟩]
  /-- there is, but its authorization is gone -/
  | revoked {old : OAuthToken} {v} : ¬ old.createdAt + old.refreshTokenExpiresIn < now → RefreshUnusable c now tok
      [⟨.findOAuthTokenByRefreshToken tok, (some old, none)⟩, ⟨.findActiveAuthInfoById old.authId, (v, some .failed)⟩]
  /-- it belongs to another client, or does not allow refreshing -/
  | foreign {old : OAuthToken} {info : AuthInfo} : ¬ old.createdAt + old.refreshTokenExpiresIn < now →
      info.clientId ≠ c.id ∨ ¬ HasWord info.scope b!"offline_access" → RefreshUnusable c now tok
      [⟨.findOAuthTokenByRefreshToken tok, (some old, none)⟩, ⟨.findActiveAuthInfoById old.authId, (some info, none)⟩]

/-- Why an access token is not accepted at a resource, other than that it has expired: the calls that tell. -/
inductive TokenUnusable (tok : GoStr) : List Event → Prop
  /-- there is no such token -/
  | unknown {v} : TokenUnusable tok [⟨.findOAuthTokenByAccessToken tok, (v, some .failed)⟩]
  /-- there is, but its authorization is gone -/
  | revoked {tk : OAuthToken} {now : Int64} {v} : ¬ tk.refreshedAt + tk.accessTokenExpiresIn < now →
      TokenUnusable tok [⟨.findOAuthTokenByAccessToken tok, (some tk, none)⟩, ⟨.now, now⟩,
        ⟨.findActiveAuthInfoById tk.authId, (v, some .failed)⟩]

end Goidc.Spec
