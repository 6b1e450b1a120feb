import Verif.Spec.Origin
import Verif.Model.TestStore

/-! # Whose data a request changes -/

namespace Goidc.Spec

/-- The changing call `q`, made by request `k` after the calls `a`, concerns data of the client `cid` (an
authorization of the user `uid`, or a session or token of one; for the claims of an assertion there is no
user). -/
inductive Concerns (a : List (Nat × Event)) (k : Nat) : Query → Int64 → GoStr → Prop
  | record (uid cid sc) : Concerns a k (.createOrUpdateAuthInfo uid cid sc) uid cid
  | session (i : AuthInfo) (x) : Concerns a k (.createAuthSession (some i) x) i.userId i.clientId
  | token (i : AuthInfo) (b) : Concerns a k (.createOAuthToken (some i) b) i.userId i.clientId
  | refresh (i : AuthInfo) (old) : i.id = old.authId → Concerns a k (.refreshAccessToken i old) i.userId i.clientId
  | spend (sess i) : (k, ⟨.findActiveAuthInfoById sess.authId, (some i, none)⟩) ∈ a →
      Concerns a k (.disableSession sess) i.userId i.clientId
  | claims (uid cid jti iat exp) : Concerns a k (.recordAssertionClaims cid jti iat exp) uid cid

/-- The application never answers that it recorded an authorization and returns none. -/
def NoNilAuthorization (g : List (Nat × Event)) : Prop :=
  ∀ k uid cid sc, (k, ⟨.createOrUpdateAuthInfo uid cid sc, (none, none)⟩) ∉ g

/-- The authorization `id` is one of the client `d`. -/
def OfClient (s : StoreState) (id : Int64) (d : GoStr) : Prop := ∃ i, s.info id = some i ∧ i.clientId = d

/-- The store holds the same data for the client `d` in `s` and `s'`: the same authorizations, and the same
sessions and access tokens of these. -/
structure SameFor (d : GoStr) (s s' : StoreState) : Prop where
  authorizations : ∀ i : AuthInfo, i.clientId = d → (s.info i.id = some i ↔ s'.info i.id = some i)
  sessions : ∀ x : AuthSession, (s.session x.code = some x ∧ OfClient s x.authId d) ↔
    (s'.session x.code = some x ∧ OfClient s' x.authId d)
  tokens : ∀ t : OAuthToken, (s.token t.accessToken = some t ∧ OfClient s t.authId d) ↔
    (s'.token t.accessToken = some t ∧ OfClient s' t.authId d)

end Goidc.Spec
