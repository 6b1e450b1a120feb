import Verif.Spec.TokenEndpoint
import Verif.Spec.Jwt

/-! # Specification: the same history with one fact about the world replaced -/

namespace Goidc.Spec

/-- A session with another time of creation and another lifetime. -/
def relifed (created lifetime : Int64) (s : AuthSession) : AuthSession :=
  { s with createdAt := created, expiresIn := lifetime }

/-- The same event, the session of an authorization code having been created at another time and with another
lifetime. -/
def withLifetime (created lifetime : Int64) : Event → Event
  | ⟨.findAuthSessionByCode c, (some s, e)⟩ => ⟨.findAuthSessionByCode c, (some (relifed created lifetime s), e)⟩
  | ⟨.disableSession s, e⟩ => ⟨.disableSession (relifed created lifetime s), e⟩
  | e => e

/-- The same event, the clients found being allowed other grant types. -/
def withGrantTypes (g : GoStr → Bool) : Event → Event
  | ⟨.findClientById cid, (some c, e)⟩ => ⟨.findClientById cid, (some { c with canUseGrantType := g }, e)⟩
  | e => e

/-- The same event, the clock of the JWT library showing another time. -/
def withClock (w : Int64) : Event → Event
  | ⟨.wallNow, _⟩ => ⟨.wallNow, w⟩
  | e => e

/-- Each of the times in the token is absent or 0. -/
def Undated (tk : JwtToken) : Prop :=
  ∀ n ∈ [b!"exp", b!"iat", b!"nbf"], ∀ v, tk.claim n = some v → IsTime v 0

end Goidc.Spec
