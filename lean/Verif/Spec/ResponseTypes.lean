import Verif.Spec.Words
import Verif.Model.Flow

/-! # Specification: the response types -/

namespace Goidc.Spec

/-- The OpenID Connect response types: their tokens, and the flow (with whether an access token and
an ID token come from the authorization endpoint). -/
def responseTypes : List (List GoStr × Flow) :=
  [([b!"code"], ⟨.authorizationCode, false, false⟩),
   ([b!"code", b!"id_token"], ⟨.hybrid, false, true⟩),
   ([b!"code", b!"token"], ⟨.hybrid, true, false⟩),
   ([b!"code", b!"id_token", b!"token"], ⟨.hybrid, true, true⟩),
   ([b!"id_token"], ⟨.implicit, false, true⟩),
   ([b!"id_token", b!"token"], ⟨.implicit, true, true⟩),
   ([b!"token"], ⟨.implicit, true, false⟩)]

/-- The response type `rt` asks for the flow `f`: its words are those of a response type, in any
order. -/
def Asks (rt : GoStr) (f : Flow) : Prop :=
  ∃ ws e, Words rt ws ∧ e ∈ responseTypes ∧ ws.Perm e.1 ∧ f = e.2

end Goidc.Spec
