import Verif.Spec.Concurrency

/-! # Clients that were removed -/

namespace Goidc.Spec

/-- In this part of the history the application shows no client `d`: a look-up of `d` finds nothing, and no look-up finds a
client of that id. -/
def Removed (b : List (Nat × Event)) (d : GoStr) : Prop :=
  ∀ k sub c x, (k, ⟨.findClientById sub, (some c, x)⟩) ∈ b → sub ≠ d ∧ c.id ≠ d

end Goidc.Spec
