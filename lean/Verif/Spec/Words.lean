import Verif.Model.GoStr

/-! # Specification: separated fields of a string -/

namespace Goidc.Spec

/-- `ws` are the `sep`-separated fields of `s`: no field contains the separator, and writing the
fields with one separator between neighbours gives `s` (so `""` has the single field `""`, and
`"a  b"` has an empty middle field). -/
def Fields (sep : UInt8) (s : List UInt8) (ws : List (List UInt8)) : Prop :=
  ws ≠ [] ∧ (∀ w ∈ ws, sep ∉ w) ∧ List.intercalate [sep] ws = s

instance (sep s ws) : Decidable (Fields sep s ws) := by unfold Fields; infer_instance

/-- Space-separated tokens. -/
abbrev Words := Fields 32

end Goidc.Spec
