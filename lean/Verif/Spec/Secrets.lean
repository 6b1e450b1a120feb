import Verif.Spec.TokenEndpoint

/-! # Specification: requests that differ in a secret only -/

namespace Goidc.Spec

/-- The two requests look the same except for the `Authorization` header and the parameter
`client_secret`. -/
structure SameExceptSecret (r r' : Req) : Prop where
  method : r.method = r'.method
  header : ∀ k, toLower k ≠ b!"authorization" → r.header k = r'.header k
  form : ∀ k, k ≠ b!"client_secret" → r.formValue k = r'.formValue k
  postForm : ∀ k, k ≠ b!"client_secret" → r.postFormValue k = r'.postFormValue k

/-- The two requests look the same except for the parameter `password`. -/
structure SameExceptPassword (r r' : Req) : Prop where
  method : r.method = r'.method
  header : ∀ k, r.header k = r'.header k
  form : ∀ k, k ≠ b!"password" → r.formValue k = r'.formValue k
  postForm : ∀ k, k ≠ b!"password" → r.postFormValue k = r'.postFormValue k

/-- What was passed to the logger. -/
def logOutput : List Event → List LogLine
  | [] => []
  | ⟨.log l, _⟩ :: t => l :: logOutput t
  | _ :: t => logOutput t

/-- The same event, with another password handed to `FindUserId`. -/
def withPassword (p : GoStr) : Event → Event
  | ⟨.findUserId u _, r⟩ => ⟨.findUserId u p, r⟩
  | e => e

end Goidc.Spec
