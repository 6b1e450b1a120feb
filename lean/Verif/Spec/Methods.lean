import Verif.Spec.Ignored
import Verif.Spec.Issued
import Verif.Model.AuthorizationEndpoint

/-!
# Specification: the method of an authorization request

OpenID Connect Core 3.1.2.1: authorization servers MUST support GET and POST at the authorization endpoint.
-/

namespace Goidc.Spec

/-- A redirect to this place, with whatever text: status 302, and no header but `Location` and possibly the content type
of the text. -/
def RedirectTo (place : GoStr) (resp : HttpResp) : Prop :=
  resp.status = 302 ∧ resp.headers.filter (fun h => h.1 ≠ b!"Content-Type") = [(b!"Location", place)]

/-- The same event, but for the text that accompanies a redirect. -/
def SameEffect (e e' : Event) : Prop :=
  e' = e ∨ ∃ (place : GoStr) (resp resp' : HttpResp), e = wrote resp ∧ e' = wrote resp' ∧
    RedirectTo place resp ∧ RedirectTo place resp'

/-- The two requests have the same path and the same values of all the parameters of the authorization endpoint; their
methods, their headers and the place of the parameters may differ. -/
structure SameQuestion (r r' : Req) : Prop where
  path : r'.path = r.path
  values : ∀ n ∈ authorizationParamNames, r'.formValue n = r.formValue n

end Goidc.Spec
