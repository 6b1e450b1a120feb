import Verif.Model.Prog
import Verif.Model.AuthorizationEndpoint
import Verif.Spec.Calls

/-! # Specification vocabulary for the authorization endpoint -/

namespace Goidc.Spec

/-- A question that neither changes stored data, nor talks to the user, nor answers the browser. -/
def Query.isInert : Query → Bool
  | .issuer | .findClientById _ | .findAuthInfoByUserIdAndClientId _ _ | .chooseLocale _
  | .confirmLoginSession | .requestIsFromLogin | .getAuthTime | .getLoginUserId
  | .loginUserIsMatchedToSubject _ | .now | .wallNow | .log _ => true
  | _ => false

/-- Only such questions are asked in `t`. -/
def Inert (t : List Event) : Prop := ∀ e ∈ t, Query.isInert e.q = true

/-- The three ways parameters travel to the client: appended to the URI's query, appended to its
fragment, or posted by a self-submitting form. -/
inductive Channel
  | query | fragment | form
  deriving DecidableEq

/-- The channel a response mode stands for; anything but `fragment` and `form_post` is the query. -/
def channel (mode : GoStr) : Channel :=
  if mode = b!"fragment" then .fragment else if mode = b!"form_post" then .form else .query

/-- `uri` has a non-empty query part (before any `#`). -/
def HasQuery (uri : GoStr) : Prop :=
  ∃ base q rest, uri = base ++ 63 :: (q ++ rest) ∧ 63 ∉ base ∧ 35 ∉ base ∧ 35 ∉ q ∧ q ≠ [] ∧
    (rest = [] ∨ ∃ f, rest = 35 :: f)

/-- `uri` has a non-empty fragment. -/
def HasFragment (uri : GoStr) : Prop := ∃ base f, uri = base ++ 35 :: f ∧ 35 ∉ base ∧ f ≠ []

/-- `s` is the form encoding of `params`: a standard parser reads back exactly these pairs, and `s`
consists of unreserved characters, `%`, `+`, `=` and `&` only. -/
def Encodes (s : GoStr) (params : Params) : Prop :=
  (parseQuery s).Perm params ∧
  ∀ c ∈ s, isUnreserved c = true ∨ c = 37 ∨ c = 43 ∨ c = 61 ∨ c = 38

/-- The response redirects the browser to `target` (302, one Location header; bytes outside ASCII are
percent-escaped as net/http does). -/
def RedirectsTo (resp : HttpResp) (target : GoStr) : Prop :=
  resp.status = 302 ∧
  resp.headers.filter (fun kv => kv.1 == b!"Location") = [(b!"Location", hexEscapeNonASCII target)] ∧
  (resp.body = [] ∨ resp.body = b!"<a href=\"" ++ htmlEscape target ++ b!"\">Found</a>.\n\n")

/-- The response is the page that posts `fields`, in this order, to `uri`; it redirects nowhere. -/
def PostsTo (resp : HttpResp) (uri : GoStr) (fields : Params) : Prop :=
  resp.status = 200 ∧ (b!"Cache-Control", b!"no-cache, no-store") ∈ resp.headers ∧
  (∀ kv ∈ resp.headers, kv.1 ≠ b!"Location") ∧
  resp.body =
    b!"<html><head><title>Submit This Form</title></head><body onload=\"javascript:document.forms[0].submit()\"><form method=\"post\" action=\""
    ++ uri ++ b!"\">" ++
    (fields.flatMap fun kv => b!"<input type=\"hidden\" name=\"" ++ kv.1 ++ b!"\" value=\"" ++
      htmlEscape kv.2 ++ b!"\" />") ++ b!"</form></body></html>"

/-- The response delivers exactly `params` to `uri` over a channel. -/
def Delivers (resp : HttpResp) (uri : GoStr) (params : Params) : Channel → Prop
  | .query => ∃ c q, Encodes q params ∧ RedirectsTo resp (uri ++ c :: q) ∧
      (HasQuery uri ∧ c = 38 ∨ ¬ HasQuery uri ∧ c = 63)
  | .fragment => ∃ c q, Encodes q params ∧ RedirectsTo resp (uri ++ c :: q) ∧
      (HasFragment uri ∧ c = 38 ∨ ¬ HasFragment uri ∧ c = 35)
  | .form => ∃ fields, fields.Perm params ∧ PostsTo resp uri fields

/-- The parameters of an error response: `error`, and `error_description` and `state` when not empty. -/
def errorResponse (typ desc state : GoStr) : Params :=
  (b!"error", typ) ::
    ((if desc = [] then [] else [(b!"error_description", desc)]) ++
     (if state = [] then [] else [(b!"state", state)]))

/-- Parameters that hand something to the client. -/
def Grants (params : Params) : Prop :=
  ∃ v, (b!"code", v) ∈ params ∨ (b!"access_token", v) ∈ params ∨ (b!"id_token", v) ∈ params

/-- A call that shows a screen to the user. -/
def Query.isScreen : Query → Bool
  | .showErrorScreen _ | .showLoginScreen _ | .showConsentScreen _ _ => true
  | _ => false

end Goidc.Spec
