import Verif.Model.Lib
import Verif.Model.Http

/-! # Front-channel responses (authorization/response.go) -/

namespace Goidc.AuthResponse

/-- authorization/response.go:12-15 -/
inductive ParamType
  | query | fragment
  deriving DecidableEq

/-- `url.Parse(uri).RawQuery`: what follows the first `?` before any `#`. -/
def rawQuery (uri : GoStr) : GoStr := (cut 63 (cut 35 uri).1).2.1

/-- `url.Parse(uri).Fragment` is empty exactly when what follows the first `#` is empty; the model
keeps it undecoded, as only its length is used. -/
def fragment (uri : GoStr) : GoStr := (cut 35 uri).2.1

/-- authorization/response.go:35-57 `Connector`.  When `url.Parse` fails, `u` is nil and the field
access panics. -/
def connector (lib : Lib) (t : ParamType) (uri : GoStr) : Prog GoStr :=
  if lib.urlParseOk uri = false then .panic
  else
    match t with
    | .query => pure (if (rawQuery uri).length = 0 then b!"?" else b!"&")
    | .fragment => pure (if (fragment uri).length = 0 then b!"#" else b!"&")

/-- `http.Redirect(w, r, u, 302)` for an absolute `u`: the Location header, and for GET/HEAD a short
HTML body.  Simplification: the path clean-up net/http applies to scheme-less URLs is not modelled. -/
def redirectResp (r : Req) (u : GoStr) : HttpResp :=
  { status := 302
    headers := (b!"Location", hexEscapeNonASCII u) ::
      (if r.method = b!"GET" ∨ r.method = b!"HEAD" then
        [(b!"Content-Type", b!"text/html; charset=utf-8")] else [])
    body := if r.method = b!"GET" then
        b!"<a href=\"" ++ htmlEscape u ++ b!"\">Found</a>.\n\n" else [] }

/-- authorization/response.go:80-87 `RedirectResponseHandler.Success`.  `Values.Encode` sorts by key,
so the iteration order of the map at line 82 does not matter and is not modelled. -/
def redirectTo (lib : Lib) (r : Req) (t : ParamType) (uri : GoStr) (params : Params) : Prog Unit := do
  let conn ← connector lib t uri
  respond (redirectResp r (uri ++ conn ++ valuesEncode params))

/-- authorization/response.go:91-97, 114-121: the parameters of an error response. -/
def errorParams (typ desc state : GoStr) : Params :=
  [(b!"error", typ)]
  ++ (if desc = [] then [] else [(b!"error_description", desc)])
  ++ (if state = [] then [] else [(b!"state", state)])

/-- authorization/response.go:128-130: one hidden input. -/
def inputTag (kv : GoStr × GoStr) : GoStr :=
  b!"<input type=\"hidden\" name=\"" ++ kv.1 ++ b!"\" value=\"" ++ htmlEscape kv.2 ++ b!"\" />"

/-- authorization/response.go:126-131: the document, for a given iteration order of the map. -/
def formDoc (uri : GoStr) (params : Params) : GoStr :=
  b!"<html><head><title>Submit This Form</title></head><body onload=\"javascript:document.forms[0].submit()\">"
  ++ b!"<form method=\"post\" action=\"" ++ uri ++ b!"\">"
  ++ params.flatMap inputTag
  ++ b!"</form></body></html>"

/-- authorization/response.go:132-136 -/
def formResp (doc : GoStr) : HttpResp :=
  { status := 200
    headers := [(b!"Content-Type", b!"text/html; charset=UTF-8"),
      (b!"Cache-Control", b!"no-cache, no-store"), (b!"Pragma", b!"no-cache")]
    body := doc }

/-- authorization/response.go:125-137 `render` -/
def render (uri : GoStr) (params : Params) : Prog Unit := do
  let l ← ask (.mapRange params)
  respond (formResp (formDoc uri l.1))

/-- authorization/response.go:59-70 `ResponseHandlerForMode` and 80-87, 109-111: success. -/
def success (lib : Lib) (r : Req) (mode uri : GoStr) (params : Params) : Prog Unit :=
  if mode = b!"query" then redirectTo lib r .query uri params
  else if mode = b!"fragment" then redirectTo lib r .fragment uri params
  else if mode = b!"form_post" then render uri params
  else redirectTo lib r .query uri params

/-- authorization/response.go:59-70 and 89-100, 113-123: error. -/
def error (lib : Lib) (r : Req) (mode uri typ desc state : GoStr) : Prog Unit :=
  success lib r mode uri (errorParams typ desc state)

end Goidc.AuthResponse
