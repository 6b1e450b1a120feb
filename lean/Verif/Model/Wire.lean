import Verif.Model.Http

/-! # From the request on the wire to what goidc reads (net/http `ParseForm`, `ParseMultipartForm`) -/

namespace Goidc

/-- An HTTP request as it arrives: the query of the URL and the body are texts. -/
structure Wire where
  method : GoStr
  path : GoStr
  rawQuery : GoStr
  headers : Params
  payload : GoStr

/-- What net/http makes of a Content-Type. -/
inductive Media
  | form | multipart | other
  deriving DecidableEq

/-- `mime.ParseMediaType` on a Content-Type (an absent one being `application/octet-stream`), and the values of the
parts of a `multipart/form-data` body (none when it cannot be parsed): both arbitrary functions. -/
structure WireLib where
  media : GoStr → Media
  parts : GoStr → GoStr → Params

/-- net/http `maxFormSize`: 10 << 20. -/
def maxFormSize : Nat := 10485760

/-- net/http `parsePostForm` and `Request.multipartReader`: the parameters of the body.  A larger form body is an error, which
goidc does not look at, and no parameter of it is kept. -/
def Wire.bodyParams (wl : WireLib) (w : Wire) (contentType : GoStr) : Params :=
  match wl.media contentType with
  | .form => if w.payload.length ≤ maxFormSize then parseQuery w.payload else []
  | .multipart => wl.parts contentType w.payload
  | .other => []

/-- The request as goidc reads it with `FormValue`, `PostFormValue` and `Header.Get`, which call `ParseMultipartForm`
and through it `ParseForm`. -/
def Wire.toReq (wl : WireLib) (w : Wire) : Req :=
  let r : Req := { method := w.method, path := w.path, headers := w.headers, body := [],
                   query := parseQuery w.rawQuery }
  { r with body := w.bodyParams wl (r.header b!"Content-Type")
           multipart := decide (wl.media (r.header b!"Content-Type") = .multipart) }

end Goidc
