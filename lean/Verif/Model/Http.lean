import Verif.Model.Types

/-! # The parts of net/http goidc reads -/

namespace Goidc

/-- An incoming request.  `body` is the parsed form body and `query` the parsed URL query, in order
(`r.PostForm` and `r.URL.Query()`); a body the library cannot parse is an empty list.  `headers`
keeps the names as set.  `multipart` says that the body is `multipart/form-data`, which net/http reads later and for any
method.  How the texts on the wire become such a record is in `Model/Wire`. -/
structure Req where
  method : GoStr
  path : GoStr
  headers : Params
  body : Params
  query : Params
  multipart : Bool := false

/-- First value of a key, `""` when absent (`url.Values.Get`). -/
def lookupParam (ps : Params) (k : GoStr) : GoStr :=
  match ps.find? (fun kv => kv.1 == k) with
  | some kv => kv.2
  | none => []

namespace Req

/-- net/http `ParseForm` parses a body only for POST, PUT and PATCH, `ParseMultipartForm` a multipart body for any
method. -/
def bodyParams (r : Req) : Params :=
  if r.multipart = true ∨ r.method = b!"POST" ∨ r.method = b!"PUT" ∨ r.method = b!"PATCH" then r.body else []

/-- The order of `r.Form`: `ParseForm` puts body parameters before query parameters; `ParseMultipartForm` appends those
of a multipart body. -/
def formParams (r : Req) : Params :=
  if r.multipart then r.query ++ r.bodyParams else r.bodyParams ++ r.query

/-- `r.FormValue(k)`: the first value in `r.Form`. -/
def formValue (r : Req) (k : GoStr) : GoStr := lookupParam r.formParams k

/-- `r.PostFormValue(k)`: body parameters only. -/
def postFormValue (r : Req) (k : GoStr) : GoStr := lookupParam r.bodyParams k

/-- `r.Header.Get(k)`: header names are case-insensitive (canonicalised by net/http). -/
def header (r : Req) (k : GoStr) : GoStr :=
  match r.headers.find? (fun kv => toLower kv.1 == toLower k) with
  | some kv => kv.2
  | none => []

/-- `r.Header.Set(k, v)`: replaces every value stored under any spelling of `k`. -/
def setHeader (r : Req) (k v : GoStr) : Req :=
  { r with headers := (k, v) :: r.headers.filter (fun kv => toLower kv.1 != toLower k) }

/-- `http.parseBasicAuth`: scheme "Basic " (any case), std base64, split at the first colon. -/
def parseBasicAuth (auth : GoStr) : Option (GoStr × GoStr) :=
  if auth.length < 6 ∨ toLower (auth.take 6) ≠ b!"basic " then none
  else
    let d := b64Decode false (auth.drop 6)
    if d.2 = false then none
    else
      let c := cut 58 d.1
      if c.2.2 = false then none else some (c.1, c.2.1)

/-- `r.BasicAuth()`; `none` is `ok == false`. -/
def basicAuth (r : Req) : Option (GoStr × GoStr) :=
  if r.header b!"Authorization" = [] then none else parseBasicAuth (r.header b!"Authorization")

end Req
end Goidc
