import Verif.Spec.Ignored

/-!
# Specification: empty and repeated parameters

RFC 6749, 3.1 and 3.2: "Parameters sent without a value MUST be treated as if they were omitted from the request. [...]
Request and response parameters MUST NOT be included more than once."
-/

namespace Goidc.Spec

/-- The parameters sent with a value. -/
def withValue (ps : Params) : Params := ps.filter fun kv => kv.2 ≠ []

/-- No parameter is sent twice. -/
abbrev NoRepeats (ps : Params) : Prop := ps.Pairwise fun x y => x.1 ≠ y.1

/-- `r'` is `r` with its empty parameters left out. -/
structure EmptiesOmitted (r r' : Req) : Prop where
  method : r'.method = r.method
  path : r'.path = r.path
  headers : r'.headers = r.headers
  multipart : r'.multipart = r.multipart
  body : r'.body = withValue r.body
  query : r'.query = withValue r.query

/-- `ps'` is `ps` with one more value for some parameter that `before` or the part of `ps` in front of it has a value for
already. -/
def Again (before ps ps' : Params) : Prop :=
  ∃ front back n v v', ps = front ++ back ∧ ps' = front ++ (n, v') :: back ∧ (n, v) ∈ before ++ front

/-- `r'` is the POST request `r` with a parameter of its form repeated, in the body or in the URL. -/
structure Repeated (r r' : Req) : Prop where
  post : r.method = b!"POST"
  method : r'.method = r.method
  path : r'.path = r.path
  headers : r'.headers = r.headers
  multipart : r.multipart = false
  multipart' : r'.multipart = false
  again : (Again [] r.body r'.body ∧ r'.query = r.query) ∨ (r'.body = r.body ∧ Again r.body r.query r'.query)

/-- A request that names some recognised parameter twice. -/
def NamesTwice (names : List GoStr) (r : Req) : Prop :=
  ∃ n ∈ names, 2 ≤ (r.body ++ r.query).countP fun kv => kv.1 == n

end Goidc.Spec
