import Verif.Spec.TokenEndpoint

/-!
# Specification: what the endpoints read of a request

The parameter and header names the documentation of each endpoint mentions, and what it means for two
requests to differ in other parameters and headers only.
-/

namespace Goidc.Spec

/-- The parameters of the token endpoint. -/
def tokenParamNames : List GoStr :=
  [b!"grant_type", b!"client_id", b!"client_secret", b!"client_assertion", b!"client_assertion_type",
   b!"code", b!"redirect_uri", b!"code_challenge", b!"code_challenge_method", b!"refresh_token",
   b!"username", b!"password", b!"scope", b!"assertion"]

/-- The parameters of the authorization endpoint. -/
def authorizationParamNames : List GoStr :=
  [b!"client_id", b!"redirect_uri", b!"response_type", b!"response_mode", b!"state", b!"display",
   b!"max_age", b!"prompt", b!"scope", b!"nonce", b!"code_verifier", b!"ui_locales", b!"id_token_hint",
   b!"login_hint"]

/-- The parameters of the resource protector. -/
def protectorParamNames : List GoStr := [b!"access_token"]

/-- The headers of the token endpoint and of the resource protector, in lower case: the credential, and
two that are copied to the log. -/
def readHeaders : List GoStr := [b!"authorization", b!"remote_addr", b!"x-forwarded-for"]

/-- The entries of `ps` with one of the given names, in order. -/
def recognised (names : List GoStr) (ps : Params) : Params := ps.filter fun kv => decide (kv.1 ∈ names)

/-- The header lines with one of the given names, whatever their case, in order. -/
def recognisedHeaders (names : List GoStr) (hs : Params) : Params :=
  hs.filter fun kv => decide (toLower kv.1 ∈ names)

/-- The two requests have the same method and kind of body, and the same parameters and headers as far as their names are
listed.  Everything else in the body, the query and the headers may differ: in names, values, number
and position. -/
structure SameRecognised (params headers : List GoStr) (r r' : Req) : Prop where
  method : r.method = r'.method
  multipart : r.multipart = r'.multipart
  body : recognised params r.body = recognised params r'.body
  query : recognised params r.query = recognised params r'.query
  headers : recognisedHeaders headers r.headers = recognisedHeaders headers r'.headers

end Goidc.Spec
