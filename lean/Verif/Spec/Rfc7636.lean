import Verif.Spec.Origin
import Verif.Model.TestStore
import Verif.Spec.Encoding
import Verif.Lemmas.TestStore
import Verif.Spec.Grants

/-! # Specification: PKCE as RFC 7636 has it

The client sends the challenge with the authorization request and the verifier with the token request. -/

namespace Goidc.Spec

open AuthzEndpoint TokenEndpoint

/-- RFC 7636, section 4.6: the `code_verifier` of the token request `r` fits the `code_challenge` (and its method, `plain` if
there is none) of the authorization request `r'`. -/
def VerifierFitsRfc (lib : Lib) (r r' : Req) : Prop :=
  r.formValue b!"code_verifier" ≠ [] ∧
  (((r'.formValue b!"code_challenge_method" = [] ∨ r'.formValue b!"code_challenge_method" = b!"plain") ∧
      r.formValue b!"code_verifier" = r'.formValue b!"code_challenge") ∨
   (r'.formValue b!"code_challenge_method" = b!"S256" ∧
      base64url (lib.sha256 (r.formValue b!"code_verifier")) = r'.formValue b!"code_challenge"))

/-- One use of the code flow: an authorization request `r'`, the request `d` on which the user's decision arrives, and a
token request `r`. -/
def codeFlow (policy : Policy) (lib : Lib) (r' d : Req) (cfg : TokenCfg) (r : Req) : Nat → Thread
  | 0 => ⟨handleRequest policy lib r'⟩
  | 1 => ⟨completeRequest policy lib d⟩
  | 2 => ⟨handler cfg lib r⟩
  | _ => ⟨(.ret () : Prog Unit)⟩

/-- Clients that use PKCE as the RFC says are protected: over the reference store, with a browser that continues what it was
shown, a code requested with a challenge is exchanged only by a request with the fitting verifier. -/
def ProtectsRfc : Prop :=
  ∀ (users : List TestUser) (clients : List Client) (policy : Policy) (lib : Lib) (r' d : Req) (cfg : TokenCfg) (r : Req)
    (g : List (Nat × Event)) (s : StoreState) (resp : HttpResp),
    AllBuiltIn lib cfg → Interleaves (codeFlow policy lib r' d cfg r) g → ContinuesShown g →
    StoreRun (StoreState.init users clients) (g.map (·.2)) s →
    r'.formValue b!"code_challenge" ≠ [] →
    Registered cfg r (Grant.authorizationCode lib) → (2, wrote resp) ∈ g → resp.status = 200 → VerifierFitsRfc lib r r'

/-- The requests differ at most in parameters with one of these names: in their values, number and position. -/
structure DifferIn (names : List GoStr) (r r' : Req) : Prop where
  method : r.method = r'.method
  path : r.path = r'.path
  headers : r.headers = r'.headers
  multipart : r.multipart = r'.multipart
  body : r.body.filter (fun kv => decide (kv.1 ∉ names)) = r'.body.filter (fun kv => decide (kv.1 ∉ names))
  query : r.query.filter (fun kv => decide (kv.1 ∉ names)) = r'.query.filter (fun kv => decide (kv.1 ∉ names))

end Goidc.Spec
