import Verif.Model.TokenEndpoint
import Verif.Spec.Jwt
import Verif.Spec.Calls

/-!
# What it means for a client to have authenticated at the token endpoint

Stated about the request and the calls made so far (`pre`), not about the endpoint's functions.
-/

namespace Goidc.Spec

/-- `Presented m r cid sec inHeader`: under acceptance method `m` the request presents the client id
`cid` and secret `sec`. -/
inductive Presented (m : AcceptanceMethod) (r : Req) : GoStr → GoStr → Bool → Prop
  /-- An HTTP Basic `Authorization` header. -/
  | header (cid sec) : r.basicAuth = some (cid, sec) → Presented m r cid sec true
  /-- Form-encoded body parameters. -/
  | body (cid sec) : m = .fromHeaderAndPostBody → r.basicAuth = none →
      r.postFormValue b!"client_id" = cid → r.postFormValue b!"client_secret" = sec →
      cid ≠ [] → sec ≠ [] → Presented m r cid sec false
  /-- Body or query parameters. -/
  | any (cid sec) : m = .fromAll → r.basicAuth = none →
      r.formValue b!"client_id" = cid → r.formValue b!"client_secret" = sec →
      cid ≠ [] → sec ≠ [] → Presented m r cid sec false

/-- The request presents a client assertion of type jwt-bearer. -/
def PresentedAssertion (r : Req) (ca : GoStr) : Prop :=
  r.formValue b!"client_assertion" = ca ∧ ca ≠ [] ∧
  r.formValue b!"client_assertion_type" = b!"urn:ietf:params:oauth:client-assertion-type:jwt-bearer"

/-- The assertion `a` decodes to `tk` and its signature verifies under the key `c` has registered for
the token's algorithm and key id. -/
def VerifiedAssertion (lib : Lib) (c : Client) (a : GoStr) (tk : JwtToken) : Prop :=
  lib.jwtDecode a = some tk ∧
  ∃ k, c.assertionKey (tk.alg.getD []) (tk.kid.getD []) = some k ∧
    SignatureOk lib (tk.alg.getD []) a k

/-- The client authenticated with its secret. -/
def AuthenticatedBySecret (m : AcceptanceMethod) (r : Req) (c : Client) (pre : List Event) : Prop :=
  ∃ cid sec inHeader, Presented m r cid sec inHeader ∧
    ⟨.findClientById cid, (some c, none)⟩ ∈ pre ∧ c.matchSecret sec = true

/-- The client authenticated with an assertion about itself. -/
def AuthenticatedByAssertion (lib : Lib) (r : Req) (c : Client) (pre : List Event) : Prop :=
  ∃ ca tk sub, PresentedAssertion r ca ∧ VerifiedAssertion lib c ca tk ∧
    tk.claimStr b!"sub" = some sub ∧ ⟨.findClientById sub, (some c, none)⟩ ∈ pre

end Goidc.Spec

namespace Goidc.Spec

/-- The five grant handlers shipped with goidc (`lib` is the crypto/JWT library they use). -/
inductive BuiltIn (lib : Lib) : GrantFunc → Prop
  | authorizationCode : BuiltIn lib (Grant.authorizationCode lib)
  | refreshToken : BuiltIn lib Grant.refreshToken
  | password : BuiltIn lib Grant.password
  | clientCredentials : BuiltIn lib Grant.clientCredentials
  | jwt : BuiltIn lib (Grant.jwt lib)

/-- The handler registered for the request's grant type. -/
def Registered (cfg : TokenCfg) (r : Req) (h : GrantFunc) : Prop :=
  TokenEndpoint.lookupHandler cfg.handlers (r.formValue b!"grant_type") = some h

/-- Every registered handler is one of the built-in ones. -/
def AllBuiltIn (lib : Lib) (cfg : TokenCfg) : Prop :=
  ∀ gt h, TokenEndpoint.lookupHandler cfg.handlers gt = some h → BuiltIn lib h

end Goidc.Spec

namespace Goidc

/-- A grant handler that does not write the response itself. -/
def Silent (h : GrantFunc) : Prop := ∀ r c now t o, Runs (h r c now).run t o → NoWrite t

end Goidc
