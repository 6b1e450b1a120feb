import Verif.Model.Reference
import Verif.Spec.Origin

/-! # Specification: what a history of set-up calls registers -/

namespace Goidc.Spec

/-- How many clients the calls created. -/
def clientsIn : List SetupOp → Nat
  | [] => 0
  | .createClient _ _ _ _ :: ops => clientsIn ops + 1
  | _ :: ops => clientsIn ops

/-- How many users there are after the calls, if there were `n` before. -/
def usersAfter (n : Nat) : List SetupOp → Nat
  | [] => n
  | .createUser _ _ :: ops => usersAfter (n + 1) ops
  | .clearAll :: ops => usersAfter 0 ops
  | _ :: ops => usersAfter n ops

/-- The client registered under `cid` is the one the `k`-th `CreateNewClient` made, with this owner, secret and
redirect URI: no later call made another one of that id or cleared everything. -/
def RegisteredClient (ops : List SetupOp) (k : Nat) (owner : Int64) (cid secret uri : GoStr) : Prop :=
  ∃ a b, ops = a ++ .createClient owner cid secret uri :: b ∧ clientsIn a = k ∧ .clearAll ∉ b ∧
    ∀ o s u, .createClient o cid s u ∉ b

/-- The `k`-th client made was allowed the grant type. -/
def GrantAllowed (ops : List SetupOp) (k : Nat) (gt : GoStr) : Prop :=
  ∃ a b, ops = a ++ .allow k gt :: b ∧ k < clientsIn a

/-- What a client answers that was registered with this owner, secret and redirect URI, as the `k`-th. -/
structure IsReference (ops : List SetupOp) (k : Nat) (owner : Int64) (cid secret uri : GoStr) (c : Client) : Prop where
  hasId : c.id = cid
  hasOwner : c.ownerUserId = owner
  hasSecret : ∀ x, c.matchSecret x = true ↔ x = secret
  hasUri : ∀ x, c.canUseRedirectURI x = true ↔ x = uri
  hasGrants : ∀ gt, c.canUseGrantType gt = true ↔ GrantAllowed ops k gt
  hasKey : ∀ alg kid, c.assertionKey alg kid = some (.bytes secret)
  asksConsent : c.noConsentPromptPolicy = .forceConsent
  neverSilent : c.nonePromptPolicy = .forbidden

/-- A user with that name and password was created as number `uid`, and not cleared since. -/
def RegisteredUser (ops : List SetupOp) (name pass : GoStr) (uid : Int64) : Prop :=
  ∃ a b, ops = a ++ .createUser name pass :: b ∧ .clearAll ∉ b ∧ uid.toInt = usersAfter 0 a

/-- The token request proves that it comes from the `k`-th client made, registered as `cid`: it presents exactly the
secret, or (where these are accepted) an assertion about `cid` with an HMAC under the secret. -/
def ClientProved (ops : List SetupOp) (cfg : TokenCfg) (lib : Lib) (r : Req) (k : Nat) (owner : Int64) (cid secret uri : GoStr) :
    Prop :=
  RegisteredClient ops k owner cid secret uri ∧
  ((∃ b, Presented cfg.acceptance r cid secret b) ∨
   (cfg.acceptClientAssertion = true ∧ ∃ a tk, PresentedAssertion r a ∧ HmacAssertion lib secret a tk ∧
     tk.claimStr b!"sub" = some cid))
where
  /-- The assertion is the token `tk`, with an HMAC under `secret`. -/
  HmacAssertion (lib : Lib) (secret a : GoStr) (tk : JwtToken) : Prop :=
    lib.jwtDecode a = some tk ∧ tk.alg.getD [] ∈ [b!"HS256", b!"HS384", b!"HS512"] ∧
      lib.sigOk (tk.alg.getD []) a secret = true

/-- Why a request over a reference store that was set up by `ops` may record that the user `uid` authorized the
client `cid` for the scope `sc`. -/
inductive Justified (ops : List SetupOp) : Thread → List Event → Int64 → GoStr → GoStr → Prop
  /-- the login user completed an authorization request of that client with that scope -/
  | consent {policy lib r req uid pre} : ⟨.continue_, some (some req)⟩ ∈ pre → ⟨.getLoginUserId, some uid⟩ ∈ pre →
      Justified ops ⟨AuthzEndpoint.completeRequest policy lib r⟩ pre uid req.clientId req.scope
  /-- the client proved itself and presented name and password of a registered user -/
  | password {cfg lib r pre k owner cid secret uri uid} : Registered cfg r Grant.password →
      ClientProved ops cfg lib r k owner cid secret uri →
      RegisteredUser ops (r.formValue b!"username") (r.formValue b!"password") uid →
      Justified ops ⟨TokenEndpoint.handler cfg lib r⟩ pre uid cid (r.formValue b!"scope")
  /-- the client proved itself and acts for the owner it was registered with -/
  | owner {cfg lib r pre k owner cid secret uri} : Registered cfg r Grant.clientCredentials →
      ClientProved ops cfg lib r k owner cid secret uri → 0 ≤ owner.toInt →
      Justified ops ⟨TokenEndpoint.handler cfg lib r⟩ pre owner cid (r.formValue b!"scope")
  /-- the client proved itself and presented an assertion, with an HMAC under its secret, that names a registered user -/
  | assertion {cfg lib r pre k owner cid secret uri uid tk name pass} : Registered cfg r (Grant.jwt lib) →
      ClientProved ops cfg lib r k owner cid secret uri →
      ClientProved.HmacAssertion lib secret (r.formValue b!"assertion") tk → tk.claimStr b!"sub" = some name →
      RegisteredUser ops name pass uid →
      Justified ops ⟨TokenEndpoint.handler cfg lib r⟩ pre uid cid (r.formValue b!"scope")

end Goidc.Spec
