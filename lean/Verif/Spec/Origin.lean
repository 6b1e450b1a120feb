import Verif.Spec.Concurrency
import Verif.Spec.Authorization
import Verif.Spec.Protector
import Verif.Spec.Grants
import Verif.Spec.TokenDecision
import Verif.Spec.ResponseTypes

/-! # Where codes, tokens and identities come from

Vocabulary for statements about whole deployments: any number of token requests, authorization requests
and protected requests served at once, over a store that keeps what it is told. -/

namespace Goidc.Spec

open AuthzEndpoint TokenEndpoint ResourceProtector

/-- What a deployment serves. -/
inductive Endpoint : Thread → Prop
  | token {cfg : TokenCfg} {lib : Lib} {r : Req} : AllBuiltIn lib cfg → Endpoint ⟨handler cfg lib r⟩
  | authorize {policy : Policy} {lib : Lib} {r : Req} : Endpoint ⟨handleRequest policy lib r⟩
  | complete {policy : Policy} {lib : Lib} {r : Req} : Endpoint ⟨completeRequest policy lib r⟩
  | cancel {lib : Lib} {r : Req} : Endpoint ⟨cancelRequest lib r⟩
  | protect {cfg : ProtectorCfg} {lib : Lib} {r : Req} : Endpoint ⟨validate cfg lib r⟩
  | protectScopes {cfg : ProtectorCfg} {lib : Lib} {r : Req} {m : List (GoStr × List GoStr)} :
      Endpoint ⟨validateWithScopes cfg lib r m⟩
  | idle : Endpoint ⟨(.ret () : Prog Unit)⟩

/-- The application shows the authorization `i` to goidc. -/
inductive Shows (i : AuthInfo) : Event → Prop
  | recorded (uid cid sc) : Shows i ⟨.createOrUpdateAuthInfo uid cid sc, (some i, none)⟩
  | found (uid cid) : Shows i ⟨.findAuthInfoByUserIdAndClientId uid cid, (some i, none)⟩
  | active (id) : Shows i ⟨.findActiveAuthInfoById id, (some i, none)⟩

/-- What a store is expected to do with what it is told, over all the calls `g` of a deployment in the
order they happened. -/
structure KeepsRecords (g : List (Nat × Event)) : Prop where
  /-- Recording an authorization returns the authorization that was recorded. -/
  recorded : ∀ {k uid cid sc i}, (k, ⟨.createOrUpdateAuthInfo uid cid sc, (some i, none)⟩) ∈ g →
    i.userId = uid ∧ i.clientId = cid
  /-- The authorization of a user and a client is of that user and client. -/
  found : ∀ {k uid cid i}, (k, ⟨.findAuthInfoByUserIdAndClientId uid cid, (some i, none)⟩) ∈ g →
    i.userId = uid ∧ i.clientId = cid
  /-- An authorization found by its id was recorded before, with the user, client and scope it has now. -/
  active : ∀ {a b k id i}, g = a ++ (k, ⟨.findActiveAuthInfoById id, (some i, none)⟩) :: b → i.id = id ∧
    ∃ k' i', (k', ⟨.createOrUpdateAuthInfo i.userId i.clientId i.scope, (some i', none)⟩) ∈ a ∧ i'.id = id
  /-- The user and the client of an authorization do not change. -/
  stable : ∀ {k k' e e' i i'}, (k, e) ∈ g → (k', e') ∈ g → Shows i e → Shows i' e' → i.id = i'.id →
    i.userId = i'.userId ∧ i.clientId = i'.clientId
  /-- A session found for a code was created before for that code, and is what was stored. -/
  sessions : ∀ {a b k code s}, g = a ++ (k, ⟨.findAuthSessionByCode code, (some s, none)⟩) :: b →
    ∃ k' i x, (k', ⟨.createAuthSession (some i) x, none⟩) ∈ a ∧ x.code = code ∧ s.authId = i.id ∧
      s.redirectURI = x.redirectURI ∧ s.codeVerifier = x.codeVerifier ∧ s.nonce = x.nonce ∧ s.authTime = x.authTime
  /-- A token created for an authorization belongs to it. -/
  created : ∀ {k i b tk}, (k, ⟨.createOAuthToken (some i) b, (some tk, none)⟩) ∈ g → tk.authId = i.id
  /-- Refreshing a token that was found does not change the authorization it belongs to. -/
  refreshed : ∀ {a b k k' i old tk rt}, g = a ++ (k, ⟨.refreshAccessToken i old, (some tk, none)⟩) :: b →
    (k', ⟨.findOAuthTokenByRefreshToken rt, (some old, none)⟩) ∈ a → tk.authId = old.authId
  /-- An access token that is found was created or refreshed before, and belongs to the same authorization. -/
  tokens : ∀ {a b k tok tk}, g = a ++ (k, ⟨.findOAuthTokenByAccessToken tok, (some tk, none)⟩) :: b →
    ∃ k' tk', tk'.accessToken = tok ∧ tk'.authId = tk.authId ∧
      ((∃ i b, (k', ⟨.createOAuthToken (some i) b, (some tk', none)⟩) ∈ a) ∨
       ∃ i old, (k', ⟨.refreshAccessToken i old, (some tk', none)⟩) ∈ a)

/-- The application continues only requests whose consent screen it has shown. -/
def ContinuesShown (g : List (Nat × Event)) : Prop :=
  ∀ {a b k req}, g = a ++ (k, ⟨.continue_, some (some req)⟩) :: b →
    ∃ k' clnt, (k', ⟨.showConsentScreen clnt req, true⟩) ∈ a

/-- Why a request that has made the calls `pre` may record an authorization of the user `uid` for the
client `cid` with the scope `sc`. -/
inductive Entitled : Thread → List Event → Int64 → GoStr → GoStr → Prop
  /-- the login user completed an authorization request of that client with that scope -/
  | consent {policy lib r req uid pre} : ⟨.continue_, some (some req)⟩ ∈ pre → ⟨.getLoginUserId, some uid⟩ ∈ pre →
      Entitled ⟨completeRequest policy lib r⟩ pre uid req.clientId req.scope
  /-- the client authenticated and presented the user's password -/
  | password {cfg lib r c uid pre} : Registered cfg r Grant.password → Authenticated cfg lib r c pre →
      ⟨.findUserId (r.formValue b!"username") (r.formValue b!"password"), (uid, none)⟩ ∈ pre →
      (r.formValue b!"scope" = [] ∨ c.canUseScope .directGrant (r.formValue b!"scope") = true) →
      Entitled ⟨handler cfg lib r⟩ pre uid c.id (r.formValue b!"scope")
  /-- the client authenticated and acts for its owner -/
  | owner {cfg lib r c pre} : Registered cfg r Grant.clientCredentials → Authenticated cfg lib r c pre →
      0 ≤ c.ownerUserId.toInt →
      (r.formValue b!"scope" = [] ∨ c.canUseScope .directGrant (r.formValue b!"scope") = true) →
      Entitled ⟨handler cfg lib r⟩ pre c.ownerUserId c.id (r.formValue b!"scope")
  /-- the client authenticated and presented an assertion about the user, signed with its key -/
  | assertion {cfg lib r c uid tkn sub pre} : Registered cfg r (Grant.jwt lib) → Authenticated cfg lib r c pre →
      VerifiedAssertion lib c (r.formValue b!"assertion") tkn → tkn.claimStr b!"sub" = some sub →
      ⟨.findUserIdBySubject sub, (uid, none)⟩ ∈ pre →
      (r.formValue b!"scope" = [] ∨ c.canUseScope .directGrant (r.formValue b!"scope") = true) →
      Entitled ⟨handler cfg lib r⟩ pre uid c.id (r.formValue b!"scope")

/-- The request that made the calls `pre` speaks for the client `cid` (and, in the browser, for the login
user `uid`). -/
inductive SpeaksFor : Thread → List Event → Int64 → GoStr → Prop
  /-- a token request whose client authenticated -/
  | client {cfg lib r c pre uid} : Authenticated cfg lib r c pre → SpeaksFor ⟨handler cfg lib r⟩ pre uid c.id
  /-- a completed authorization request of that client, with that user logged in -/
  | consent {policy lib r req uid pre} : ⟨.continue_, some (some req)⟩ ∈ pre → ⟨.getLoginUserId, some uid⟩ ∈ pre →
      SpeaksFor ⟨completeRequest policy lib r⟩ pre uid req.clientId
  /-- an authorization request of that client, with that user logged in and an earlier consent -/
  | silent {policy lib r uid i pre} : ⟨.getLoginUserId, some uid⟩ ∈ pre →
      ⟨.findAuthInfoByUserIdAndClientId uid (r.formValue b!"client_id"), (some i, none)⟩ ∈ pre →
      SpeaksFor ⟨handleRequest policy lib r⟩ pre uid (r.formValue b!"client_id")

/-- The request that made the calls `pre` created the code `code` for the user `uid` and an authorization
request of the client `cid` with this redirect URI, code verifier and nonce. -/
inductive CodeCreated (code : GoStr) : Thread → List Event → Int64 → (cid uri verifier nonce : GoStr) → Prop
  | consent {policy lib r req uid i pre} : ⟨.continue_, some (some req)⟩ ∈ pre → ⟨.getLoginUserId, some uid⟩ ∈ pre →
      ⟨.createOrUpdateAuthInfo uid req.clientId req.scope, (some i, none)⟩ ∈ pre →
      ⟨.createAuthorizationCode, some code⟩ ∈ pre →
      CodeCreated code ⟨completeRequest policy lib r⟩ pre uid req.clientId req.redirectURI req.codeVerifier req.nonce
  | silent {policy lib r uid i pre} : ⟨.getLoginUserId, some uid⟩ ∈ pre →
      ⟨.findAuthInfoByUserIdAndClientId uid (r.formValue b!"client_id"), (some i, none)⟩ ∈ pre →
      ⟨.createAuthorizationCode, some code⟩ ∈ pre →
      CodeCreated code ⟨handleRequest policy lib r⟩ pre uid (r.formValue b!"client_id") (r.formValue b!"redirect_uri")
        (r.formValue b!"code_verifier") (r.formValue b!"nonce")

/-- The store hands out the token `tk`. -/
inductive Issues (tk : OAuthToken) : Event → Prop
  | created (i b) : Issues tk ⟨.createOAuthToken (some i) b, (some tk, none)⟩
  | refreshed (i old) : Issues tk ⟨.refreshAccessToken i old, (some tk, none)⟩

/-- In the calls `g`, the store does not hand out an access token named `a`. -/
def NotIssued (g : List (Nat × Event)) (a : GoStr) : Prop :=
  ∀ k e tk, (k, e) ∈ g → Issues tk e → tk.accessToken ≠ a

/-- An authorization request that passed every check goidc makes of its client: the client exists, the
redirect URI is one of its own, it may use the flow and the scope. -/
structure Vetted (r : Req) (clnt : Client) (scope : GoStr) (pre : List Event) : Prop where
  found : FoundClient r clnt pre
  uri : clnt.canUseRedirectURI (r.formValue b!"redirect_uri") = true
  allowed : ∃ f, Asks (r.formValue b!"response_type") f ∧
    clnt.canUseFlow f.type = true ∧ clnt.canUseScope f.type scope = true ∧
    EffectiveScope f.type (r.formValue b!"prompt") (r.formValue b!"scope") scope

end Goidc.Spec
