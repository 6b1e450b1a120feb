import Verif.Spec.TokenEndpoint
import Verif.Model.AuthorizationEndpoint

/-!
# Specification: which claims of a token count

RFC 7519, 4: "all claims that are not understood by implementations MUST be ignored".
RFC 7523, 3: "The JWT MUST contain an "iss" (issuer) claim that contains a unique identifier for the entity that
issued the JWT"; OpenID Connect Core, 9: when a client authenticates with a JWT, `iss` is its client id, as `sub` is.
-/

namespace Goidc.Spec

/-- The claims goidc documents: who it is about, whom it is for, when it is valid and its identifier. -/
def understoodClaims : List GoStr := [b!"sub", b!"aud", b!"exp", b!"nbf", b!"iat", b!"jti"]

/-- The two tokens have the same algorithm, key id and understood claims. -/
structure TokenAgree (t t' : JwtToken) : Prop where
  alg : t'.alg = t.alg
  kid : t'.kid = t.kid
  claims : ∀ n ∈ understoodClaims, t'.claim n = t.claim n

/-- A text that says no token to either, or tokens that agree to both. -/
def SameSaid : Option JwtToken → Option JwtToken → Prop
  | none, none => True
  | some t, some t' => TokenAgree t t'
  | _, _ => False

/-- The same library, except that tokens say something else. -/
def saying (lib : Lib) (d : GoStr → Option JwtToken) (hd : ∀ s t, d s = some t → t.raw = s) : Lib :=
  { lib with jwtDecode := d, jwtDecode_raw := hd }

/-- The grants shipped with goidc. -/
inductive ShippedGrant
  | authorizationCode | refreshToken | password | clientCredentials | jwt

/-- The handler of each. -/
def ShippedGrant.func (lib : Lib) : ShippedGrant → GrantFunc
  | .authorizationCode => Grant.authorizationCode lib
  | .refreshToken => Grant.refreshToken
  | .password => Grant.password
  | .clientCredentials => Grant.clientCredentials
  | .jwt => Grant.jwt lib

/-- The endpoint configured with these grants. -/
def configured (lib : Lib) (cfg : TokenCfg) (gs : List (GoStr × ShippedGrant)) : TokenCfg :=
  { cfg with handlers := gs.map fun g => (g.1, g.2.func lib) }

/-- The token names its issuer. -/
def HasIssuer (t : JwtToken) : Prop := ∃ iss, t.claim b!"iss" = some (.str iss)

/-- The token is issued by whom it is about. -/
def SelfIssued (t : JwtToken) : Prop := ∃ sub, t.claim b!"sub" = some (.str sub) ∧ t.claim b!"iss" = some (.str sub)

/-- The token with another issuer: the claim is set, or removed. -/
def reissued (iss : Option JVal) (t : JwtToken) : JwtToken :=
  { t with claims := (iss.map fun v => (b!"iss", v)).toList ++ t.claims.filter (fun kv => kv.1 != b!"iss") }

/-! ## Several credentials in one request

RFC 6749, 2.3: "The client MUST NOT use more than one authentication method in each request."  RFC 7521, 4.2: a `client_id`
beside a client assertion "MUST identify the client to whom the assertion applies". -/

/-- The parameters that are not about the client. -/
def grantParamNames : List GoStr :=
  [b!"grant_type", b!"code", b!"redirect_uri", b!"code_challenge", b!"code_challenge_method", b!"refresh_token", b!"username",
   b!"password", b!"scope", b!"assertion"]

/-- Two POST requests with the same headers that ask for the same thing, whoever may ask for it in their parameters. -/
structure SameAsking (r r' : Req) : Prop where
  method : r.method = b!"POST"
  method' : r'.method = b!"POST"
  headers : r'.headers = r.headers
  values : ∀ n ∈ grantParamNames, r'.formValue n = r.formValue n

/-- The request presents credentials for two clients: a Basic header, and a client assertion about another one or a client id
of another one. -/
def TwoClients (lib : Lib) (r : Req) : Prop :=
  (∃ cid sec ca tk sub, r.basicAuth = some (cid, sec) ∧ PresentedAssertion r ca ∧ lib.jwtDecode ca = some tk ∧
    tk.claimStr b!"sub" = some sub ∧ sub ≠ cid) ∨
  (∃ cid sec, r.basicAuth = some (cid, sec) ∧ r.formValue b!"client_id" ≠ [] ∧ r.formValue b!"client_id" ≠ cid) ∨
  (∃ ca tk sub, PresentedAssertion r ca ∧ lib.jwtDecode ca = some tk ∧ tk.claimStr b!"sub" = some sub ∧
    r.formValue b!"client_id" ≠ [] ∧ r.formValue b!"client_id" ≠ sub)

end Goidc.Spec
