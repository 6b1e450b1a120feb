import Verif.Spec.Claims
import Verif.Spec.Authorization

/-!
# Specification: whose ID token a hint is

OpenID Connect Core, 3.1.2.1: `id_token_hint` is an "ID Token previously issued by the Authorization Server"; "the OP MUST
validate that it was the issuer of the ID Token".  RFC 8725, 3.1: algorithms are verified, "libraries MUST enable the caller to
specify a supported set of algorithms"; 3.8 and 3.9: issuer and audience are validated.
-/

namespace Goidc.Spec

/-- What is to hold of the token `tk` that is presented as hint, of the client and of the calls made, whenever a silent request
of a client whose policy asks for a hint succeeds. -/
def WheneverHinted (P : JwtToken → Client → List Event → Prop) : Prop :=
  ∀ (policy : Policy) (lib : Lib) (r : Req) (pre : List Event) (resp : HttpResp) (tk : JwtToken),
    Runs (AuthzEndpoint.handleRequest policy lib r) (pre ++ [wrote resp]) (.ok true) → r.formValue b!"prompt" = b!"none" →
    (∀ c, FoundClient r c pre → c.nonePromptPolicy = .allowIfIdTokenHintMatched) →
    lib.jwtDecode (r.formValue b!"id_token_hint") = some tk → ∀ c, FoundClient r c pre → P tk c pre

/-- The token was issued by whom the application says it is. -/
def OurIssuer (tk : JwtToken) (_ : Client) (t : List Event) : Prop :=
  ∀ iss, ⟨.issuer, iss⟩ ∈ t → tk.claim b!"iss" = some (.str iss)

/-- The token was issued for the client. -/
def ForClient (tk : JwtToken) (c : Client) (_ : List Event) : Prop := tk.claim b!"aud" = some (.str c.id)

/-- The token is signed as ID tokens for the client are. -/
def SignedAsOurs (tk : JwtToken) (c : Client) (_ : List Event) : Prop := tk.alg = some c.idTokenAlg

/-- The two tokens have the same algorithm, subject and times. -/
structure HintAgree (t t' : JwtToken) : Prop where
  alg : t'.alg = t.alg
  claims : ∀ n ∈ [b!"sub", b!"exp", b!"nbf", b!"iat"], t'.claim n = t.claim n

/-- A text that says no token to either, or tokens that agree so far to both. -/
def SameHint : Option JwtToken → Option JwtToken → Prop
  | none, none => True
  | some t, some t' => HintAgree t t'
  | _, _ => False

end Goidc.Spec
