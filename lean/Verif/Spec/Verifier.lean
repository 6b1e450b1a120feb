import Verif.Spec.Ignored
import Verif.Spec.TokenDecision

/-! # Specification: the same history with another code verifier

The value of `code_verifier` in an authorization request is what later proves, at the token endpoint, that
the code was requested by the one who uses it.  Here: what it means that two histories differ in that value
only. -/

namespace Goidc.Spec

/-- The value `v` in place of the value `u`. -/
def inPlace (u v x : GoStr) : GoStr := if x = u then v else x

/-- A request with the code verifier `v` in place of `u`. -/
def Request.rebound (u v : GoStr) (q : Request) : Request := { q with codeVerifier := inPlace u v q.codeVerifier }

/-- The same event with the code verifier `v` in place of `u`, wherever the application gives or receives
a code verifier: in the request handed to the login screen and the consent screen and handed back by
`Continue`, and in the session that is stored, found by its code and disabled.  All other events, the log
lines and the responses in particular, are the same. -/
def rebound (u v : GoStr) : Event → Event
  | ⟨.showLoginScreen q, x⟩ => ⟨.showLoginScreen (Request.rebound u v q), x⟩
  | ⟨.showConsentScreen c q, x⟩ => ⟨.showConsentScreen c (Request.rebound u v q), x⟩
  | ⟨.continue_, some (some q)⟩ => ⟨.continue_, some (some (Request.rebound u v q))⟩
  | ⟨.createAuthSession i s, x⟩ => ⟨.createAuthSession i { s with codeVerifier := inPlace u v s.codeVerifier }, x⟩
  | ⟨.findAuthSessionByCode c, (some s, e)⟩ =>
      ⟨.findAuthSessionByCode c, (some { s with codeVerifier := inPlace u v s.codeVerifier }, e)⟩
  | ⟨.disableSession s, x⟩ => ⟨.disableSession { s with codeVerifier := inPlace u v s.codeVerifier }, x⟩
  | e => e

/-- The parameters of the authorization endpoint other than the code verifier. -/
def otherParamNames : List GoStr := authorizationParamNames.filter fun n => n ≠ b!"code_verifier"

/-- The policy allows a code verifier of this length (the length is the only thing that is checked). -/
def VerifierAllowed (policy : Policy) (v : GoStr) : Prop := v = [] ∨ (v.length : Int) ≤ policy.maxCodeVerifierLength.toInt

end Goidc.Spec
