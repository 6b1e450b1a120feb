import Verif.Spec.Secrets
import Verif.Spec.Calls

/-! # Specification: the same history with other tokens and codes

What it means that two histories differ only in the strings the application made up as access tokens,
refresh tokens and authorization codes. -/

namespace Goidc.Spec

/-- The same token with other strings. -/
def renamedToken (s : GoStr → GoStr) (t : OAuthToken) : OAuthToken :=
  { t with accessToken := s t.accessToken, refreshToken := s t.refreshToken }

/-- The same event with other strings for tokens and codes: in every token the application gives or receives,
in the authorization code it makes up, and in the session it stores for that code.  What the request presents
is not changed. -/
def renamed (s : GoStr → GoStr) : Event → Event
  | ⟨.createOAuthToken i b, (t, e)⟩ => ⟨.createOAuthToken i b, (t.map (renamedToken s), e)⟩
  | ⟨.refreshAccessToken i old, (t, e)⟩ => ⟨.refreshAccessToken i (renamedToken s old), (t.map (renamedToken s), e)⟩
  | ⟨.findOAuthTokenByRefreshToken k, (t, e)⟩ => ⟨.findOAuthTokenByRefreshToken k, (t.map (renamedToken s), e)⟩
  | ⟨.findOAuthTokenByAccessToken k, (t, e)⟩ => ⟨.findOAuthTokenByAccessToken k, (t.map (renamedToken s), e)⟩
  | ⟨.createAuthorizationCode, c⟩ => ⟨.createAuthorizationCode, c.map s⟩
  | ⟨.createAuthSession i sess, x⟩ => ⟨.createAuthSession i { sess with code := s sess.code }, x⟩
  | e => e

/-- `Renamed s e e'`: `e'` is what `e` becomes with other tokens and codes.  A response is answered by a
response with the same status (in which the tokens and codes are others); every other event, each log line in
particular, is the same but for the strings themselves. -/
def Renamed (s : GoStr → GoStr) (e e' : Event) : Prop :=
  match e with
  | ⟨.write resp, _⟩ => ∃ resp', e' = ⟨.write resp', ()⟩ ∧ resp'.status = resp.status
  | ⟨.mapRange _, _⟩ => ∃ m x, e' = ⟨.mapRange m, x⟩
  | e => e' = renamed s e

/-- The two lists have the same length and their members are related one by one. -/
inductive Alongside {α β : Type} (R : α → β → Prop) : List α → List β → Prop
  | nil : Alongside R [] []
  | cons {a b l m} : R a b → Alongside R l m → Alongside R (a :: l) (b :: m)

end Goidc.Spec
