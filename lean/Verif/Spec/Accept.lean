import Verif.Spec.Grants

/-!
# Token requests that have to be granted

`Answered t q x` fixes what the application answers when (and if) it is asked `q` during the run `t`;
the definitions below say, in terms of the request and of such answers, that a client's credentials are
in order.
-/

namespace Goidc.Spec

/-- Whenever `q` was asked in `t`, the answer was `x`. -/
def Answered (t : List Event) (q : Query) (x : q.Resp) : Prop := ∀ x', ⟨q, x'⟩ ∈ t → x' = x

/-- The claim `k` is the number `n` (a JSON float or a `json.Number`). -/
def NumberClaim (tk : JwtToken) (k : GoStr) (n : Int64) : Prop :=
  tk.claim k = some (.float n) ∨ tk.claim k = some (.number (some n))

/-- The times of an assertion are in order at the library's clock `wall`: not expired, and neither
`iat` nor `nbf`, if present, in the future. -/
def InTime (tk : JwtToken) (wall : Int64) : Prop :=
  (∃ exp, NumberClaim tk b!"exp" exp ∧ wall.toInt ≤ exp.toInt) ∧
  (tk.claim b!"iat" = none ∨ ∃ n, NumberClaim tk b!"iat" n ∧ n.toInt ≤ wall.toInt) ∧
  (tk.claim b!"nbf" = none ∨ ∃ n, NumberClaim tk b!"nbf" n ∧ n.toInt ≤ wall.toInt)

/-- The assertion `a` of client `c` has to be accepted: it decodes, verifies under the client's key, is
in time, addressed to the issuer, and the application records it without complaint. -/
def GoodAssertion (lib : Lib) (c : Client) (a : GoStr) (tk : JwtToken) (t : List Event) : Prop :=
  VerifiedAssertion lib c a tk ∧ (∀ wall, ⟨.wallNow, wall⟩ ∈ t → InTime tk wall) ∧
  (∃ exp, NumberClaim tk b!"exp" exp) ∧
  (∃ iss, iss ≠ [] ∧ tk.claimStr b!"aud" = some iss ∧ Answered t .issuer iss) ∧
  ∀ jti iat exp, Answered t (.recordAssertionClaims c.id jti iat exp) none

/-- The client's credentials are in order. -/
inductive ClientInOrder (cfg : TokenCfg) (lib : Lib) (r : Req) (c : Client) (t : List Event) : Prop
  | secret (cid sec b) : Presented cfg.acceptance r cid sec b →
      Answered t (.findClientById cid) (some c, none) → c.matchSecret sec = true →
      c.canUseGrantType (r.formValue b!"grant_type") = true → ClientInOrder cfg lib r c t
  | assertion (ca tk sub) : (∀ cid sec b, ¬ Presented cfg.acceptance r cid sec b) →
      cfg.acceptClientAssertion = true → PresentedAssertion r ca → tk.claimStr b!"sub" = some sub →
      Answered t (.findClientById sub) (some c, none) → GoodAssertion lib c ca tk t →
      ClientInOrder cfg lib r c t

/-- The request is answered 200. -/
def Granted (t : List Event) (o : Outcome Unit) : Prop :=
  o = .ok () ∧ ∃ pre resp, t = pre ++ [wrote resp] ∧ resp.status = 200

end Goidc.Spec
