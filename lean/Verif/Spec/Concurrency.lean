import Verif.Model.Prog

/-! # Executions of several requests at once -/

namespace Goidc.Spec

/-- The body of one request being served. -/
structure Thread where
  {α : Type}
  body : Prog α

/-- The calls of request `i` in a global sequence of calls. -/
def callsOf (i : Nat) (g : List (Nat × Event)) : List Event := (g.filter (·.1 = i)).map (·.2)

/-- `g` is a sequence of calls made by the requests `ths` running concurrently, in any order and each
of them stopping anywhere. -/
def Interleaves (ths : Nat → Thread) (g : List (Nat × Event)) : Prop :=
  ∀ i, Steps (ths i).body (callsOf i g)

/-- The contract a store must meet: `DisableSession` reports success at most once per code. -/
def DisablesOnce (g : List (Nat × Event)) : Prop :=
  ∀ a b c i j s s', g = a ++ (i, ⟨.disableSession s, none⟩) :: b ++ (j, ⟨.disableSession s', none⟩) :: c →
    s.code ≠ s'.code

/-- The session returned for a code carries that code. -/
def SessionsMatchCode (g : List (Nat × Event)) : Prop :=
  ∀ i k s, (i, ⟨.findAuthSessionByCode k, (some s, none)⟩) ∈ g → s.code = k

/-- The contract a store must meet: `RecordAssertionClaims` reports success at most once per client
and `jti`. -/
def RecordsOnce (g : List (Nat × Event)) : Prop :=
  ∀ a b c i j cid cid' jti jti' n m n' m',
    g = a ++ (i, ⟨.recordAssertionClaims cid jti n m, none⟩) :: b ++
      (j, ⟨.recordAssertionClaims cid' jti' n' m', none⟩) :: c → ¬ (cid = cid' ∧ jti = jti')

/-- `CreateAuthSession` is called at most once per code: authorization codes are fresh. -/
def CodesFresh (g : List (Nat × Event)) : Prop :=
  ∀ a b c i j info info' x x' rr rr',
    g = a ++ (i, ⟨.createAuthSession info x, rr⟩) :: b ++ (j, ⟨.createAuthSession info' x', rr'⟩) :: c →
    x.code ≠ x'.code

end Goidc.Spec
