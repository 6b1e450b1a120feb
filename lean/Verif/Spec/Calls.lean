import Verif.Model.Prog

/-! # Kinds of calls, for stating properties of traces -/

namespace Goidc

/-- A method of the application's `DataInterface` (bridge/interface.go:75-91). -/
def Query.isData : Query → Bool
  | .issuer | .findClientById _ | .findAuthSessionByCode _ | .findActiveAuthInfoById _
  | .findAuthInfoByUserIdAndClientId _ _ | .findOAuthTokenByAccessToken _
  | .findOAuthTokenByRefreshToken _ | .createOAuthToken _ _ | .refreshAccessToken _ _
  | .findUserId _ _ | .createOrUpdateAuthInfo _ _ _ | .createAuthSession _ _ | .disableSession _
  | .findUserIdBySubject _ | .recordAssertionClaims _ _ _ _ => true
  | _ => false

/-- A `DataInterface` method that changes stored data. -/
def Query.isMutation : Query → Bool
  | .createOAuthToken _ _ | .refreshAccessToken _ _ | .createOrUpdateAuthInfo _ _ _
  | .createAuthSession _ _ | .disableSession _ | .recordAssertionClaims _ _ _ _ => true
  | _ => false

/-- A call to the logger. -/
def Query.isLog : Query → Bool
  | .log _ => true
  | _ => false

/-- Whether a call writes the HTTP response. -/
def Query.isWrite : Query → Bool
  | .write _ => true
  | _ => false

/-- The event of writing `resp`. -/
abbrev wrote (resp : HttpResp) : Event := ⟨.write resp, ()⟩

/-- The event of a log line. -/
abbrev logged (l : LogLine) : Event := ⟨.log l, ()⟩

/-- Whether the call is `FindClientById`. -/
def Query.isFindClient : Query → Bool
  | .findClientById _ => true
  | _ => false

/-- The error code a client is told when the application refuses (`ErrFailed`) a data operation. -/
def Query.refusalCode : Query → OAuthErrorType
  | .findClientById _ => .invalidClient
  | .recordAssertionClaims _ _ _ _ => .invalidRequest
  | _ => .invalidGrant

/-- The outcome of a data operation as goidc distinguishes them. -/
inductive Answer
  | good
  /-- an error of this kind -/
  | err (e : ErrType)
  /-- `(nil, nil)` -/
  | nil
  deriving DecidableEq

/-- Classification of an `(object, error)` answer. -/
def Answer.ofPair {α : Type} : Option α × Option ErrType → Answer
  | (_, some e) => .err e
  | (some _, none) => .good
  | (none, none) => .nil

/-- Classification of an error-only answer. -/
def Answer.ofErr : Option ErrType → Answer
  | some e => .err e
  | none => .good

/-- How the application answered a call; everything that is not a data operation is `good`. -/
def Event.answer : Event → Answer
  | ⟨.findClientById _, r⟩ => Answer.ofPair r
  | ⟨.findAuthSessionByCode _, r⟩ => Answer.ofPair r
  | ⟨.findActiveAuthInfoById _, r⟩ => Answer.ofPair r
  | ⟨.findAuthInfoByUserIdAndClientId _ _, r⟩ => Answer.ofPair r
  | ⟨.findOAuthTokenByAccessToken _, r⟩ => Answer.ofPair r
  | ⟨.findOAuthTokenByRefreshToken _, r⟩ => Answer.ofPair r
  | ⟨.createOAuthToken _ _, r⟩ => Answer.ofPair r
  | ⟨.refreshAccessToken _ _, r⟩ => Answer.ofPair r
  | ⟨.findUserId _ _, r⟩ => Answer.ofErr r.2
  | ⟨.createOrUpdateAuthInfo _ _ _, r⟩ => Answer.ofPair r
  | ⟨.createAuthSession _ _, r⟩ => Answer.ofErr r
  | ⟨.disableSession _, r⟩ => Answer.ofErr r
  | ⟨.findUserIdBySubject _, r⟩ => Answer.ofErr r.2
  | ⟨.recordAssertionClaims _ _ _ _, r⟩ => Answer.ofErr r
  | _ => .good

/-! ## Runs -/

/-- `p` can run with calls `t` and return `a`. -/
def XOk {ε α : Type} (p : ExceptT ε Prog α) (t : List Event) (a : α) : Prop := Runs p.run t (.ok (.ok a))
/-- `p` can run with calls `t` and end with the exception `e`. -/
def XErr {ε α : Type} (p : ExceptT ε Prog α) (t : List Event) (e : ε) : Prop := Runs p.run t (.ok (.error e))
/-- `p` can run with calls `t` and panic. -/
def XPanic {ε α : Type} (p : ExceptT ε Prog α) (t : List Event) : Prop := Runs p.run t .panic

/-- No call of the trace writes a response. -/
def NoWrite (t : List Event) : Prop := ∀ e ∈ t, e.q.isWrite = false

/-- The call created or refreshed a token. -/
def Issued : Event → Prop
  | ⟨.createOAuthToken _ _, (some _, none)⟩ => True
  | ⟨.refreshAccessToken _ _, (some _, none)⟩ => True
  | _ => False

/-- A chain of calls, each a step of a store. -/
inductive Chain {σ : Type} (st : σ → Event → σ → Prop) : σ → List Event → σ → Prop
  | nil (s) : Chain st s [] s
  | cons {s s1 s2 e t} : st s e s1 → Chain st s1 t s2 → Chain st s (e :: t) s2

end Goidc
