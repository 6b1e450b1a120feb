import Verif.Model.Types

/-!
# Effects: calls from goidc to the code around it

`Prog α` is a Go function body seen as a tree of calls to the outside world.  `call q k` performs
the call `q` and continues with whatever the outside answers; `panic` is a Go run-time panic.
-/

namespace Goidc

/-- Every call goidc makes to code it does not contain. -/
inductive Query
  -- bridge/interface.go:75-91 `DataInterface`
  | issuer
  | findClientById (clientId : GoStr)
  | findAuthSessionByCode (code : GoStr)
  | findActiveAuthInfoById (id : Int64)
  | findAuthInfoByUserIdAndClientId (uid : Int64) (clientId : GoStr)
  | findOAuthTokenByAccessToken (token : GoStr)
  | findOAuthTokenByRefreshToken (token : GoStr)
  | createOAuthToken (info : Option AuthInfo) (onTokenEndpoint : Bool)
  | refreshAccessToken (info : AuthInfo) (token : OAuthToken)
  | findUserId (username password : GoStr)
  | createOrUpdateAuthInfo (uid : Int64) (clientId scope : GoStr)
  | createAuthSession (info : Option AuthInfo) (session : Session)
  | disableSession (sess : AuthSession)
  | findUserIdBySubject (sub : GoStr)
  | recordAssertionClaims (clientId jti : GoStr) (issuedAt expiredAt : Int64)
  -- bridge/interface.go:61-73 `AuthorizationCallbacks`
  | showErrorScreen (authErrType : Nat)
  | showLoginScreen (req : Request)
  | showConsentScreen (client : Client) (req : Request)
  | chooseLocale (locales : GoStr)
  | confirmLoginSession
  | requestIsFromLogin
  | getAuthTime
  | getLoginUserId
  | createAuthorizationCode
  | continue_
  | loginUserIsMatchedToSubject (sub : GoStr)
  -- the endpoint's `currentTime().Unix()` (io/time.go) and the jwt library's `TimeFunc().Unix()`
  | now
  | wallNow
  -- the logger and the http.ResponseWriter
  | log (l : LogLine)
  | write (r : HttpResp)
  -- iteration order of a Go map (`for k, v := range m`)
  | mapRange (m : Params)

/-- What each call can answer.  `(T, *bridge.Error)` is a pair of options, so `(nil, nil)` and
`(v, err)` are possible; callbacks returning `(T, error)` answer `none` on error; `Continue` answers
`none` on error and `some none` for a nil request. -/
@[reducible] def Query.Resp : Query → Type
  | .issuer => GoStr
  | .findClientById _ => Option Client × Option ErrType
  | .findAuthSessionByCode _ => Option AuthSession × Option ErrType
  | .findActiveAuthInfoById _ => Option AuthInfo × Option ErrType
  | .findAuthInfoByUserIdAndClientId _ _ => Option AuthInfo × Option ErrType
  | .findOAuthTokenByAccessToken _ => Option OAuthToken × Option ErrType
  | .findOAuthTokenByRefreshToken _ => Option OAuthToken × Option ErrType
  | .createOAuthToken _ _ => Option OAuthToken × Option ErrType
  | .refreshAccessToken _ _ => Option OAuthToken × Option ErrType
  | .findUserId _ _ => Int64 × Option ErrType
  | .createOrUpdateAuthInfo _ _ _ => Option AuthInfo × Option ErrType
  | .createAuthSession _ _ => Option ErrType
  | .disableSession _ => Option ErrType
  | .findUserIdBySubject _ => Int64 × Option ErrType
  | .recordAssertionClaims _ _ _ _ => Option ErrType
  | .showErrorScreen _ => Unit
  | .showLoginScreen _ => Bool
  | .showConsentScreen _ _ => Bool
  | .chooseLocale _ => Option GoStr
  | .confirmLoginSession => Option Bool
  | .requestIsFromLogin => Option Bool
  | .getAuthTime => Option Int64
  | .getLoginUserId => Option Int64
  | .createAuthorizationCode => Option GoStr
  | .continue_ => Option (Option Request)
  | .loginUserIsMatchedToSubject _ => Option Bool
  | .now => Int64
  | .wallNow => Int64
  | .log _ => Unit
  | .write _ => Unit
  | .mapRange m => { l : Params // l.Perm m }

/-- Every call can be answered. -/
instance (q : Query) : Inhabited q.Resp := by
  cases q <;> unfold Query.Resp <;> first | exact ⟨⟨_, List.Perm.refl _⟩⟩ | infer_instance

/-- A Go function body: a tree of calls. -/
inductive Prog (α : Type) : Type
  | ret (a : α)
  | panic
  | call (q : Query) (k : q.Resp → Prog α)

/-- One call together with its answer. -/
structure Event where
  q : Query
  r : q.Resp

/-- Sequential composition. -/
def Prog.bind {α β : Type} : Prog α → (α → Prog β) → Prog β
  | .ret a, f => f a
  | .panic, _ => .panic
  | .call q k, f => .call q fun r => (k r).bind f

instance : Monad Prog where
  pure := .ret
  bind := .bind

/-- How a Go call ends. -/
inductive Outcome (α : Type)
  | ok (a : α)
  | panic

/-- `Runs p t o`: `p` has a complete run whose calls and answers are `t` and that ends with `o`. -/
def Runs {α : Type} : Prog α → List Event → Outcome α → Prop
  | .ret a, t, o => t = [] ∧ o = .ok a
  | .panic, t, o => t = [] ∧ o = .panic
  | .call q k, t, o => ∃ r t', t = ⟨q, r⟩ :: t' ∧ Runs (k r) t' o

/-- `Steps p t`: `t` is the trace of a run of `p` up to some point (the process may crash there). -/
def Steps {α : Type} : Prog α → List Event → Prop
  | .ret _, t => t = []
  | .panic, t => t = []
  | .call q k, t => t = [] ∨ ∃ r t', t = ⟨q, r⟩ :: t' ∧ Steps (k r) t'

/-- Perform one call. -/
def ask (q : Query) : Prog q.Resp := .call q .ret

/-- Log one line (`logger.Debug/Info/Warn/Error`). -/
def logAt (level : LogLevel) (endpoint realm : GoStr) (ev : LogEvent) (params : Params) : Prog Unit :=
  ask (.log ⟨level, endpoint, realm, ev, params⟩)

/-- log/text.go:136-139 `TokenEndpointLog` -/
def tlog (level : LogLevel) (gt : GoStr) (ev : LogEvent) (params : Params) : Prog Unit :=
  logAt level b!"token_endpoint" gt ev params

/-- Write the response. -/
def respond (r : HttpResp) : Prog Unit := ask (.write r)

/-- A grant handler body: ends with a value or an `*OAuthError`. -/
abbrev GrantM := ExceptT OAuthError Prog

end Goidc
