import Verif.Model.Scope
import Verif.Model.Encoding
import Verif.Model.Prog

/-!
# The reference store (test_helper/store.go)

The state of a `TestStore` and what each of its `DataInterface` methods does to it.  Each method is one
atomic step.  Go maps keyed by a field of their values are lists of values, looked up by that field;
iteration over a Go map (lines 109-116, 137-144, 184-191, 214-221) may find any matching entry, so the
step is a relation.
-/

namespace Goidc

/-- test_helper/store.go:15-19 -/
structure TestUser where
  id : Int64
  username : GoStr
  password : GoStr
  deriving DecidableEq

/-- test_helper/store.go:21-30.  Simplifications: the maps `clients`, `infos`, `sessions` and
`accessTokenes` are keyed by the id, id, code and access token of their values, so they are lists of
values; `infoIdPod` is a natural number (ids are its reduction to `int64`); `privKey` and `userIdPod`
are only used by the set-up functions, which are not `DataInterface` methods.  Clients are arbitrary
`bridge.Client`s rather than `TestClient`s. -/
structure StoreState where
  users : List TestUser
  clients : List Client
  infoIdPod : Nat
  infos : List AuthInfo
  sessions : List AuthSession
  tokens : List OAuthToken

namespace StoreState

/-- test_helper/store.go:147 `s.clients[cid]` -/
def client (s : StoreState) (cid : GoStr) : Option Client := s.clients.find? (·.id = cid)
/-- test_helper/store.go:169 `s.infos[id]` -/
def info (s : StoreState) (id : Int64) : Option AuthInfo := s.infos.find? (·.id = id)
/-- test_helper/store.go:156 `s.sessions[code]` -/
def session (s : StoreState) (code : GoStr) : Option AuthSession := s.sessions.find? (·.code = code)
/-- test_helper/store.go:177 `s.accessTokenes[token]` -/
def token (s : StoreState) (tok : GoStr) : Option OAuthToken := s.tokens.find? (·.accessToken = tok)

/-- `s.infos[i.id] = i` (test_helper/store.go:101 and the update through the pointer, 104-105) -/
def setInfo (s : StoreState) (i : AuthInfo) : StoreState :=
  { s with infos := i :: s.infos.filter (·.id ≠ i.id) }
/-- test_helper/store.go:78-86 `s.sessions[session.Code] = …` -/
def setSession (s : StoreState) (x : AuthSession) : StoreState :=
  { s with sessions := x :: s.sessions.filter (·.code ≠ x.code) }
/-- test_helper/store.go:194 `delete(s.sessions, …)` -/
def deleteSession (s : StoreState) (code : GoStr) : StoreState :=
  { s with sessions := s.sessions.filter (·.code ≠ code) }
/-- test_helper/store.go:206,231 `s.accessTokenes[t] = …` -/
def setToken (s : StoreState) (t : OAuthToken) : StoreState :=
  { s with tokens := t :: s.tokens.filter (·.accessToken ≠ t.accessToken) }
/-- test_helper/store.go:230 `delete(s.accessTokenes, oldToken)` -/
def deleteToken (s : StoreState) (tok : GoStr) : StoreState :=
  { s with tokens := s.tokens.filter (·.accessToken ≠ tok) }

/-- A lookup's answer: the value, or `bridge.NewError(bridge.ErrFailed)` (test_helper/store.go:148-152
and the like). -/
def answer {α : Type} : Option α → Option α × Option ErrType
  | some v => (some v, none)
  | none => (none, some .failed)

/-- test_helper/store.go:198-208 `CreateOAuthToken`'s token for an authorization, created at `n1`/`n2`
(its two readings of `time.Now()`) -/
def newToken (info : AuthInfo) (n1 n2 : Int64) : OAuthToken where
  authId := info.id
  accessToken := b!"ACCESS_TOKEN_" ++ itoa info.id
  accessTokenExpiresIn := 86400
  refreshedAt := n1
  refreshToken := if Scope.includeOfflineAccess info.scope then b!"REFRESH_TOKEN_" ++ itoa info.id else []
  refreshTokenExpiresIn := 2592000
  createdAt := n2

/-- test_helper/store.go:77-88 (and auth_session.go:25-32 for `GetCreatedAt` and
`GetIdTokenExpiresIn`) -/
def newSession (info : AuthInfo) (x : Session) : AuthSession where
  code := x.code
  authId := info.id
  authTime := x.authTime
  idTokenExpiresIn := 604800
  redirectURI := x.redirectURI
  codeVerifier := x.codeVerifier
  expiresIn := x.expiresIn
  nonce := x.nonce
  createdAt := x.authTime

/-- test_helper/store.go:94-100,104-105: a new authorization -/
def newInfo (id : Int64) (uid : Int64) (clientId scope : GoStr) : AuthInfo where
  id := id
  clientId := clientId
  userId := uid
  subject := itoa uid
  scope := scope
  authorizedAt := 0
  isActive := true

/-- test_helper/store.go:104-105: the updated authorization -/
def updInfo (i : AuthInfo) (uid : Int64) (scope : GoStr) : AuthInfo :=
  { i with subject := itoa uid, scope := scope }

/-- test_helper/store.go:226-228: the refreshed token -/
def refreshed (t : OAuthToken) (n : Int64) : OAuthToken :=
  { t with accessToken := t.accessToken ++ b!":R", accessTokenExpiresIn := 86400, refreshedAt := n }

/-- The state after `CreateOrUpdateAuthInfo` made a new authorization (test_helper/store.go:93-105). -/
def addInfo (s : StoreState) (uid : Int64) (clientId scope : GoStr) : StoreState :=
  { s.setInfo (newInfo (Int64.ofNat s.infoIdPod) uid clientId scope) with infoIdPod := s.infoIdPod + 1 }

/-- test_helper/store.go:77-116,132-233: one method of the store.  `step s q r s'`: in state `s`
the call `q` can be answered `r`, leaving state `s'`.  Passing a nil authorization, or refreshing a
token that is not stored, panics inside the store: no step.  Calls that are not `DataInterface` methods
leave the state alone. -/
def step (s : StoreState) : (q : Query) → q.Resp → StoreState → Prop
  | .issuer, r, s' => r = b!"http://example.org/" ∧ s' = s
  | .findClientById cid, r, s' => r = answer (s.client cid) ∧ s' = s
  | .findAuthSessionByCode code, r, s' => r = answer (s.session code) ∧ s' = s
  | .findActiveAuthInfoById id, r, s' => r = answer (s.info id) ∧ s' = s
  | .findAuthInfoByUserIdAndClientId _ _, r, s' => r = (none, some .unsupported) ∧ s' = s
  | .findOAuthTokenByAccessToken tok, r, s' => r = answer (s.token tok) ∧ s' = s
  | .findOAuthTokenByRefreshToken tok, r, s' => s' = s ∧
      ((∃ t ∈ s.tokens, t.refreshToken = tok ∧ r = (some t, none)) ∨
       ((∀ t ∈ s.tokens, t.refreshToken ≠ tok) ∧ r = (none, some .failed)))
  | .createOAuthToken none _, _, _ => False
  | .createOAuthToken (some info) _, r, s' =>
      ∃ n1 n2, r = (some (newToken info n1 n2), none) ∧ s' = s.setToken (newToken info n1 n2)
  | .refreshAccessToken _ old, r, s' =>
      ∃ t n, s.token old.accessToken = some t ∧ r = (some (refreshed t n), none) ∧
        s' = (s.deleteToken old.accessToken).setToken (refreshed t n)
  | .findUserId name pass, r, s' => s' = s ∧
      ((∃ u ∈ s.users, u.username = name ∧ u.password = pass ∧ r = (u.id, none)) ∨
       ((∀ u ∈ s.users, ¬ (u.username = name ∧ u.password = pass)) ∧ r = (-1, some .failed)))
  | .createOrUpdateAuthInfo uid cid sc, r, s' =>
      (∃ i ∈ s.infos, i.userId = uid ∧ i.clientId = cid ∧ r = (some (updInfo i uid sc), none) ∧
        s' = s.setInfo (updInfo i uid sc)) ∨
      ((∀ i ∈ s.infos, ¬ (i.userId = uid ∧ i.clientId = cid)) ∧
        r = (some (newInfo (Int64.ofNat s.infoIdPod) uid cid sc), none) ∧ s' = s.addInfo uid cid sc)
  | .createAuthSession none _, _, _ => False
  | .createAuthSession (some info) x, r, s' => r = none ∧ s' = s.setSession (newSession info x)
  | .disableSession x, r, s' => r = none ∧ s' = s.deleteSession x.code
  | .findUserIdBySubject sub, r, s' => s' = s ∧
      ((∃ u ∈ s.users, u.username = sub ∧ r = (u.id, none)) ∨
       ((∀ u ∈ s.users, u.username ≠ sub) ∧ r = (-1, some .failed)))
  | .recordAssertionClaims _ _ _ _, r, s' => r = none ∧ s' = s
  | _, _, s' => s' = s

/-- The same, while the clock shows `n1`, and `n2` when it is read a second time (store.go:204-205 and
226 read it, and so do the goidc calls of `time.Now()`). -/
def stepAt (s : StoreState) (n1 n2 : Int64) : (q : Query) → q.Resp → StoreState → Prop
  | .createOAuthToken (some info) _, r, s' =>
      r = (some (newToken info n1 n2), none) ∧ s' = s.setToken (newToken info n1 n2)
  | .refreshAccessToken _ old, r, s' =>
      ∃ t, s.token old.accessToken = some t ∧ r = (some (refreshed t n1), none) ∧
        s' = (s.deleteToken old.accessToken).setToken (refreshed t n1)
  | .now, r, s' => r = n1 ∧ s' = s
  | .wallNow, r, s' => r = n1 ∧ s' = s
  | q, r, s' => s.step q r s'

end StoreState

/-- One call answered by the reference store. -/
def StoreState.Answers (s : StoreState) (e : Event) (s' : StoreState) : Prop := s.step e.q e.r s'

end Goidc
