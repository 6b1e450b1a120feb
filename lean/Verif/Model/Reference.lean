import Verif.Model.TestStore

/-! # The reference clients and the set-up of the reference store (test_helper/client.go, store.go) -/

namespace Goidc

/-- test_helper/client.go:9-19.  `grantTypes` is the list of the keys of the Go map (its values are always
`true`); `Enabled` is never read. -/
structure TestClient where
  id : GoStr
  ownerId : Int64
  secret : GoStr
  redirectURI : GoStr
  idTokenAlg : GoStr
  idTokenKeyId : GoStr
  idTokenKey : Option Key
  grantTypes : List GoStr

namespace TestClient

/-- test_helper/client.go:22-34 `NewTestClient` -/
def new (ownerId : Int64) (id secret redirectURI alg : GoStr) (key : Option Key) (keyId : GoStr) : TestClient where
  ownerId := ownerId
  id := id
  secret := secret
  redirectURI := redirectURI
  idTokenAlg := alg
  idTokenKey := key
  idTokenKeyId := keyId
  grantTypes := []

/-- test_helper/client.go:36-38 `AllowToUseGrantType` -/
def allowToUseGrantType (c : TestClient) (gt : GoStr) : TestClient := { c with grantTypes := gt :: c.grantTypes }

/-- test_helper/client.go:40-97: the `bridge.Client` a `TestClient` is. -/
def toClient (c : TestClient) : Client where
  id := c.id
  ownerUserId := c.ownerId
  idTokenAlg := c.idTokenAlg
  idTokenKeyId := c.idTokenKeyId
  idTokenKey := c.idTokenKey
  matchSecret s := c.secret = s
  canUseFlow _ := true
  canUseGrantType gt := c.grantTypes.contains gt
  canUseScope _ _ := true
  canUseRedirectURI u := c.redirectURI = u
  assertionKey _ _ := some (.bytes c.secret)
  noConsentPromptPolicy := .forceConsent
  nonePromptPolicy := .forbidden

end TestClient

/-- A call that sets up the reference store: `CreateNewUser`, `CreateNewClient`, `AllowToUseGrantType` on the
client that the `k`-th call (from 0) of `CreateNewClient` returned, `ClearAuthData`, `ClearAll`. -/
inductive SetupOp
  | createUser (name pass : GoStr)
  | createClient (owner : Int64) (id secret redirectURI : GoStr)
  | allow (k : Nat) (gt : GoStr)
  | clearAuthData
  | clearAll
  deriving DecidableEq

/-- test_helper/store.go:21-30: the parts the set-up calls change.  `objs` are all clients ever created, in
order; the Go map `clients` points to some of them (`clients[id]` is a position in `objs`). -/
structure Setup where
  users : List TestUser
  userIdPod : Nat
  objs : List TestClient
  clients : List (GoStr × Nat)

namespace Setup

/-- test_helper/store.go:32-60 `NewTestStore` -/
def new : Setup := ⟨[], 0, [], []⟩

/-- test_helper/store.go:62-67 `CreateNewUser` -/
def createNewUser (s : Setup) (name pass : GoStr) : Setup :=
  { s with
    users := ⟨Int64.ofNat s.userIdPod, name, pass⟩ :: s.users.filter (·.id ≠ Int64.ofNat s.userIdPod)
    userIdPod := s.userIdPod + 1 }

/-- test_helper/store.go:69-73 `CreateNewClient`; `key` is the private key of the store (34-50). -/
def createNewClient (key : GoStr) (s : Setup) (owner : Int64) (id secret redirectURI : GoStr) : Setup :=
  { s with
    objs := s.objs ++ [TestClient.new owner id secret redirectURI b!"RS256" (some (.rsaPriv key)) b!"my_service_key_id"]
    clients := (id, s.objs.length) :: s.clients.filter (·.1 ≠ id) }

/-- One set-up call.  `ClearAuthData` (test_helper/store.go:118-123) empties what no set-up call fills;
`ClearAll` (125-130) also forgets users and clients. -/
def apply (key : GoStr) (s : Setup) : SetupOp → Setup
  | .createUser name pass => s.createNewUser name pass
  | .createClient owner id secret uri => s.createNewClient key owner id secret uri
  | .allow k gt => { s with objs := s.objs.modify k (·.allowToUseGrantType gt) }
  | .clearAuthData => s
  | .clearAll => { s with users := [], userIdPod := 0, clients := [] }

/-- The reference store as the requests find it. -/
def store (s : Setup) : StoreState where
  users := s.users
  clients := s.clients.filterMap fun p => (s.objs[p.2]?).map TestClient.toClient
  infoIdPod := 0
  infos := []
  sessions := []
  tokens := []

end Setup

/-- `NewTestStore()` followed by set-up calls. -/
def setupOf (key : GoStr) (ops : List SetupOp) : Setup := ops.foldl (Setup.apply key) Setup.new

end Goidc
