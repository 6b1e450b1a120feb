import Verif.Model.Settings
import Verif.Model.Reference
import Verif.Lemmas.TestStore
import Verif.Sample.Crypto

/-!
# Replaying the tests of the repository on the model

The modules under `Conformance` are not proofs of properties: they validate the model.  Each test of the repository is
replayed on it, with golang-jwt and the cryptography made concrete (`Model/Jws`, `Sample/Crypto`), and the kernel evaluates
whether the test passes.
-/

namespace Goidc.Conformance

open TokenEndpoint

/-- The private key of the test store (test_helper/store.go:34-50), of the ID token test (id_token/id_token_test.go) and,
its public half, of test_helper/http_client.go:139-144. -/
def testKey : GoStr := Crypto.rsaKey 128 0xb31725147d51b23026c6ed8230828e1776a123861808649e0aafb54ac0873b17ec740e806788eeae854e8757130f89bc520c8190207a313fd1c93c61755e512dec43307b06f945c92edf7afed900844d1990330ebc799519a9db60cb5245085b0551c33071571f4ea5d4d345047af1fd445047a2ac49b110b4975c9b72cea8d1 0x82025350c489022a227c56ff23e822eeb597d50a0b784c52cebf2f84ccaf5f1ec6f099766db2e2529f439acc8371cc3381fcc231b6e1fdceaea4bfc8a0438ff9e73405aa6e1091178f709f7829d6cff32d2c671e44759c698696bdced236f6da14786b0f5316beee2487b962e58a5811b8ee9fdc9ecf6254657cb1756dadd001

/-- goidc with golang-jwt. -/
def lib : Lib := Jws.lib Crypto.prims

/-- What the clock says throughout a test. -/
def clock : Int64 := 1461848522

/-- Run a handler over the reference store: what it returns, its last response, and the store afterwards. -/
def serve {α : Type} : Prog α → StoreState → Option HttpResp → Option (α × Option HttpResp × StoreState)
  | .ret a, s, w => some (a, w, s)
  | .panic, _, _ => none
  | .call q k, s, w =>
    match StoreState.det clock s q with
    | some (r, s') => serve (k r) s' (match q with | .write resp => some resp | _ => w)
    | none => none

/-- test_helper/matcher.go: what a test wants of a value. -/
inductive Want
  | str (s : GoStr)
  | int (n : Int64)
  | absent

/-- The members of a JSON object. -/
def members (body : GoStr) : List (GoStr × Json) :=
  match Json.parse body with
  | some (.obj m) => m.map fun kv => (Json.unquote kv.1, kv.2)
  | _ => []

/-- Whether a JSON object has what is wanted. -/
def has (m : List (GoStr × Json)) (k : GoStr) (w : Want) : Bool :=
  match w, m.find? (·.1 == k) with
  | .absent, none => true
  | .str s, some (_, .str raw) => Json.unquote raw == s
  | .int n, some (_, .num raw) => atoi raw == some n
  | _, _ => false

/-- Whether the ID token in a response verifies under the public key, is not expired, and has the claims. -/
def idTokenOk (m : List (GoStr × Json)) (claims : List (GoStr × GoStr)) : Bool :=
  match m.find? (·.1 == b!"id_token") with
  | some (_, .str raw) =>
    match lib.jwtDecode (Json.unquote raw) with
    | some tk => Jwt.verifies lib (tk.alg.getD []) tk.raw (.rsaPub testKey) && Jwt.expOk clock (tk.claim b!"exp") &&
        claims.all fun kv => tk.claimStr kv.1 == some kv.2
    | none => false
  | _ => false

/-- The headers of a response, by name. -/
def headersOk (resp : HttpResp) (want : Params) : Bool :=
  want.all fun kv => (resp.headers.find? fun h => toLower h.1 == toLower kv.1).any (·.2 == kv.2)

/-- One step of a test. -/
inductive Step
  | config (op : TokenOp)
  | authInfo (user : Int64) (client scope : GoStr)
  | session (x : Session)
  | request (values headers : Params) (code : Nat) (respHeaders : Params) (body : List (GoStr × Want))
      (idToken : Option (List (GoStr × GoStr)))

/-- Run the steps; `info` is the result of the last `CreateOrUpdateAuthInfo`. -/
def passes : List Step → TokenCfg → StoreState → Option AuthInfo → Bool
  | [], _, _, _ => true
  | .config op :: rest, cfg, s, info => passes rest (op.apply cfg) s info
  | .authInfo u c sc :: rest, cfg, s, _ =>
    match StoreState.det clock s (.createOrUpdateAuthInfo u c sc) with
    | some (r, s') => passes rest cfg s' r.1
    | none => false
  | .session x :: rest, cfg, s, info =>
    match StoreState.det clock s (.createAuthSession info x) with
    | some (_, s') => passes rest cfg s' info
    | none => false
  | .request values headers code hs body idt :: rest, cfg, s, info =>
    match serve (handler cfg lib ⟨b!"POST", b!"/", headers, values, [], false⟩) s none with
    | some (_, some resp, s') =>
      resp.status == code && headersOk resp hs && (body.all fun kv => has (members resp.body) kv.1 kv.2) &&
        (match idt with | some claims => idTokenOk (members resp.body) claims | none => true) && passes rest cfg s' info
    | _ => false

/-- A test of the token endpoint: `NewTokenEndpoint`, the set-up of the store, and the steps. -/
def tokenTest (setup : List SetupOp) (steps : List Step) : Bool :=
  passes steps (TokenEndpoint.new b!"api.example.org") (setupOf testKey setup).store none

end Goidc.Conformance
