import Verif.Model.Grant

/-! # The token endpoint (token_endpoint.go) -/

namespace Goidc

/-- token_endpoint.go:18-24; `other` stands for ints outside the constants. -/
inductive AcceptanceMethod
  | fromHeader | fromHeaderAndPostBody | fromAll | other
  deriving DecidableEq

/-- token_endpoint.go:32-40 `TokenEndpoint`.  The handlers map is an association list whose first
match counts; the logger and the clock are calls. -/
structure TokenCfg where
  realm : GoStr
  handlers : List (GoStr × GrantFunc)
  errorURIBuilder : Option (OAuthErrorType → GoStr)
  acceptance : AcceptanceMethod
  acceptClientAssertion : Bool

namespace TokenEndpoint

/-- token_endpoint.go:16 -/
def clientAssertionTypeJWT : GoStr := b!"urn:ietf:params:oauth:client-assertion-type:jwt-bearer"

/-- token_endpoint.go:67-76 `NewTokenEndpoint` -/
def new (realm : GoStr) : TokenCfg :=
  { realm := realm, handlers := [], errorURIBuilder := none, acceptance := .fromHeader,
    acceptClientAssertion := false }

/-- token_endpoint.go:42-45 -/
def acceptClientSecret (cfg : TokenCfg) (m : AcceptanceMethod) : TokenCfg :=
  { cfg with acceptance := m }
/-- token_endpoint.go:47-49 -/
def setAcceptClientAssertion (cfg : TokenCfg) (b : Bool) : TokenCfg :=
  { cfg with acceptClientAssertion := b }
/-- token_endpoint.go:59-61 -/
def setErrorURI (cfg : TokenCfg) (uri : GoStr) : TokenCfg :=
  { cfg with errorURIBuilder := some fun _ => uri }
/-- token_endpoint.go:63-65 -/
def setErrorURIBuilder (cfg : TokenCfg) (f : Option (OAuthErrorType → GoStr)) : TokenCfg :=
  { cfg with errorURIBuilder := f }
/-- token_endpoint.go:78-80 `Support`: assignment into the map. -/
def support (cfg : TokenCfg) (type : GoStr) (f : GrantFunc) : TokenCfg :=
  { cfg with handlers := (type, f) :: cfg.handlers.filter (fun kv => kv.1 != type) }

/-- `te.handlers[gt]` -/
def lookupHandler (hs : List (GoStr × GrantFunc)) (gt : GoStr) : Option GrantFunc :=
  match hs.find? (fun kv => kv.1 == gt) with
  | some kv => some kv.2
  | none => none

/-- token_endpoint.go:26-30,404-408: headers set on every response. -/
def commonHeaders : Params :=
  [(b!"Cache-Control", b!"no-store"), (b!"Pragma", b!"no-cache"),
   (b!"Content-Type", b!"application/json; charset=UTF-8")]

/-- token_endpoint.go:419-421,428-430 -/
def withURI (cfg : TokenCfg) (err : OAuthError) : OAuthError :=
  if err.uri = [] then
    match cfg.errorURIBuilder with
    | some f => { err with uri := f err.type }
    | none => err
  else err

/-- token_endpoint.go:410-414 -/
def success (res : Response) : Prog Unit := respond ⟨200, commonHeaders, res.json⟩

/-- token_endpoint.go:426-433 -/
def fail (cfg : TokenCfg) (err : OAuthError) : Prog Unit :=
  respond ⟨err.statusCode, commonHeaders, (withURI cfg err).json⟩

/-- token_endpoint.go:416-424 -/
def failWithAuthHeader (cfg : TokenCfg) (err : OAuthError) : Prog Unit :=
  respond ⟨401, (b!"WWW-Authenticate", b!"Basic realm=\"" ++ cfg.realm ++ b!"\"") :: commonHeaders,
    (withURI cfg err).json⟩

/-- token_endpoint.go:357-363 -/
def failByInvalidClientError (cfg : TokenCfg) (inHeader : Bool) : Prog Unit :=
  if inHeader then failWithAuthHeader cfg (OAuthError.simple .invalidClient)
  else fail cfg (OAuthError.simple .invalidClient)

/-- token_endpoint.go:365-392 `findClientCredential`: `(cid, sec, inHeader)`. -/
def findClientCredential (cfg : TokenCfg) (r : Req) : Option (GoStr × GoStr × Bool) :=
  match r.basicAuth with
  | some (cid, sec) => some (cid, sec, true)
  | none =>
    match cfg.acceptance with
    | .fromHeader => none
    | .fromHeaderAndPostBody =>
      let cid := r.postFormValue b!"client_id"
      let sec := r.postFormValue b!"client_secret"
      if cid ≠ [] ∧ sec ≠ [] then some (cid, sec, false) else none
    | .fromAll =>
      let cid := r.formValue b!"client_id"
      let sec := r.formValue b!"client_secret"
      if cid ≠ [] ∧ sec ≠ [] then some (cid, sec, false) else none
    | .other => none

/-- token_endpoint.go:394-402 -/
def findClientAssertion (r : Req) : Option GoStr :=
  let ca := r.formValue b!"client_assertion"
  let cat := r.formValue b!"client_assertion_type"
  if ca ≠ [] ∧ cat = clientAssertionTypeJWT then some ca else none

/-- token_endpoint.go:273-339 `validateClientBySecret`; `none` is `(nil, false)`, the response having
been written. -/
def validateClientBySecret (cfg : TokenCfg) (r : Req) (gt cid sec : GoStr) (inHeader : Bool) :
    Prog (Option Client) := do
  match ← ask (.findClientById cid) with
  | (_, some .failed) => do                                                    -- 280-287
    tlog .debug gt .noEnabledClient [pMethod b!"FindClientById", (b!"client_id", cid)]
    failByInvalidClientError cfg inHeader
    pure none
  | (_, some .unsupported) => do                                               -- 289-296
    tlog .error gt .interfaceUnsupported [pMethod b!"FindClientById"]
    fail cfg (OAuthError.simple .serverError)
    pure none
  | (_, some _) => do                                                          -- 298-305
    tlog .warn gt .interfaceServerError [pMethod b!"FindClientById", (b!"client_id", cid)]
    fail cfg (OAuthError.simple .serverError)
    pure none
  | (none, none) => do                                                         -- 307-315
    tlog .error gt .interfaceError [pMethod b!"FindClientById", (b!"client_id", cid)]
    fail cfg (OAuthError.simple .serverError)
    pure none
  | (some client, none) =>
    if client.matchSecret sec = false then do                                  -- 317-328
      tlog .info gt .authenticationFailed [(b!"client_id", cid),
        (b!"remote_addr", r.header b!"REMOTE_ADDR"),
        (b!"x-forwarded-for", r.header b!"X-FORWARDED-FOR")]
      failByInvalidClientError cfg inHeader
      pure none
    else if client.canUseGrantType gt = false then do                          -- 329-336
      tlog .info gt .unauthorizedGrantType [(b!"client_id", cid)]
      fail cfg (OAuthError.simple .unauthorizedClient)
      pure none
    else pure (some client)                                                    -- 338

/-- token_endpoint.go:162-262: the key function of `validateClientByAssertion`; the state is the
captured variable `c`. -/
def assertionKeyFunc (gt ca : GoStr) (t : JwtToken) : Prog (Jwt.KeyRes × Option Client) :=
  match t.claimStr b!"sub" with                                                -- 164-177
  | none => do
    tlog .debug gt .missingParam [(b!"assertion", ca)]
    pure (.oauthErr (OAuthError.new .invalidRequest b!"'sub' parameter not found in assertion"), none)
  | some cid => do
    match ← ask (.findClientById cid) with                                     -- 180
    | (c, some .failed) => do                                                  -- 184-195
      tlog .info gt .noEnabledClient
        [pMethod b!"FindClientById", (b!"assertion", ca), (b!"client_id", cid)]
      pure (.oauthErr (OAuthError.simple .invalidClient), c)
    | (c, some .unsupported) => do                                             -- 197-204
      tlog .error gt .interfaceUnsupported [pMethod b!"FindClientById"]
      pure (.oauthErr (OAuthError.simple .serverError), c)
    | (c, some _) => do                                                        -- 206-218
      tlog .warn gt .interfaceServerError
        [pMethod b!"FindClientById", (b!"assertion", ca), (b!"client_id", cid)]
      pure (.oauthErr (OAuthError.simple .serverError), c)
    | (none, none) => do                                                       -- 221-233
      tlog .error gt .interfaceError
        [pMethod b!"FindClientById", (b!"assertion", ca), (b!"client_id", cid)]
      pure (.oauthErr (OAuthError.simple .serverError), none)
    | (some c, none) =>
      match c.assertionKey (t.alg.getD []) (t.kid.getD []) with                -- 236-261
      | none => do
        tlog .debug gt .missingParam [(b!"assertion", ca), (b!"method", b!"AssertionKey")]
        pure (.err, some c)
      | some k => pure (.key k, some c)

/-- token_endpoint.go:153-271 `validateClientByAssertion`.  The source returns `(c, true)` on success;
a nil `c` cannot get there (`c.GetId()` at assertion/error.go:159 panics first), modelled as a panic. -/
def validateClientByAssertion (cfg : TokenCfg) (lib : Lib) (gt ca : GoStr) : Prog (Option Client) := do
  let p ← Jwt.parse lib ca none (assertionKeyFunc gt ca)
  match ← (Assertion.handle ca gt p.2.2 p.1 p.2.1).run with
  | .error err => do
    fail cfg err
    pure none
  | .ok () =>
    match p.2.2 with
    | some c => pure (some c)
    | none => .panic

/-- token_endpoint.go:341-355 `executeGrantHandler` -/
def executeGrantHandler (cfg : TokenCfg) (r : Req) (client : Client) (gt : GoStr) (h : GrantFunc) :
    Prog Unit := do
  let now ← ask .now
  match ← (h r client now).run with
  | .error oerr => fail cfg oerr
  | .ok res => do
    tlog .debug gt .accessTokenGranted [pClient client]
    success res

/-- token_endpoint.go:82-151 `Handler`, the request handler. -/
def handler (cfg : TokenCfg) (lib : Lib) (r : Req) : Prog Unit :=
  if r.method ≠ b!"POST" then do                                               -- 86-94
    tlog .debug b!"common" .invalidHTTPMethod [(b!"http_method", r.method)]
    respond ⟨405, [], []⟩
  else
    let gt := r.formValue b!"grant_type"                                       -- 96
    if gt = [] then do                                                         -- 97-106
      tlog .debug b!"common" .missingParam [pParam b!"grant_type"]
      fail cfg (OAuthError.new .invalidRequest b!"missing 'grant_type' parameter")
    else
      match lookupHandler cfg.handlers gt with                                 -- 108-118
      | none => do
        tlog .debug b!"common" .unsupportedGrantType [(b!"grant_type", gt)]
        fail cfg (OAuthError.new .unsupportedGrantType
          (b!"unsupported 'grant_type' parameter: '" ++ gt ++ b!"'"))
      | some h =>
        match findClientCredential cfg r with                                  -- 120-128
        | some (cid, sec, inHeader) => do
          match ← validateClientBySecret cfg r gt cid sec inHeader with
          | some client => executeGrantHandler cfg r client gt h
          | none => pure ()
        | none =>
          match (if cfg.acceptClientAssertion then findClientAssertion r else none) with  -- 130-140
          | some ca => do
            match ← validateClientByAssertion cfg lib gt ca with
            | some client => executeGrantHandler cfg r client gt h
            | none => pure ()
          | none => do                                                         -- 142-147
            tlog .debug gt .noCredential [(b!"grant_type", gt)]
            failWithAuthHeader cfg (OAuthError.simple .invalidClient)

end TokenEndpoint
end Goidc
