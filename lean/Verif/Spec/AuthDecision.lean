import Verif.Spec.Authorization
import Verif.Spec.ResponseTypes

/-! # The decision table of the authorization endpoint

How an authorization request is answered, as a function of its parameters, of the client's and the
provider's policies, and of what the application answered.  Each stage lists its possible outcomes with
the calls (other than log lines) that lead to them. -/

namespace Goidc.Spec

/-- How a request to the authorization endpoint ends. -/
inductive Ending
  /-- it returns this value, and nothing is sent to the client -/
  | stop (b : Bool)
  /-- it sends this error code and this description (none, if empty) to the redirect URI in this response mode,
  and returns false -/
  | error (mode code desc : GoStr)
  /-- it sends these parameters to the redirect URI in this response mode, and returns true -/
  | success (mode : GoStr) (params : Params)
  /-- it panics: the application answered without error and without a value -/
  | crash

/-- A stage: from the calls it made, either a result for the next stage or the end. -/
abbrev Stage (α : Type) := List Event → α ⊕ Ending → Prop

/-- One stage after another. -/
def Stage.andThen {α β : Type} (a : Stage α) (b : α → Stage β) : Stage β := fun calls res =>
  (∃ e, res = .inr e ∧ a calls (.inr e)) ∨ ∃ c1 c2 x, calls = c1 ++ c2 ∧ a c1 (.inl x) ∧ b x c2 res

/-- The stage that only ends. -/
def Stage.ends {α : Type} (e : Ending) : Stage α := fun calls res => calls = [] ∧ res = .inr e

/-- A stage that always ends, where a stage with a result is expected. -/
def Stage.last {α : Type} (a : Stage Empty) : Stage α := fun calls res => ∃ e, res = .inr e ∧ a calls (.inr e)

/-- The stage that does nothing. -/
def Stage.skip : Stage Unit := fun calls res => calls = [] ∧ res = .inl ()

/-! ## Which client, and may it use this redirect URI -/

/-- Nothing is sent to a redirect URI the client has not registered: the application shows an error
screen.  The screens are 0 (client), 1 (missing redirect URI), 2 (redirect URI not allowed) and 3
(the application's fault). -/
inductive Identification (r : Req) : Stage Client
  | noClientId : r.formValue b!"client_id" = [] →
      Identification r [⟨.showErrorScreen 0, ()⟩] (.inr (.stop false))
  | noRedirectURI : r.formValue b!"client_id" ≠ [] → r.formValue b!"redirect_uri" = [] →
      Identification r [⟨.showErrorScreen 1, ()⟩] (.inr (.stop false))
  | unknownClient {c} : r.formValue b!"client_id" ≠ [] → r.formValue b!"redirect_uri" ≠ [] →
      Identification r [⟨.findClientById (r.formValue b!"client_id"), (c, some .failed)⟩,
        ⟨.showErrorScreen 0, ()⟩] (.inr (.stop false))
  | lookupBroke {c e} : r.formValue b!"client_id" ≠ [] → r.formValue b!"redirect_uri" ≠ [] →
      e = some .unsupported ∨ e = some .serverError ∨ (c = none ∧ e = none) →
      Identification r [⟨.findClientById (r.formValue b!"client_id"), (c, e)⟩,
        ⟨.showErrorScreen 3, ()⟩] (.inr (.stop false))
  | nilClient {n} : r.formValue b!"client_id" ≠ [] → r.formValue b!"redirect_uri" ≠ [] →
      Identification r [⟨.findClientById (r.formValue b!"client_id"), (none, some (.other n))⟩] (.inr .crash)
  | notAllowed {c e} : r.formValue b!"client_id" ≠ [] → r.formValue b!"redirect_uri" ≠ [] →
      (e = none ∨ ∃ n, e = some (.other n)) → c.canUseRedirectURI (r.formValue b!"redirect_uri") = false →
      Identification r [⟨.findClientById (r.formValue b!"client_id"), (some c, e)⟩,
        ⟨.showErrorScreen 2, ()⟩] (.inr (.stop false))
  | known {c e} : r.formValue b!"client_id" ≠ [] → r.formValue b!"redirect_uri" ≠ [] →
      (e = none ∨ ∃ n, e = some (.other n)) → c.canUseRedirectURI (r.formValue b!"redirect_uri") = true →
      Identification r [⟨.findClientById (r.formValue b!"client_id"), (some c, e)⟩] (.inl c)

/-! ## The parameters -/

/-- The response modes there are. -/
def knownModes : List GoStr := [b!"query", b!"fragment", b!"form_post"]

/-- The response mode a flow has by default. -/
def modeOfFlow (policy : Policy) (f : Flow) : GoStr :=
  if f.type = .implicit ∨ f.type = .hybrid then policy.defaultImplicitMode else policy.defaultCodeMode

/-- The mode is less confidential than the default of the flow, and the policy cares. -/
def TooWeak (policy : Policy) (f : Flow) (mode : GoStr) : Prop :=
  policy.requireSecurityLevelCheck = true ∧ modeOfFlow policy f ∈ knownModes ∧
    strength (channel mode) < strength (channel (modeOfFlow policy f))

open Classical in
/-- The response mode used: the requested one if there is such a mode and it is not too weak, and
otherwise the default of the flow. -/
noncomputable def modeUsed (policy : Policy) (f : Flow) (requested : GoStr) : GoStr :=
  if requested ∈ knownModes ∧ ¬ TooWeak policy f requested then requested else modeOfFlow policy f

/-- `w` is one of the space-separated words of `s`. -/
def HasWord (s w : GoStr) : Prop := ∃ ws, Words s ws ∧ w ∈ ws

/-- What can be wrong with a request that names a flow, in the order of checking, with the error code
that reports it and its description.  `scope` is the effective scope. -/
def faults (policy : Policy) (clnt : Client) (r : Req) (f : Flow) (scope : GoStr) : List (Prop × GoStr × GoStr) :=
  [ -- an unknown or too weak response mode, when the policy does not ignore it
    (r.formValue b!"response_mode" ≠ [] ∧ r.formValue b!"response_mode" ∉ knownModes ∧
      policy.ignoreInvalidResponseMode = false,
      b!"invalid_request", b!"unknown 'response_mode': '" ++ r.formValue b!"response_mode" ++ b!"'"),
    (r.formValue b!"response_mode" ∈ knownModes ∧ TooWeak policy f (r.formValue b!"response_mode") ∧
      policy.ignoreInvalidResponseMode = false,
      b!"invalid_request", b!"'response_mode:" ++ r.formValue b!"response_mode" ++
        b!"' isn't allowed for 'response_type:" ++ r.formValue b!"response_type" ++ b!"'"),
    -- the client may not use the flow
    (clnt.canUseFlow f.type = false, b!"unauthorized_client", []),
    -- an unknown display
    (r.formValue b!"display" ∉ [[], b!"page", b!"popup", b!"wap", b!"touch"],
      b!"invalid_request", b!"unknown 'display': '" ++ r.formValue b!"display" ++ b!"'"),
    -- a max_age that is not a number (of 64 bits), or not within the bounds of the policy
    (r.formValue b!"max_age" ≠ [] ∧ (∀ m : Int64, ¬ SignedDecimal (r.formValue b!"max_age") m.toInt),
      b!"invalid_request", b!"'max_age' should be integer: '" ++ r.formValue b!"max_age" ++ b!"'"),
    (r.formValue b!"max_age" ≠ [] ∧ (∃ m, SignedDecimal (r.formValue b!"max_age") m ∧ m < policy.minMaxAge.toInt),
      b!"invalid_request", b!"'max_age' should be greater than " ++ itoa (policy.minMaxAge - 1)),
    (r.formValue b!"max_age" ≠ [] ∧ (∃ m, SignedDecimal (r.formValue b!"max_age") m ∧ policy.maxMaxAge.toInt < m),
      b!"invalid_request", b!"'max_age' should be less than " ++ itoa (policy.maxMaxAge + 1)),
    -- unknown prompts, or `none` with another one
    (r.formValue b!"prompt" ≠ [] ∧ ∀ ws, Words (r.formValue b!"prompt") ws →
      ¬ ((∀ w ∈ ws, w ∈ [b!"none", b!"login", b!"consent", b!"select_account"]) ∧
        (b!"none" ∈ ws → ∀ w ∈ ws, w = b!"none")),
      b!"invalid_request", b!"invalid 'prompt': '" ++ r.formValue b!"prompt" ++ b!"'"),
    -- `offline_access` with nothing to access
    (HasWord (r.formValue b!"scope") b!"offline_access" ∧ f.type ≠ .implicit ∧
      HasWord (r.formValue b!"prompt") b!"consent" ∧ policy.allowEmptyScope = false ∧
      (∀ ws, Words (r.formValue b!"scope") ws →
        ws.filter (fun w => decide (w ≠ b!"openid" ∧ w ≠ b!"offline_access")) ∈ [[], [[]]]),
      b!"invalid_request",
      b!"when you request 'offline_access' scope, you should set other scope except for 'openid'"),
    -- no scope
    (scope = [] ∧ policy.allowEmptyScope = false, b!"invalid_request", b!"missing 'scope'"),
    -- an ID token without `openid`
    (HasWord (r.formValue b!"response_type") b!"id_token" ∧ ¬ HasWord scope b!"openid",
      b!"invalid_request", b!"'response_type:" ++ r.formValue b!"response_type" ++
        b!"' requires id_token, but 'scope' doesn't include 'openid'"),
    -- the client may not ask for the scope
    (clnt.canUseScope f.type scope = false, b!"invalid_scope", []),
    -- an ID token without nonce
    (HasWord (r.formValue b!"response_type") b!"id_token" ∧ r.formValue b!"nonce" = [],
      b!"invalid_request", b!"'response_type:" ++ r.formValue b!"response_type" ++ b!"' requires 'nonce' parameter"),
    -- too long
    (r.formValue b!"nonce" ≠ [] ∧ policy.maxNonceLength.toInt < ((r.formValue b!"nonce").length : Int),
      b!"invalid_request", b!"length of 'nonce' should be less than " ++ itoa (policy.maxNonceLength + 1)),
    (r.formValue b!"code_verifier" ≠ [] ∧
      policy.maxCodeVerifierLength.toInt < ((r.formValue b!"code_verifier").length : Int),
      b!"invalid_request",
      b!"length of 'code_verifier' should be less than " ++ itoa (policy.maxCodeVerifierLength + 1)) ]

/-- The first fault of a list is reported with this code and this description. -/
def FirstFault (l : List (Prop × GoStr × GoStr)) (code desc : GoStr) : Prop :=
  ∃ pre p post, l = pre ++ (p, code, desc) :: post ∧ (∀ x ∈ pre, ¬ x.1) ∧ p

/-- The request object built from the HTTP parameters. -/
noncomputable def requestFrom (policy : Policy) (r : Req) (f : Flow) (scope locale : GoStr) (maxAge : Int64) : Request where
  flow := some f
  clientId := r.formValue b!"client_id"
  redirectURI := r.formValue b!"redirect_uri"
  scope := scope
  responseMode := modeUsed policy f (r.formValue b!"response_mode")
  state := r.formValue b!"state"
  nonce := r.formValue b!"nonce"
  display := if r.formValue b!"display" = [] then b!"page" else r.formValue b!"display"
  prompt := r.formValue b!"prompt"
  maxAge := maxAge
  uiLocale := locale
  codeVerifier := r.formValue b!"code_verifier"
  idTokenHint := r.formValue b!"id_token_hint"
  loginHint := r.formValue b!"login_hint"

/-- The parameters are checked. -/
inductive Checked (policy : Policy) (r : Req) (clnt : Client) : Stage Request
  /-- a missing response type -/
  | noResponseType : r.formValue b!"response_type" = [] →
      Checked policy r clnt [] (.inr (.error (r.formValue b!"response_mode") b!"invalid_request"
        b!"missing 'response_type'"))
  /-- an unsupported response type -/
  | responseType : r.formValue b!"response_type" ≠ [] → (∀ f, ¬ Asks (r.formValue b!"response_type") f) →
      Checked policy r clnt [] (.inr (.error (r.formValue b!"response_mode") b!"invalid_request"
        (b!"invalid 'response_type:" ++ r.formValue b!"response_type" ++ b!"'")))
  | fault {f scope code desc} : Asks (r.formValue b!"response_type") f →
      EffectiveScope f.type (r.formValue b!"prompt") (r.formValue b!"scope") scope →
      FirstFault (faults policy clnt r f scope) code desc →
      Checked policy r clnt [] (.inr (.error (modeUsed policy f (r.formValue b!"response_mode")) code desc))
  | noLocale {f scope} : Asks (r.formValue b!"response_type") f →
      EffectiveScope f.type (r.formValue b!"prompt") (r.formValue b!"scope") scope →
      (∀ x ∈ faults policy clnt r f scope, ¬ x.1) →
      Checked policy r clnt [⟨.chooseLocale (r.formValue b!"ui_locales"), none⟩]
        (.inr (.error (modeUsed policy f (r.formValue b!"response_mode")) b!"server_error" []))
  | ok {f scope locale} {maxAge : Int64} : Asks (r.formValue b!"response_type") f →
      EffectiveScope f.type (r.formValue b!"prompt") (r.formValue b!"scope") scope →
      (∀ x ∈ faults policy clnt r f scope, ¬ x.1) →
      (r.formValue b!"max_age" = [] ∧ maxAge.toInt = 0 ∨
        r.formValue b!"max_age" ≠ [] ∧ SignedDecimal (r.formValue b!"max_age") maxAge.toInt) →
      Checked policy r clnt [⟨.chooseLocale (r.formValue b!"ui_locales"), some locale⟩]
        (.inl (requestFrom policy r f scope locale maxAge))

/-! ## Issuing -/

/-- The key has the type the algorithm needs, and signs. -/
def KeyFits (lib : Lib) (alg : GoStr) : Option Key → Prop
  | some (.bytes k) => alg ∈ hmacAlgs ∧ lib.signOk alg k = true
  | some (.rsaPriv k) => alg ∈ rsaAlgs ∧ lib.signOk alg k = true
  | some (.ecPriv k) => alg ∈ ecAlgs ∧ lib.signOk alg k = true
  | some .unsafeNone => alg = b!"none" ∧ lib.signOk alg [] = true
  | _ => False

/-- The algorithm names a digest for `at_hash` and `c_hash`. -/
def NamesDigest (alg : GoStr) : Prop := ∃ p, alg = p ++ b!"256" ∨ alg = p ++ b!"384" ∨ alg = p ++ b!"512"

/-- A code is created and stored with what the token endpoint will check. -/
inductive CodeMade (policy : Policy) (info : Option AuthInfo) (req : Request) : Stage (GoStr × Int64)
  | noCode : CodeMade policy info req [⟨.createAuthorizationCode, none⟩]
      (.inr (.error req.responseMode b!"server_error" []))
  | noAuthTime {code} : CodeMade policy info req [⟨.createAuthorizationCode, some code⟩, ⟨.getAuthTime, none⟩]
      (.inr (.error req.responseMode b!"server_error" []))
  | notStored {code authTime err} : CodeMade policy info req
      [⟨.createAuthorizationCode, some code⟩, ⟨.getAuthTime, some authTime⟩,
        ⟨.createAuthSession info ⟨req.redirectURI, code, policy.authSessionExpiresIn, req.codeVerifier, req.nonce,
          authTime⟩, some err⟩] (.inr (.error req.responseMode b!"server_error" []))
  | made {code authTime} : CodeMade policy info req
      [⟨.createAuthorizationCode, some code⟩, ⟨.getAuthTime, some authTime⟩,
        ⟨.createAuthSession info ⟨req.redirectURI, code, policy.authSessionExpiresIn, req.codeVerifier, req.nonce,
          authTime⟩, none⟩] (.inl (code, authTime))

/-- The client is looked up (again), for its ID token key. -/
inductive ClientFound (req : Request) : Stage (Option Client)
  | broke {c err} : ClientFound req [⟨.findClientById req.clientId, (c, some err)⟩]
      (.inr (.error req.responseMode b!"server_error" []))
  | found {c} : ClientFound req [⟨.findClientById req.clientId, (c, none)⟩] (.inl c)

/-- When the auth time was. -/
inductive AuthTimeKnown (req : Request) : Stage Int64
  | broke : AuthTimeKnown req [⟨.getAuthTime, none⟩] (.inr (.error req.responseMode b!"server_error" []))
  | known {authTime} : AuthTimeKnown req [⟨.getAuthTime, some authTime⟩] (.inl authTime)

/-- An access token without refresh token is created if the flow has one. -/
inductive TokenMade (info : Option AuthInfo) (req : Request) (f : Flow) : Stage (Option OAuthToken)
  | notAsked : f.requireAccessToken = false → TokenMade info req f [] (.inl none)
  | broke {tk err} : f.requireAccessToken = true →
      TokenMade info req f [⟨.createOAuthToken info false, (tk, some err)⟩]
        (.inr (.error req.responseMode b!"server_error" []))
  | nilToken : f.requireAccessToken = true →
      TokenMade info req f [⟨.createOAuthToken info false, (none, none)⟩] (.inr .crash)
  | made {tk} : f.requireAccessToken = true →
      TokenMade info req f [⟨.createOAuthToken info false, (some tk, none)⟩] (.inl (some tk))

/-- An ID token can be signed for the client: its key fits its algorithm, and the algorithm names a digest
if an access token or a code has to be hashed. -/
def Signable (lib : Lib) (clnt : Client) (token : Option OAuthToken) (code : Option GoStr) : Prop :=
  KeyFits lib clnt.idTokenAlg clnt.idTokenKey ∧
    ((∃ tk, token = some tk ∧ tk.accessToken ≠ []) ∨ code ≠ none → NamesDigest clnt.idTokenAlg)

/-- An ID token is signed if the flow has one. -/
inductive IdTokenMade (policy : Policy) (lib : Lib) (clnt : Option Client) (info : Option AuthInfo) (req : Request)
    (f : Flow) (authTime : Int64) (token : Option OAuthToken) (code : Option GoStr) : Stage (Option GoStr)
  | notAsked : f.requireIdToken = false → IdTokenMade policy lib clnt info req f authTime token code [] (.inl none)
  | nilClient : f.requireIdToken = true → clnt = none →
      IdTokenMade policy lib clnt info req f authTime token code [] (.inr .crash)
  | nilInfo {c iss} : f.requireIdToken = true → clnt = some c → info = none →
      IdTokenMade policy lib clnt info req f authTime token code [⟨.issuer, iss⟩] (.inr .crash)
  | unsigned {c i iss now} : f.requireIdToken = true → clnt = some c → info = some i →
      ¬ Signable lib c token code →
      IdTokenMade policy lib clnt info req f authTime token code [⟨.issuer, iss⟩, ⟨.now, now⟩]
        (.inr (.error req.responseMode b!"server_error" []))
  | signed {c i iss now idt} {claims : List (GoStr × JVal)} : f.requireIdToken = true → clnt = some c → info = some i →
      Signable lib c token code →
      SignedBy lib c.idTokenAlg c.idTokenKeyId claims c.idTokenKey idt →
      (∀ k v, (k, v) ∈ claims ↔ FrontIdTokenClaims lib c.idTokenAlg iss i.clientId i.subject req.nonce
        (now + policy.idTokenExpiresIn) now authTime (token.map (·.accessToken)).toList code.toList k v) →
      IdTokenMade policy lib clnt info req f authTime token code [⟨.issuer, iss⟩, ⟨.now, now⟩] (.inl (some idt))

/-- The parameter `k` with the value `v` if it is not empty. -/
def param (k v : GoStr) : Params := if v = [] then [] else [(k, v)]

/-- The parameters for an access token; the lifetime is sent under the name `key`. -/
def tokenParams (key : GoStr) : Option OAuthToken → Params
  | none => []
  | some tk => [(b!"access_token", tk.accessToken), (b!"token_type", b!"bearer"), (key, itoa tk.accessTokenExpiresIn)]

/-- The parameter for an ID token. -/
def idTokenParams : Option GoStr → Params
  | none => []
  | some idt => [(b!"id_token", idt)]

/-- What is issued for a request, by flow.  (In the implicit flow the lifetime has a misspelt name, C42.) -/
def Issue (policy : Policy) (lib : Lib) (info : Option AuthInfo) (req : Request) : Stage Empty :=
  match req.flow with
  | none => .ends .crash
  | some f =>
    match f.type with
    | .authorizationCode => (CodeMade policy info req).andThen fun x =>
        .ends (.success req.responseMode ((b!"code", x.1) :: param b!"state" req.state))
    | .implicit => (ClientFound req).andThen fun clnt => (TokenMade info req f).andThen fun token =>
        (AuthTimeKnown req).andThen fun authTime =>
        (IdTokenMade policy lib clnt info req f authTime token none).andThen fun idt =>
        .ends (.success req.responseMode (param b!"state" req.state ++ param b!"scope" req.scope ++
          tokenParams b!"rexpires_in" token ++ idTokenParams idt))
    | .hybrid => (CodeMade policy info req).andThen fun x => (ClientFound req).andThen fun clnt =>
        (TokenMade info req f).andThen fun token =>
        (IdTokenMade policy lib clnt info req f x.2 token (some x.1)).andThen fun idt =>
        .ends (.success req.responseMode ((b!"code", x.1) :: (param b!"state" req.state ++ param b!"scope" req.scope ++
          tokenParams b!"expires_in" token ++ idTokenParams idt)))
    | .directGrant => .ends (.stop false)

/-! ## May the request be answered without asking the user -/

/-- The authorization on record: active, with the same scope words in any order. -/
def SameGrant (info : AuthInfo) (req : Request) : Prop :=
  info.isActive = true ∧ ∃ ws wt, Words info.scope ws ∧ Words req.scope wt ∧ ws.Perm wt

/-- Whether an earlier consent covers the request; `none`: no authorization is on record. -/
inductive EarlierConsent (policy : Policy) (req : Request) : Stage (Option AuthInfo)
  | noUser : EarlierConsent policy req [⟨.getLoginUserId, none⟩] (.inr (.error req.responseMode b!"server_error" []))
  | broke {uid i err} : err = some .unsupported ∨ err = some .serverError ∨ (i = none ∧ err = none) →
      EarlierConsent policy req [⟨.getLoginUserId, some uid⟩,
        ⟨.findAuthInfoByUserIdAndClientId uid req.clientId, (i, err)⟩] (.inr (.error req.responseMode b!"server_error" []))
  | notFound {uid i err} : err ≠ .unsupported → err ≠ .serverError →
      EarlierConsent policy req [⟨.getLoginUserId, some uid⟩,
        ⟨.findAuthInfoByUserIdAndClientId uid req.clientId, (i, some err)⟩] (.inl none)
  | otherGrant {uid i} : ¬ SameGrant i req →
      EarlierConsent policy req [⟨.getLoginUserId, some uid⟩,
        ⟨.findAuthInfoByUserIdAndClientId uid req.clientId, (some i, none)⟩] (.inl none)
  | tooOld {uid i now} : SameGrant i req → ¬ now < i.authorizedAt + policy.consentOmissionPeriod →
      EarlierConsent policy req [⟨.getLoginUserId, some uid⟩,
        ⟨.findAuthInfoByUserIdAndClientId uid req.clientId, (some i, none)⟩, ⟨.now, now⟩] (.inl none)
  | covered {uid i now} : SameGrant i req → now < i.authorizedAt + policy.consentOmissionPeriod →
      EarlierConsent policy req [⟨.getLoginUserId, some uid⟩,
        ⟨.findAuthInfoByUserIdAndClientId uid req.clientId, (some i, none)⟩, ⟨.now, now⟩] (.inl (some i))

/-- A login session is needed, and no login screen may be shown. -/
inductive SessionNeeded (req : Request) : Stage Unit
  | broke : SessionNeeded req [⟨.confirmLoginSession, none⟩] (.inr (.error req.responseMode b!"server_error" []))
  | no : SessionNeeded req [⟨.confirmLoginSession, some false⟩] (.inr (.error req.responseMode b!"login_required" []))
  | yes : SessionNeeded req [⟨.confirmLoginSession, some true⟩] (.inl ())

/-- The login user has to be the one the client hinted at with the parameter `hint`. -/
inductive MatchNeeded (req : Request) (sub hint : GoStr) : Stage Unit
  | broke : MatchNeeded req sub hint [⟨.loginUserIsMatchedToSubject sub, none⟩]
      (.inr (.error req.responseMode b!"server_error" []))
  | no : MatchNeeded req sub hint [⟨.loginUserIsMatchedToSubject sub, some false⟩]
      (.inr (.error req.responseMode b!"invalid_request" (b!"'" ++ hint ++ b!"' doesn't match to current login user")))
  | yes : MatchNeeded req sub hint [⟨.loginUserIsMatchedToSubject sub, some true⟩] (.inl ())

/-- The hint is the JWT `tk`, valid now under the client's ID token key. -/
def ValidHint (lib : Lib) (clnt : Client) (hint : GoStr) (tk : JwtToken) (now : Int64) : Prop :=
  lib.jwtDecode hint = some tk ∧ (∃ key, clnt.idTokenKey = some key ∧ SignatureOk lib (tk.alg.getD []) hint key) ∧
    NotExpired now (tk.claim b!"exp") ∧ NotEarly now (tk.claim b!"iat") ∧ NotEarly now (tk.claim b!"nbf")

/-- The JWT says when it expires. -/
def SaysExpiry (tk : JwtToken) : Prop :=
  ∃ n, tk.claim b!"exp" = some (.float n) ∨ tk.claim b!"exp" = some (.number (some n))

/-- The hint is an ID token for the subject `sub`, valid now under the client's key. -/
def GoodHint (lib : Lib) (clnt : Client) (hint sub : GoStr) (now : Int64) : Prop :=
  ∃ tk, ValidHint lib clnt hint tk now ∧ SaysExpiry tk ∧ tk.claimStr b!"sub" = some sub

/-- The JWT library recognises the hint as a JWT with a signing algorithm it knows. -/
def ReadableHint (lib : Lib) (hint : GoStr) : Prop :=
  ∃ tk alg, lib.jwtDecode hint = some tk ∧ tk.alg = some alg ∧ alg ∈ knownAlgs

/-- The subject of the `id_token_hint`. -/
inductive HintNeeded (lib : Lib) (clnt : Client) (req : Request) : Stage GoStr
  | missing : req.idTokenHint = [] →
      HintNeeded lib clnt req [] (.inr (.error req.responseMode b!"invalid_request"
        b!"in case you pass 'none' for 'prompt', 'id_token_hint' is required."))
  | unreadable : req.idTokenHint ≠ [] → ¬ ReadableHint lib req.idTokenHint →
      HintNeeded lib clnt req [] (.inr (.error req.responseMode b!"invalid_request" b!"'id_token_hint' is invalid."))
  | invalid {now} : req.idTokenHint ≠ [] → ReadableHint lib req.idTokenHint →
      (∀ tk, ¬ ValidHint lib clnt req.idTokenHint tk now) →
      HintNeeded lib clnt req [⟨.wallNow, now⟩]
        (.inr (.error req.responseMode b!"invalid_request" b!"'id_token_hint' is invalid."))
  | noExpiry {now tk} : req.idTokenHint ≠ [] → ReadableHint lib req.idTokenHint →
      ValidHint lib clnt req.idTokenHint tk now → ¬ SaysExpiry tk →
      HintNeeded lib clnt req [⟨.wallNow, now⟩]
        (.inr (.error req.responseMode b!"invalid_request" b!"'exp' not found in 'id_token_hint'."))
  | noSubject {now tk} : req.idTokenHint ≠ [] → ReadableHint lib req.idTokenHint →
      ValidHint lib clnt req.idTokenHint tk now → SaysExpiry tk → tk.claimStr b!"sub" = none →
      HintNeeded lib clnt req [⟨.wallNow, now⟩]
        (.inr (.error req.responseMode b!"invalid_request" b!"'sub' not found in 'id_token_hint'."))
  | good {now sub} : req.idTokenHint ≠ [] → ReadableHint lib req.idTokenHint →
      GoodHint lib clnt req.idTokenHint sub now →
      HintNeeded lib clnt req [⟨.wallNow, now⟩] (.inl sub)

/-- Issue if an earlier consent covers the request, else `consent_required`. -/
def IssueOrRefuse (policy : Policy) (lib : Lib) (req : Request) : Stage Empty :=
  (EarlierConsent policy req).andThen fun
    | some info => Issue policy lib (some info) req
    | none => .ends (.error req.responseMode b!"consent_required" [])

/-- `prompt=none`, by the policy of the client.  (A policy outside the constants is treated as if the
user had a session.) -/
def Silent (policy : Policy) (lib : Lib) (clnt : Client) (req : Request) : Stage Unit :=
  match clnt.nonePromptPolicy with
  | .forbidden => .ends (.error req.responseMode b!"interaction_required" b!"not allowed to use 'prompt:none'")
  | .allowWithLoginSession => (SessionNeeded req).andThen fun _ => (IssueOrRefuse policy lib req).last
  | .allowIfLoginHintMatched =>
    fun calls res => (req.loginHint = [] ∧ Stage.ends (.error req.responseMode b!"invalid_request"
      b!"in case you pass 'none' for 'prompt', 'login_hint' is required.") calls res) ∨
      (req.loginHint ≠ [] ∧ ((SessionNeeded req).andThen fun _ => (MatchNeeded req req.loginHint b!"login_hint").andThen fun _ =>
        (IssueOrRefuse policy lib req).last) calls res)
  | .allowIfIdTokenHintMatched => (HintNeeded lib clnt req).andThen fun sub => (MatchNeeded req sub b!"id_token_hint").andThen fun _ =>
      (IssueOrRefuse policy lib req).last
  | .other => .skip

/-! ## With the user -/

/-- A login session is needed; without one the login screen is shown. -/
inductive LoginShown (req : Request) : Stage Unit
  | broke : LoginShown req [⟨.confirmLoginSession, none⟩] (.inr (.error req.responseMode b!"server_error" []))
  | shown : LoginShown req [⟨.confirmLoginSession, some false⟩, ⟨.showLoginScreen req, true⟩] (.inr (.stop false))
  | notShown : LoginShown req [⟨.confirmLoginSession, some false⟩, ⟨.showLoginScreen req, false⟩]
      (.inr (.error req.responseMode b!"server_error" []))
  | loggedIn : LoginShown req [⟨.confirmLoginSession, some true⟩] (.inl ())

/-- `prompt=login`: the user has to come from the login screen. -/
inductive Reauthenticated (req : Request) : Stage Unit
  | notAsked : ¬ HasWord req.prompt b!"login" → Reauthenticated req [] (.inl ())
  | broke : HasWord req.prompt b!"login" →
      Reauthenticated req [⟨.requestIsFromLogin, none⟩] (.inr (.error req.responseMode b!"server_error" []))
  | shown {b} : HasWord req.prompt b!"login" →
      Reauthenticated req [⟨.requestIsFromLogin, some false⟩, ⟨.showLoginScreen req, b⟩] (.inr (.stop false))
  | done : HasWord req.prompt b!"login" → Reauthenticated req [⟨.requestIsFromLogin, some true⟩] (.inl ())

/-- `max_age`: the login has to be young enough. -/
inductive YoungEnough (req : Request) : Stage Unit
  | broke : YoungEnough req [⟨.getAuthTime, none⟩] (.inr (.error req.responseMode b!"server_error" []))
  | notAsked {a} : ¬ 0 < req.maxAge → YoungEnough req [⟨.getAuthTime, some a⟩] (.inl ())
  | tooOld {a now b} : 0 < req.maxAge → req.maxAge < now - a →
      YoungEnough req [⟨.getAuthTime, some a⟩, ⟨.now, now⟩, ⟨.showLoginScreen req, b⟩] (.inr (.stop false))
  | young {a now} : 0 < req.maxAge → ¬ req.maxAge < now - a →
      YoungEnough req [⟨.getAuthTime, some a⟩, ⟨.now, now⟩] (.inl ())

/-- The consent screen may be left out. -/
def ConsentOmitted (policy : Policy) (lib : Lib) (clnt : Client) (req : Request) : Stage Unit := fun calls res =>
  (¬ (clnt.noConsentPromptPolicy = .omitConsentIfCan ∧ ¬ HasWord req.prompt b!"consent") ∧ Stage.skip calls res) ∨
  ((clnt.noConsentPromptPolicy = .omitConsentIfCan ∧ ¬ HasWord req.prompt b!"consent") ∧
    (EarlierConsent policy req).andThen (fun
      | some info => (Issue policy lib (some info) req).last
      | none => .skip) calls res)

/-- The consent screen. -/
inductive ConsentShown (clnt : Client) (req : Request) : Stage Empty
  | shown : ConsentShown clnt req [⟨.showConsentScreen clnt req, true⟩] (.inr (.stop true))
  | notShown : ConsentShown clnt req [⟨.showConsentScreen clnt req, false⟩]
      (.inr (.error req.responseMode b!"server_error" []))

/-- How a request is decided once its parameters are in order. -/
def Decided (policy : Policy) (lib : Lib) (clnt : Client) (req : Request) : Stage Empty :=
  Stage.andThen (fun calls res => (req.prompt = b!"none" ∧ Silent policy lib clnt req calls res) ∨
      (req.prompt ≠ b!"none" ∧ LoginShown req calls res)) fun _ =>
  (Reauthenticated req).andThen fun _ => (YoungEnough req).andThen fun _ =>
  (ConsentOmitted policy lib clnt req).andThen fun _ => ConsentShown clnt req

/-- `HandleRequest`, from the start. -/
def Handled (policy : Policy) (lib : Lib) (r : Req) : Stage Empty :=
  (Identification r).andThen fun clnt => (Checked policy r clnt).andThen fun req => Decided policy lib clnt req

/-- The parameters of the request `r` are in order: `c` are the calls up to here, `clnt` is the client and
`req` the request object the screens get. -/
def Ready (policy : Policy) (r : Req) (clnt : Client) (req : Request) (c : List Event) : Prop :=
  ∃ c1 c2, c = c1 ++ c2 ∧ Identification r c1 (.inl clnt) ∧ Checked policy r clnt c2 (.inl req)

/-- `CompleteRequest`: the application hands back the request (after login and consent), the
authorization is recorded, and what was asked for is issued. -/
inductive Recorded (req : Request) : Stage (Option AuthInfo)
  | noUser : Recorded req [⟨.getLoginUserId, none⟩] (.inr (.error req.responseMode b!"server_error" []))
  | notRecorded {uid i err} : Recorded req [⟨.getLoginUserId, some uid⟩,
      ⟨.createOrUpdateAuthInfo uid req.clientId req.scope, (i, some err)⟩]
      (.inr (.error req.responseMode b!"server_error" []))
  | recorded {uid i} : Recorded req [⟨.getLoginUserId, some uid⟩,
      ⟨.createOrUpdateAuthInfo uid req.clientId req.scope, (i, none)⟩] (.inl i)

/-- `CompleteRequest`, after the application handed back the request. -/
def Completed (policy : Policy) (lib : Lib) (req : Request) : Stage Empty :=
  (Recorded req).andThen fun info => Issue policy lib info req

/-! ## What is observed -/

/-- Not a log line and not an iteration over a map. -/
def counts : Query → Bool
  | .log _ => false
  | .mapRange _ => false
  | _ => true

/-- The calls of a run other than log lines and iterations over maps. -/
def interactions (t : List Event) : List Event := t.filter fun e => counts e.q

/-- The run `t` with outcome `o` made the calls `c` and ended as described.  Sending to a redirect URI
that does not parse panics instead (unless it is posted by a form). -/
def Ends (lib : Lib) (uri state : GoStr) (t : List Event) (o : Outcome Bool) (c : List Event) : Ending → Prop
  | .stop b => interactions t = c ∧ o = .ok b
  | .error mode code desc =>
      (∃ resp, interactions t = c ++ [wrote resp] ∧ o = .ok false ∧
        Delivers resp uri (errorResponse code desc state) (channel mode)) ∨
      (interactions t = c ∧ o = .panic ∧ lib.urlParseOk uri = false ∧ channel mode ≠ .form)
  | .success mode params =>
      (∃ resp, interactions t = c ++ [wrote resp] ∧ o = .ok true ∧ Delivers resp uri params (channel mode)) ∨
      (interactions t = c ∧ o = .panic ∧ lib.urlParseOk uri = false ∧ channel mode ≠ .form)
  | .crash => interactions t = c ∧ o = .panic

/-- The same ending, up to the value of the ID token (whose claims are a set, and not a list). -/
def Ending.Alike : Ending → Ending → Prop
  | .stop b, .stop b' => b = b'
  | .error mode code desc, .error mode' code' desc' => mode = mode' ∧ code = code' ∧ desc = desc'
  | .success mode params, .success mode' params' => mode = mode' ∧ params.map (·.1) = params'.map (·.1) ∧
      params.filter (fun kv => kv.1 ≠ b!"id_token") = params'.filter (fun kv => kv.1 ≠ b!"id_token")
  | .crash, .crash => True
  | _, _ => False

/-- Two lists of calls agree up to one call that was answered differently. -/
def Fork : List Event → List Event → Prop
  | e :: s, e' :: s' => (e.q = e'.q ∧ e ≠ e') ∨ (e = e' ∧ Fork s s')
  | _, _ => False

end Goidc.Spec
