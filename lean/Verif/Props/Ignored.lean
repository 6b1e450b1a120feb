import Verif.Props.Secrets
import Verif.Props.Protector
import Verif.Spec.Ignored
import Verif.Model.AuthorizationEndpoint

/-! # C98: unrecognised parameters and headers are ignored -/

namespace Goidc.Props

open Spec

variable {lib : Lib} {r r' : Req} {names hnames : List GoStr}

theorem lookup_recognised {ps : Params} {n : GoStr} (hn : n ∈ names) :
    lookupParam (recognised names ps) n = lookupParam ps n := by
  unfold lookupParam recognised
  rw [List.find?_filter]
  congr 2
  funext kv
  by_cases h : kv.1 = n
  · subst h; simp [hn]
  · have : (kv.1 == n) = false := by simpa using h
    simp [this]

theorem recognised_append {a b : Params} : recognised names (a ++ b) = recognised names a ++ recognised names b :=
  List.filter_append ..

theorem same_body (h : SameRecognised names hnames r r') :
    recognised names r.bodyParams = recognised names r'.bodyParams := by
  unfold Req.bodyParams
  rw [h.method, h.multipart]
  split
  · exact h.body
  · rfl

theorem same_form (h : SameRecognised names hnames r r') {n : GoStr} (hn : n ∈ names) :
    r.formValue n = r'.formValue n := by
  unfold Req.formValue
  rw [← lookup_recognised hn, ← lookup_recognised (ps := r'.formParams) hn]
  unfold Req.formParams
  rw [h.multipart]
  split <;> rw [recognised_append, recognised_append, same_body h, h.query]

theorem same_post (h : SameRecognised names hnames r r') {n : GoStr} (hn : n ∈ names) :
    r.postFormValue n = r'.postFormValue n := by
  unfold Req.postFormValue
  rw [← lookup_recognised hn, ← lookup_recognised (ps := r'.bodyParams) hn, same_body h]

theorem header_recognised {n : GoStr} (hn : toLower n ∈ hnames) :
    r.header n = Req.header { r with headers := recognisedHeaders hnames r.headers } n := by
  unfold Req.header recognisedHeaders
  dsimp only
  rw [List.find?_filter]
  congr 2
  funext kv
  by_cases h : toLower kv.1 = toLower n
  · rw [h]; simp [hn]
  · have : (toLower kv.1 == toLower n) = false := by simpa using h
    simp [this]

theorem same_header (h : SameRecognised names hnames r r') {n : GoStr} (hn : toLower n ∈ hnames) :
    r.header n = r'.header n := by
  rw [header_recognised hn, header_recognised (r := r') hn]
  unfold Req.header
  dsimp only
  rw [h.headers]

/-! ## The token endpoint -/

theorem grant_reads {h : GrantFunc} (hb : BuiltIn lib h) (hk : ∀ n ∈ tokenParamNames, r.formValue n = r'.formValue n)
    (c : Client) (now : Int64) : h r c now = h r' c now := by
  simp only [tokenParamNames, List.forall_mem_cons] at hk
  obtain ⟨-, -, -, -, -, k1, k2, k3, k4, k5, k6, k7, k8, k9, -⟩ := hk
  cases hb with
  | authorizationCode =>
    have e : ∀ s, Grant.checkPkce lib r c s = Grant.checkPkce lib r' c s := by
      intro s
      unfold Grant.checkPkce
      simp only [needParam_same k3, needParam_same k4]
    unfold Grant.authorizationCode
    simp only [needParam_same k1, needParam_same k2, e]
  | refreshToken =>
    unfold Grant.refreshToken
    simp only [needParam_same k5]
  | clientCredentials =>
    unfold Grant.clientCredentials
    simp only [k8]
  | jwt =>
    unfold Grant.jwt
    simp only [needParam_same k9, k8]
  | password =>
    unfold Grant.password
    simp only [needParam_same k6, needParam_same k7, k8]

/-- What the token endpoint reads. -/
structure SameToken (r r' : Req) : Prop where
  method : r.method = r'.method
  form : ∀ n ∈ tokenParamNames, r.formValue n = r'.formValue n
  post : ∀ n ∈ [b!"client_id", b!"client_secret"], r.postFormValue n = r'.postFormValue n
  header : ∀ n, toLower n ∈ readHeaders → r.header n = r'.header n

theorem token_reads' {cfg : TokenCfg} (hb : AllBuiltIn lib cfg) (h : SameToken r r') :
    TokenEndpoint.handler cfg lib r = TokenEndpoint.handler cfg lib r' := by
  have hf := h.form
  have fc : TokenEndpoint.findClientCredential cfg r = TokenEndpoint.findClientCredential cfg r' := by
    unfold TokenEndpoint.findClientCredential Req.basicAuth
    simp only [h.header b!"Authorization" (by decide), hf b!"client_id" (by decide),
      hf b!"client_secret" (by decide), h.post b!"client_id" (by decide),
      h.post b!"client_secret" (by decide)]
  have fa : TokenEndpoint.findClientAssertion r = TokenEndpoint.findClientAssertion r' := by
    unfold TokenEndpoint.findClientAssertion
    rw [hf b!"client_assertion" (by decide), hf b!"client_assertion_type" (by decide)]
  have vs : ∀ gt cid sec b, TokenEndpoint.validateClientBySecret cfg r gt cid sec b =
      TokenEndpoint.validateClientBySecret cfg r' gt cid sec b := by
    intro gt cid sec b
    unfold TokenEndpoint.validateClientBySecret
    simp only [h.header b!"REMOTE_ADDR" (by decide), h.header b!"X-FORWARDED-FOR" (by decide)]
  unfold TokenEndpoint.handler
  rw [h.method, hf b!"grant_type" (by decide), fc, fa]
  split
  · rfl
  · dsimp only
    split
    · rfl
    · split
      · rfl
      · rename_i hd hh
        have ge : ∀ c gt, TokenEndpoint.executeGrantHandler cfg r c gt hd =
            TokenEndpoint.executeGrantHandler cfg r' c gt hd := by
          intro c gt
          unfold TokenEndpoint.executeGrantHandler
          simp only [grant_reads (hb _ _ hh) hf]
        simp only [ge, vs]

theorem token_reads {cfg : TokenCfg} (hb : AllBuiltIn lib cfg) (h : SameRecognised tokenParamNames readHeaders r r') :
    TokenEndpoint.handler cfg lib r = TokenEndpoint.handler cfg lib r' :=
  token_reads' hb ⟨h.method, fun _ => same_form h, fun n hn => same_post h (by revert n; decide), fun _ => same_header h⟩

/-- C98, token endpoint: whatever can happen - calls, answers, log lines, the response - on a request can
happen on any request with the same recognised parameters and headers.  (The path is not read either.) -/
theorem C98_token {cfg : TokenCfg} {t : List Event} {o : Outcome Unit} (hb : AllBuiltIn lib cfg)
    (h : SameRecognised tokenParamNames readHeaders r r') :
    Runs (TokenEndpoint.handler cfg lib r) t o ↔ Runs (TokenEndpoint.handler cfg lib r') t o := by
  rw [token_reads hb h]

/-! ## C107: the URL of a token request -/

theorem lookup_behind {ps qs qs' : Params} {n : GoStr} (h : (∀ v, (n, v) ∉ ps) → lookupParam qs n = lookupParam qs' n) :
    lookupParam (ps ++ qs) n = lookupParam (ps ++ qs') n := by
  by_cases hin : ∃ v, (n, v) ∈ ps
  · obtain ⟨v, hv⟩ := hin
    have hs : (ps.find? fun kv => kv.1 == n).isSome := List.find?_isSome.2 ⟨(n, v), hv, by simp⟩
    obtain ⟨kv, hkv⟩ := Option.isSome_iff_exists.1 hs
    unfold lookupParam
    rw [List.find?_append, List.find?_append, hkv]
    rfl
  · have hn' : ∀ v, (n, v) ∉ ps := fun v hv => hin ⟨v, hv⟩
    have hnone : (ps.find? fun kv => kv.1 == n) = none := by
      refine List.find?_eq_none.2 fun kv hkv h => hn' kv.2 ?_
      have : kv.1 = n := by simpa using h
      subst this
      exact hkv
    have := h hn'
    unfold lookupParam at this ⊢
    rw [List.find?_append, List.find?_append, hnone, Option.none_or, Option.none_or]
    exact this

/-- C107: what the body of a token request says counts, whatever the query of its URL says about it.  Two
token requests with the same body and headers are served alike if their URLs say the same about every
parameter that is missing in the body. -/
theorem C107_body_first_partial {cfg : TokenCfg} {t : List Event} {o : Outcome Unit} (hb : AllBuiltIn lib cfg)
    (hm : r.method = b!"POST") (hm' : r'.method = b!"POST") (hp : r.multipart = false) (hp' : r'.multipart = false) (hbody : r'.body = r.body) (hh : r'.headers = r.headers)
    (hq : ∀ n ∈ tokenParamNames, (∀ v, (n, v) ∉ r.body) → lookupParam r.query n = lookupParam r'.query n) :
    Runs (TokenEndpoint.handler cfg lib r) t o ↔ Runs (TokenEndpoint.handler cfg lib r') t o := by
  have hf : r.formParams = r.body ++ r.query := by
    unfold Req.formParams Req.bodyParams; rw [if_neg (by simp [hp]), if_pos (.inr (.inl hm))]
  have hf' : r'.formParams = r.body ++ r'.query := by
    unfold Req.formParams Req.bodyParams; rw [if_neg (by simp [hp']), if_pos (.inr (.inl hm')), hbody]
  have hp : r.bodyParams = r.body := by unfold Req.bodyParams; rw [if_pos (.inr (.inl hm))]
  have hp' : r'.bodyParams = r.body := by unfold Req.bodyParams; rw [if_pos (.inr (.inl hm')), hbody]
  refine Iff.of_eq (congrArg (Runs · t o) (token_reads' hb ⟨hm.trans hm'.symm, fun n hn => ?_, fun n _ => ?_, fun n _ => ?_⟩))
  · unfold Req.formValue
    rw [hf, hf']
    exact lookup_behind (hq n hn)
  · unfold Req.postFormValue
    rw [hp, hp']
  · unfold Req.header
    rw [hh]

/-- A code exchange with everything in the URL. -/
def urlPost : Req := { Sample.post [] with query := Sample.codeBody }

/-- C107 fails in full: an authorization code is exchanged that stands in the URL, with an empty body. -/
theorem C107_false : ∃ (cfg : TokenCfg) (r : Req) (t : List Event) (resp : HttpResp), AllBuiltIn Sample.lib cfg ∧ r.body = [] ∧
    Steps (TokenEndpoint.handler cfg Sample.lib r) (t ++ [wrote resp]) ∧ resp.status = 200 := by
  obtain ⟨pre, resp, h, hs⟩ := Sample.World.steps (w := {}) (p := TokenEndpoint.handler Sample.tokenCfg Sample.lib urlPost) (n := 200)
    (by decide +kernel)
  exact ⟨Sample.tokenCfg, urlPost, pre, resp, sample_allBuiltIn, rfl, h, hs⟩

/-- C107, multipart bodies: they do not even come first.  Whatever the body of a `multipart/form-data` token request says, the
query of its URL counts wherever it says something: two such requests with the same headers and URLs are served
alike if their bodies agree on the parameters missing in the URL (and on the client's credentials), whatever else they say. -/
theorem C107_multipart_partial {cfg : TokenCfg} {t : List Event} {o : Outcome Unit} (hb : AllBuiltIn lib cfg)
    (hm : r.method = b!"POST") (hm' : r'.method = b!"POST") (hp : r.multipart = true) (hp' : r'.multipart = true)
    (hquery : r'.query = r.query) (hh : r'.headers = r.headers)
    (hc : ∀ n ∈ [b!"client_id", b!"client_secret"], lookupParam r.body n = lookupParam r'.body n)
    (hq : ∀ n ∈ tokenParamNames, (∀ v, (n, v) ∉ r.query) → lookupParam r.body n = lookupParam r'.body n) :
    Runs (TokenEndpoint.handler cfg lib r) t o ↔ Runs (TokenEndpoint.handler cfg lib r') t o := by
  have hbp : r.bodyParams = r.body := by unfold Req.bodyParams; rw [if_pos (.inl hp)]
  have hbp' : r'.bodyParams = r'.body := by unfold Req.bodyParams; rw [if_pos (.inl hp')]
  refine Iff.of_eq (congrArg (Runs · t o) (token_reads' hb ⟨hm.trans hm'.symm, fun n hn => ?_, fun n hn => ?_, fun n _ => ?_⟩))
  · unfold Req.formValue Req.formParams
    rw [if_pos hp, if_pos hp', hbp, hbp', hquery]
    exact lookup_behind (hq n hn)
  · unfold Req.postFormValue
    rw [hbp, hbp']
    exact hc n hn
  · unfold Req.header
    rw [hh]

/-- The hypotheses of C107_multipart_partial are met by requests with contradicting bodies; what the URL says is done. -/
example : (∀ n ∈ tokenParamNames, (∀ v, (n, v) ∉ Sample.codeBody) →
      lookupParam [(b!"code", b!"mine")] n = lookupParam [(b!"code", b!"x"), (b!"grant_type", b!"password")] n) ∧
    ({} : Sample.World).status (TokenEndpoint.handler Sample.tokenCfg Sample.lib
      { Sample.post [(b!"code", b!"x"), (b!"grant_type", b!"password")] with query := Sample.codeBody, multipart := true }) =
      some 200 := by
  refine ⟨?_, by decide +kernel⟩
  intro n hn h
  simp only [tokenParamNames, List.mem_cons, List.not_mem_nil, or_false] at hn
  rcases hn with rfl | rfl | rfl | rfl | rfl | rfl | rfl | rfl | rfl | rfl | rfl | rfl | rfl | rfl
  · exact absurd (by decide +kernel) (h b!"authorization_code")
  · decide +kernel
  · decide +kernel
  · decide +kernel
  · decide +kernel
  · exact absurd (by decide +kernel) (h b!"code")
  all_goals decide +kernel

/-- The hypotheses of C107_body_first_partial are met by requests whose URLs contradict their body. -/
example : ∀ n ∈ tokenParamNames, (∀ v, (n, v) ∉ Sample.codeBody) →
    lookupParam [(b!"code", b!"stolen"), (b!"grant_type", b!"password")] n = lookupParam [(b!"code", b!"x")] n := by
  intro n hn h
  simp only [tokenParamNames, List.mem_cons, List.not_mem_nil, or_false] at hn
  rcases hn with rfl | rfl | rfl | rfl | rfl | rfl | rfl | rfl | rfl | rfl | rfl | rfl | rfl | rfl
  · exact absurd (by decide +kernel) (h b!"authorization_code")
  · decide +kernel
  · decide +kernel
  · decide +kernel
  · decide +kernel
  · exact absurd (by decide +kernel) (h b!"code")
  all_goals decide +kernel

/-! ## The authorization endpoint -/

open AuthzEndpoint

/-- What the authorization endpoint reads. -/
structure SameFront (r r' : Req) : Prop where
  method : r.method = r'.method
  path : r.path = r'.path
  form : ∀ n ∈ authorizationParamNames, r.formValue n = r'.formValue n

theorem front_success (h : r.method = r'.method) {mode uri params} :
    AuthResponse.success lib r mode uri params = AuthResponse.success lib r' mode uri params := by
  unfold AuthResponse.success AuthResponse.redirectTo AuthResponse.redirectResp
  simp only [h]

theorem front_error (h : r.method = r'.method) {mode uri typ desc state} :
    AuthResponse.error lib r mode uri typ desc state = AuthResponse.error lib r' mode uri typ desc state := by
  unfold AuthResponse.error
  rw [front_success h]

theorem front_errorTo {α : Type} (h : r.method = r'.method) {mode uri typ desc state} :
    (errorTo lib r mode uri typ desc state : AuthM α) = errorTo lib r' mode uri typ desc state := by
  unfold errorTo
  rw [front_error h]

theorem front_plog (h : r.path = r'.path) {lv ev ps} : AuthzEndpoint.plog lv r ev ps = AuthzEndpoint.plog lv r' ev ps := by
  unfold AuthzEndpoint.plog
  rw [h]

theorem front_alog (h : r.path = r'.path) {lv ev ps} : AuthzEndpoint.alog lv r ev ps = AuthzEndpoint.alog lv r' ev ps := by
  unfold AuthzEndpoint.alog
  rw [front_plog h]

theorem front_callback {α : Type} (hm : r.method = r'.method) (hp : r.path = r'.path) {mode uri state m} :
    (AuthzEndpoint.callbackFailed lib r mode uri state m : AuthM α) = AuthzEndpoint.callbackFailed lib r' mode uri state m := by
  unfold AuthzEndpoint.callbackFailed
  rw [front_alog hp, front_errorTo hm]

theorem front_complete (h1 : r.method = r'.method) (h2 : r.path = r'.path) {policy rh info req} :
    complete policy lib r rh info req = complete policy lib r' rh info req := by
  unfold complete completeCode completeImplicit completeHybrid completeCallbackFail completeFail
  simp only [front_plog h2, front_error h1, front_success h1]

/-- authorization_endpoint.go:552-978: what `HandleRequest` does with the request it has built. -/
def decideRequest (policy : Policy) (lib : Lib) (r : Req) (clnt : Client) (req : Request) : AuthM Bool := do
  if req.prompt = Prompt.pNone then promptNone policy lib r clnt req
  else confirmLogin lib r req
  promptLogin lib r req
  checkAuthAge lib r req
  omitConsent policy lib r clnt req
  showConsent lib r clnt req

theorem front_identify (hp : r.path = r'.path) (k1 : r.formValue b!"client_id" = r'.formValue b!"client_id")
    (k2 : r.formValue b!"redirect_uri" = r'.formValue b!"redirect_uri") : identify r = identify r' := by
  have al : ∀ {lv ev ps}, AuthzEndpoint.alog lv r ev ps = AuthzEndpoint.alog lv r' ev ps := front_alog hp
  have hfc : ∀ cid, findClient r cid = findClient r' cid := by
    intro cid
    unfold findClient
    simp only [al]
  unfold identify
  simp only [k1, k2, al, hfc]

theorem front_locale (hm : r.method = r'.method) (hp : r.path = r'.path)
    (k : r.formValue b!"ui_locales" = r'.formValue b!"ui_locales") (mode uri state : GoStr) :
    chooseLocale lib r mode uri state = chooseLocale lib r' mode uri state := by
  have cf : ∀ {α : Type} {mode uri state m}, (AuthzEndpoint.callbackFailed lib r mode uri state m : AuthM α) =
    AuthzEndpoint.callbackFailed lib r' mode uri state m := front_callback hm hp
  unfold chooseLocale
  simp only [cf]
  congr 2
  · exact congrArg _ k
  · funext x
    cases x <;> rfl

theorem front_decide {policy : Policy} (hm : r.method = r'.method) (hp : r.path = r'.path)
    (k7 : r.formValue b!"max_age" = r'.formValue b!"max_age") (c : Client) (req : Request) :
    decideRequest policy lib r c req = decideRequest policy lib r' c req := by
  have al : ∀ {lv ev ps}, AuthzEndpoint.alog lv r ev ps = AuthzEndpoint.alog lv r' ev ps := front_alog hp
  have et : ∀ {α : Type} {mode uri typ desc state}, (errorTo lib r mode uri typ desc state : AuthM α) =
    errorTo lib r' mode uri typ desc state := front_errorTo hm
  have cf : ∀ {α : Type} {mode uri state m}, (AuthzEndpoint.callbackFailed lib r mode uri state m : AuthM α) =
    AuthzEndpoint.callbackFailed lib r' mode uri state m := front_callback hm hp
  have hfin : ∀ {α : Type} {info req}, (finish policy lib r info req : AuthM α) = finish policy lib r' info req := by
    intro α info req
    unfold finish
    rw [front_complete hm hp]
  have hn : ∀ {α : Type} {req}, (noneComplete policy lib r req : AuthM α) = noneComplete policy lib r' req := by
    intro α req
    unfold noneComplete
    simp only [cf, et, hfin]
  have hpn : ∀ c req, promptNone policy lib r c req = promptNone policy lib r' c req := by
    intro c req
    unfold promptNone requireLogin requireMatch checkIdTokenHint
    simp only [al, et, cf, hn]
  have hcl : ∀ req, confirmLogin lib r req = confirmLogin lib r' req := by
    intro req
    unfold confirmLogin
    simp only [al, cf]
  have hpl : ∀ req, promptLogin lib r req = promptLogin lib r' req := by
    intro req
    unfold promptLogin
    simp only [al, cf]
  have hca : ∀ req, checkAuthAge lib r req = checkAuthAge lib r' req := by
    intro req
    unfold checkAuthAge
    simp only [al, cf, k7]
  have hoc : ∀ c req, omitConsent policy lib r c req = omitConsent policy lib r' c req := by
    intro c req
    unfold omitConsent
    simp only [et, cf, hfin]
  have hsc : ∀ c req, showConsent lib r c req = showConsent lib r' c req := by
    intro c req
    unfold showConsent
    simp only [cf]
  unfold decideRequest
  simp only [hpn, hcl, hpl, hca, hoc, hsc]

theorem front_handle {policy : Policy} (h : SameFront r r') : handleRequest policy lib r = handleRequest policy lib r' := by
  have hk := h.form
  simp only [authorizationParamNames, List.forall_mem_cons] at hk
  obtain ⟨k1, k2, k3, k4, k5, k6, k7, k8, k9, k10, k11, k12, k13, k14, -⟩ := hk
  have al : ∀ {lv ev ps}, AuthzEndpoint.alog lv r ev ps = AuthzEndpoint.alog lv r' ev ps := front_alog h.path
  have et : ∀ {α : Type} {mode uri typ desc state}, (errorTo lib r mode uri typ desc state : AuthM α) =
    errorTo lib r' mode uri typ desc state := front_errorTo h.method
  have hi := front_identify h.path k1 k2
  have hbr : ∀ c, buildRequest policy lib r c = buildRequest policy lib r' c := by
    intro c
    have hlo := front_locale (lib := lib) h.method h.path k12
    unfold buildRequest judgeFlow pickMode checkModeLevel checkFlow checkDisplay checkMaxAge checkPrompt offlineScope
      checkScope checkNonce checkVerifier
    simp only [k1, k2, k3, k4, k5, k6, k7, k8, k9, k10, k11, k13, k14, al, et, hlo]
  have hd := front_decide (lib := lib) (policy := policy) h.method h.path k7
  show (do
    match ← (do
      let clnt ← identify r
      let req ← buildRequest policy lib r clnt
      decideRequest policy lib r clnt req : AuthM Bool).run with
    | .ok b => pure b
    | .error b => pure b) = _
  simp only [hi, hbr, hd]
  rfl

theorem sameFront (h : SameRecognised authorizationParamNames [] r r') (hp : r.path = r'.path) : SameFront r r' :=
  ⟨h.method, hp, fun _ hn => same_form h hn⟩

/-- C98, `HandleRequest`: no header is read at all, and of the body and the query only the recognised
parameters. -/
theorem C98_authorization {policy : Policy} {t : List Event} {o : Outcome Bool}
    (h : SameRecognised authorizationParamNames [] r r') (hp : r.path = r'.path) :
    Runs (handleRequest policy lib r) t o ↔ Runs (handleRequest policy lib r') t o := by
  rw [front_handle (sameFront h hp)]

/-- C98, `CompleteRequest` and `CancelRequest`: nothing but the method and the path is read of the request
on which the user's decision arrives; the authorization request itself comes from the application's
`Continue`. -/
theorem C98_decision {policy : Policy} {t : List Event} {o : Outcome Bool} (hm : r.method = r'.method)
    (hp : r.path = r'.path) :
    (Runs (completeRequest policy lib r) t o ↔ Runs (completeRequest policy lib r') t o) ∧
    (Runs (cancelRequest lib r) t o ↔ Runs (cancelRequest lib r') t o) := by
  have e1 : completeRequest policy lib r = completeRequest policy lib r' := by
    unfold completeRequest completeCallbackFail completeFail
    simp only [front_plog hp, front_error hm, front_complete hm hp]
  have e2 : cancelRequest lib r = cancelRequest lib r' := by
    unfold cancelRequest
    simp only [front_plog hp, front_error hm]
  rw [e1, e2]
  exact ⟨.rfl, .rfl⟩

/-! ## The resource protector -/

/-- The two programs make the same calls and, given the same answers, return related results. -/
def Alike {α : Type} (R : α → α → Prop) : Prog α → Prog α → Prop
  | .ret a, p' => ∃ a', p' = .ret a' ∧ R a a'
  | .panic, p' => p' = .panic
  | .call q k, p' => ∃ k', p' = .call q k' ∧ ∀ x, Alike R (k x) (k' x)

theorem alike_runs {α : Type} {R : α → α → Prop} {p p' : Prog α} (h : Alike R p p') {t : List Event}
    {o : Outcome α} (hr : Runs p t o) : (∃ a a', o = .ok a ∧ R a a' ∧ Runs p' t (.ok a')) ∨ (o = .panic ∧ Runs p' t .panic) := by
  induction p generalizing p' t with
  | ret a =>
    obtain ⟨a', rfl, h⟩ := h
    obtain ⟨rfl, rfl⟩ := hr
    exact .inl ⟨a, a', rfl, h, rfl, rfl⟩
  | panic =>
    have h : p' = .panic := h
    obtain ⟨rfl, rfl⟩ := hr
    rw [h]
    exact .inr ⟨rfl, rfl, rfl⟩
  | call q k ih =>
    obtain ⟨x, t', rfl, hr⟩ := hr
    obtain ⟨k', rfl, hs⟩ := h
    rcases ih x (hs x) hr with ⟨a, a', rfl, h, hr'⟩ | ⟨rfl, hr'⟩
    · exact .inl ⟨a, a', rfl, h, x, t', rfl, hr'⟩
    · exact .inr ⟨rfl, x, t', rfl, hr'⟩

theorem alike_bind {α β : Type} {R : α → α → Prop} {S : β → β → Prop} {p p' : Prog α} {g g' : α → Prog β}
    (h : Alike R p p') (hg : ∀ a a', R a a' → Alike S (g a) (g' a')) : Alike S (p >>= g) (p' >>= g') := by
  induction p generalizing p' with
  | ret a => obtain ⟨a', rfl, h⟩ := h; exact hg a a' h
  | panic => have h : p' = .panic := h; rw [h]; rfl
  | call q k ih =>
    obtain ⟨k', rfl, hs⟩ := h
    exact ⟨fun r => (k' r).bind g', rfl, fun x => ih x (hs x)⟩

theorem alike_refl {α : Type} (p : Prog α) : Alike Eq p p := by
  induction p with
  | ret a => exact ⟨a, rfl, rfl⟩
  | panic => rfl
  | call q k ih => exact ⟨k, rfl, ih⟩

theorem alike_same {α β : Type} {S : β → β → Prop} {p : Prog α} {g g' : α → Prog β}
    (hg : ∀ a, Alike S (g a) (g' a)) : Alike S (p >>= g) (p >>= g') :=
  alike_bind (alike_refl p) fun a _ h => h ▸ hg a

open ResourceProtector

/-- Two results of `Validate`: the same verdict, and the same identity if the request was admitted. -/
def SameVerdictOn (r r' : Req) (x y : Bool × Req) : Prop :=
  x.1 = y.1 ∧ (x.1 = true → ∃ info, x.2 = withIdentity r info ∧ y.2 = withIdentity r' info)

theorem protector_alike' {cfg : ProtectorCfg} (hf : findTokenFromRequest cfg r = findTokenFromRequest cfg r')
    (h1 : r.header b!"REMOTE_ADDR" = r'.header b!"REMOTE_ADDR")
    (h2 : r.header b!"X-FORWARDED-FOR" = r'.header b!"X-FORWARDED-FOR") (hp : r.path = r'.path) :
    Alike (SameVerdictOn r r') (validate cfg lib r) (validate cfg lib r') := by
  have no : Alike (SameVerdictOn r r') (pure (false, r)) (pure (false, r')) :=
    ⟨_, rfl, rfl, fun h => by cases h⟩
  unfold validate
  rw [hf]
  dsimp only
  split
  · rw [hp]
    exact alike_same fun _ => alike_same fun _ => no
  · refine alike_same fun x => ?_
    rw [h1, h2]
    split
    · rw [hp]; exact alike_same fun _ => alike_same fun _ => no
    · rw [hp]; exact alike_same fun _ => alike_same fun _ => no
    · rw [hp]; exact alike_same fun _ => alike_same fun _ => no
    · rw [hp]; exact alike_same fun _ => alike_same fun _ => no
    · unfold validateToken
      refine alike_same fun now => ?_
      split
      · rw [hp]
        exact alike_same fun _ => alike_same fun _ => alike_same fun _ => no
      · unfold validateInfo
        refine alike_same fun x => ?_
        split
        · rw [hp]; exact alike_same fun _ => alike_same fun _ => no
        · rw [hp]; exact alike_same fun _ => alike_same fun _ => no
        · rw [hp]; exact alike_same fun _ => alike_same fun _ => no
        · rename_i info
          cases info with
          | none => rfl
          | some info => exact ⟨_, rfl, rfl, fun _ => ⟨info, rfl, rfl⟩⟩

theorem protector_alike {cfg : ProtectorCfg} (h : SameRecognised protectorParamNames readHeaders r r') (hp : r.path = r'.path) :
    Alike (SameVerdictOn r r') (validate cfg lib r) (validate cfg lib r') := by
  refine protector_alike' ?_ (same_header h (n := b!"REMOTE_ADDR") (by decide))
    (same_header h (n := b!"X-FORWARDED-FOR") (by decide)) hp
  unfold findTokenFromRequest
  simp only [same_header h (n := b!"Authorization") (by decide), same_form h (n := b!"access_token") (by decide),
    same_post h (n := b!"access_token") (by decide)]

theorem scopes_alike {cfg : ProtectorCfg} {m : List (GoStr × List GoStr)}
    (h : SameRecognised protectorParamNames readHeaders r r') (hp : r.path = r'.path) :
    Alike (SameVerdictOn r r') (validateWithScopes cfg lib r m) (validateWithScopes cfg lib r' m) := by
  unfold validateWithScopes
  refine alike_bind (protector_alike h hp) fun ⟨b, x⟩ ⟨b', y⟩ ⟨hb, hi⟩ => ?_
  dsimp only at hb hi
  subst hb
  dsimp only
  cases b with
  | false => exact ⟨_, rfl, rfl, fun h => by cases h⟩
  | true =>
    obtain ⟨info, rfl, rfl⟩ := hi rfl
    rw [if_neg (by decide), if_neg (by decide), show (withIdentity r info).path = r.path from rfl,
      show (withIdentity r' info).path = r'.path from rfl, hp, header_scope, header_scope]
    split
    · split
      · exact ⟨_, rfl, rfl, fun _ => ⟨info, rfl, rfl⟩⟩
      · exact alike_same fun _ => ⟨_, rfl, rfl, fun h => by cases h⟩
    · exact ⟨_, rfl, rfl, fun _ => ⟨info, rfl, rfl⟩⟩

theorem identity_same {info : AuthInfo} : ∀ n ∈ identityHeaders,
    headerValues (withIdentity r info) n = headerValues (withIdentity r' info) n := by
  intro n hn
  simp only [identityHeaders, List.mem_cons, List.not_mem_nil, or_false] at hn
  rcases hn with rfl | rfl | rfl <;>
    simp only [withIdentity, setHeader_values_self,
      setHeader_values_other _ _ (show toLower b!"X-OAUTH-USER-ID" ≠ toLower b!"X-OAUTH-CLIENT-ID" by decide),
      setHeader_values_other _ _ (show toLower b!"X-OAUTH-USER-ID" ≠ toLower b!"X-OAUTH-SCOPE" by decide),
      setHeader_values_other _ _ (show toLower b!"X-OAUTH-CLIENT-ID" ≠ toLower b!"X-OAUTH-SCOPE" by decide)]

theorem alike_verdict {p p' : Prog (Bool × Req)} {t : List Event} (h : Alike (SameVerdictOn r r') p p') :
    (∀ b r1, Runs p t (.ok (b, r1)) → ∃ r1', Runs p' t (.ok (b, r1')) ∧
      (b = true → ∀ n ∈ identityHeaders, headerValues r1' n = headerValues r1 n)) ∧
    (Runs p t .panic → Runs p' t .panic) := by
  refine ⟨fun b r1 hr => ?_, fun hr => ?_⟩
  · rcases alike_runs h hr with ⟨a, ⟨b', r1'⟩, ho, hs, hr⟩ | ⟨ho, _⟩
    · injection ho with ho
      subst ho
      obtain ⟨h1, h2⟩ := hs
      dsimp only at h1 h2
      subst h1
      refine ⟨r1', hr, fun hb => ?_⟩
      obtain ⟨info, rfl, rfl⟩ := h2 hb
      exact fun n hn => (identity_same n hn).symm
    · cases ho
  · rcases alike_runs h hr with ⟨a, a', ho, _⟩ | ⟨_, hr⟩
    · cases ho
    · exact hr

/-- C98, `Validate`: a request with the same path and the same recognised parameters and headers gets the
same verdict, by the same calls and with the same response and log lines, and if it is admitted, under the same
identity.  In particular identity headers the client itself sent are of no consequence. -/
theorem C98_protector {cfg : ProtectorCfg} {t : List Event}
    (h : SameRecognised protectorParamNames readHeaders r r') (hp : r.path = r'.path) :
    (∀ b r1, Runs (validate cfg lib r) t (.ok (b, r1)) → ∃ r1', Runs (validate cfg lib r') t (.ok (b, r1')) ∧
      (b = true → ∀ n ∈ identityHeaders, headerValues r1' n = headerValues r1 n)) ∧
    (Runs (validate cfg lib r) t .panic → Runs (validate cfg lib r') t .panic) :=
  alike_verdict (protector_alike h hp)

/-- C98, `ValidateWithScopes`. -/
theorem C98_protector_scopes {cfg : ProtectorCfg} {t : List Event} {m : List (GoStr × List GoStr)}
    (h : SameRecognised protectorParamNames readHeaders r r') (hp : r.path = r'.path) :
    (∀ b r1, Runs (validateWithScopes cfg lib r m) t (.ok (b, r1)) →
      ∃ r1', Runs (validateWithScopes cfg lib r' m) t (.ok (b, r1')) ∧
      (b = true → ∀ n ∈ identityHeaders, headerValues r1' n = headerValues r1 n)) ∧
    (Runs (validateWithScopes cfg lib r m) t .panic → Runs (validateWithScopes cfg lib r' m) t .panic) :=
  alike_verdict (scopes_alike h hp)

/-! ## Requests that differ in other names -/

/-- A request with extra parameters and headers, before and after the recognised ones. -/
def noisy (r : Req) : Req :=
  { method := r.method, path := r.path
    headers := (b!"X-OAuth-User-Id", b!"1") :: r.headers ++ [(b!"Cookie", b!"a=b")]
    body := (b!"utm_source", b!"mail") :: r.body ++ [(b!"Code", b!"x")]
    query := (b!"GRANT_TYPE", b!"password") :: r.query, multipart := r.multipart }

/-- `noisy` adds nothing recognised, for any of the endpoints. -/
theorem noisy_same (r : Req) : SameRecognised tokenParamNames readHeaders r (noisy r) ∧
    SameRecognised authorizationParamNames [] r (noisy r) ∧ SameRecognised protectorParamNames readHeaders r (noisy r) := by
  have ht : ∀ hnames : List GoStr, toLower b!"X-OAuth-User-Id" ∉ hnames → toLower b!"Cookie" ∉ hnames →
      recognisedHeaders hnames r.headers = recognisedHeaders hnames (noisy r).headers := by
    intro hnames h1 h2
    simp [recognisedHeaders, noisy, List.filter_append, h1, h2]
  have hb : ∀ names : List GoStr, b!"utm_source" ∉ names → b!"Code" ∉ names →
      recognised names r.body = recognised names (noisy r).body := by
    intro names h1 h2
    simp [recognised, noisy, List.filter_append, h1, h2]
  have hq : ∀ names : List GoStr, b!"GRANT_TYPE" ∉ names →
      recognised names r.query = recognised names (noisy r).query := by
    intro names h1
    simp [recognised, noisy, h1]
  exact ⟨⟨rfl, rfl, hb _ (by decide) (by decide), hq _ (by decide), ht _ (by decide) (by decide)⟩,
    ⟨rfl, rfl, hb _ (by decide) (by decide), hq _ (by decide), ht _ (by decide) (by decide)⟩,
    ⟨rfl, rfl, hb _ (by decide) (by decide), hq _ (by decide), ht _ (by decide) (by decide)⟩⟩

/-- The noisy version of a token request is granted, and the noisy version of a resource request is
admitted as the owner of the token, not as the user it names itself. -/
example : ({} : Sample.World).status (TokenEndpoint.handler Sample.tokenCfg Sample.lib
      (noisy (Sample.post Sample.codeBody))) = some 200 ∧
    (noisy sampleBearer).header b!"X-OAUTH-USER-ID" = b!"1" := by
  decide +kernel

/-- The list cannot be shortened: without `code` the request is refused. -/
example : ({} : Sample.World).status (TokenEndpoint.handler Sample.tokenCfg Sample.lib
      (Sample.post (Sample.codeBody.filter fun kv => kv.1 ≠ b!"code"))) = some 400 := by
  decide +kernel

end Goidc.Props
