import Verif.Props.AuthParams
import Verif.Lemmas.Continue

/-! # C40-C44: what completed, cancelled and refused authorization requests send and store -/

namespace Goidc.Props

open Spec AuthzEndpoint

variable {policy : Policy} {lib : Lib} {r : Req} {t pre : List Event} {resp : HttpResp} {b : Bool} {req : Request}

/-! ## Samples -/

/-- A request as the login screen would hand it back. -/
def continuedReq (f : Flow) (mode : GoStr) : Request :=
  { flow := some f, clientId := b!"client", redirectURI := b!"https://app/cb", scope := b!"openid",
    responseMode := mode, state := b!"s", nonce := b!"n", display := b!"page", prompt := [], maxAge := 0,
    uiLocale := [], codeVerifier := b!"v", idTokenHint := [], loginHint := [] }

/-- A world where the application continues a hybrid request. -/
def hybridWorld : Sample.World :=
  { continued := some (some (continuedReq ⟨.hybrid, true, true⟩ b!"fragment")) }

/-- Anything at all posted to the completion handler. -/
def anyReq : Req := authGet []

theorem sample_complete_success : ∃ pre resp,
    Runs (completeRequest .default Sample.lib anyReq) (pre ++ [wrote resp]) (.ok true) ∧
    decide ((b!"Location", b!"https://app/cb#access_token=at&code=code&expires_in=3600&id_token=signed&scope=openid&state=s&token_type=bearer") ∈ resp.headers) = true :=
  world_success (w := hybridWorld) (P := fun resp => decide ((b!"Location", b!"https://app/cb#access_token=at&code=code&expires_in=3600&id_token=signed&scope=openid&state=s&token_type=bearer") ∈ resp.headers))
    (by decide +kernel) (by decide +kernel)

theorem sample_cancel_success : ∃ pre resp,
    Runs (cancelRequest Sample.lib anyReq) (pre ++ [wrote resp]) (.ok true) ∧
    decide ((b!"Location", b!"https://app/cb#error=access_denied&state=s") ∈ resp.headers) = true :=
  world_success (w := hybridWorld) (P := fun resp => decide ((b!"Location", b!"https://app/cb#error=access_denied&state=s") ∈ resp.headers))
    (by decide +kernel) (by decide +kernel)

theorem errorResponse_values {typ desc state k : GoStr} (h1 : b!"error" ≠ k) (h2 : b!"error_description" ≠ k)
    (h3 : b!"state" ≠ k) : valuesOf (errorResponse typ desc state) k = [] := by
  unfold errorResponse
  rw [valuesOf_cons_ne h1, valuesOf_append]
  have a : valuesOf (if desc = [] then [] else [(b!"error_description", desc)]) k = [] := by
    split
    · rfl
    · rw [valuesOf_cons_ne h2]; rfl
  have c : valuesOf (if state = [] then [] else [(b!"state", state)]) k = [] := by
    split
    · rfl
    · rw [valuesOf_cons_ne h3]; rfl
  rw [a, c]; rfl

/-! ## C40 -/

theorem contents_code {info : Option AuthInfo} {f : Flow} {w : List Event} {ps : Params} {c : GoStr}
    (hc : Contents policy lib info req f w ps) (hty : f.type ≠ .directGrant) (h : c ∈ valuesOf ps b!"code") :
    ∃ authTime, ⟨.createAuthorizationCode, some c⟩ ∈ w ∧ ⟨.getAuthTime, some authTime⟩ ∈ w ∧
      ⟨.createAuthSession info
        ⟨req.redirectURI, c, policy.authSessionExpiresIn, req.codeVerifier, req.nonce, authTime⟩, none⟩ ∈ w := by
  cases hf : f.type with
  | implicit => rw [hc.noCode hf] at h; simp at h
  | directGrant => exact absurd hf hty
  | authorizationCode =>
    obtain ⟨c', at_, h1, h2⟩ := hc.code (.inl hf)
    rw [h1] at h
    obtain rfl : c = c' := by simpa using h
    exact ⟨at_, h2⟩
  | hybrid =>
    obtain ⟨c', at_, h1, h2⟩ := hc.code (.inr hf)
    rw [h1] at h
    obtain rfl : c = c' := by simpa using h
    exact ⟨at_, h2⟩

theorem parts_type {info : Option AuthInfo} {f : Flow} {w : List Event} {ps : Params}
    (h : CompleteParts policy lib info req f w ps) : f.type ≠ .directGrant := by
  intro hf
  unfold CompleteParts at h
  rw [hf] at h
  exact h

/-- C40, for `HandleRequest`: any response written at any point delivers a `code` only if before it the
application created that code and stored a session with exactly that code, the request's redirect URI,
code verifier and nonce, the policy's lifetime and the auth time the application reported, for the
authorization on record for the login user and this client. -/
theorem C40_handle (h : Steps (handleRequest policy lib r) (pre ++ [wrote resp])) :
    ∃ ps ch, Delivers resp (r.formValue b!"redirect_uri") ps ch ∧ ∀ c ∈ valuesOf ps b!"code",
      ∃ uid info authTime, ⟨.getLoginUserId, some uid⟩ ∈ pre ∧
        ⟨.findAuthInfoByUserIdAndClientId uid (r.formValue b!"client_id"), (some info, none)⟩ ∈ pre ∧
        ⟨.createAuthorizationCode, some c⟩ ∈ pre ∧ ⟨.getAuthTime, some authTime⟩ ∈ pre ∧
        ⟨.createAuthSession (some info) ⟨r.formValue b!"redirect_uri", c, policy.authSessionExpiresIn,
          r.formValue b!"code_verifier", r.formValue b!"nonce", authTime⟩, none⟩ ∈ pre := by
  rcases handleRequest_wrote h with ⟨c, typ, desc, ch, _, hf, ha, hd⟩ | ⟨c, f, req, info, before, w, a, ps, rfl, _, hs⟩
  · refine ⟨_, ch, hd, ?_⟩
    rw [errorResponse_values (by decide) (by decide) (by decide)]
    simp
  · refine ⟨ps, _, hs.delivers, fun c hc => ?_⟩
    obtain ⟨at_, h1, h2, h3⟩ := contents_code (contents hs.parts) (parts_type hs.parts) hc
    obtain ⟨uid, now, hu, hfi, _⟩ := hs.covered
    rw [hs.built.redirectURI, hs.built.verifier, hs.built.nonce] at h3
    rw [hs.built.clientId] at hfi
    exact ⟨uid, info, at_, by simp [hu], by simp [hfi], by simp [h1], by simp [h2], by simp [h3]⟩

/-- C40, for `CompleteRequest`: the same, with the continued request in place of the HTTP parameters. -/
theorem C40_complete (h : Steps (completeRequest policy lib r) (pre ++ [wrote resp])) :
    ∃ req ps ch, ⟨.continue_, some (some req)⟩ ∈ pre ∧ Delivers resp req.redirectURI ps ch ∧
      ∀ c ∈ valuesOf ps b!"code", ∃ uid info authTime, ⟨.getLoginUserId, some uid⟩ ∈ pre ∧
        ⟨.createOrUpdateAuthInfo uid req.clientId req.scope, (info, none)⟩ ∈ pre ∧
        ⟨.createAuthorizationCode, some c⟩ ∈ pre ∧ ⟨.getAuthTime, some authTime⟩ ∈ pre ∧
        ⟨.createAuthSession info ⟨req.redirectURI, c, policy.authSessionExpiresIn, req.codeVerifier, req.nonce,
          authTime⟩, none⟩ ∈ pre := by
  obtain ⟨req, b, hm, hw, _⟩ := completeRequest_wrote h
  cases hw with
  | error _ _ hd =>
    refine ⟨req, _, _, hm, hd, ?_⟩
    rw [errorResponse_values (by decide) (by decide) (by decide)]
    simp
  | success uid info f work after ps _ hf hwk hparts hrg hd =>
    refine ⟨req, ps, _, hm, hd, fun c hc => ?_⟩
    obtain ⟨at_, h1, h2, h3⟩ := contents_code (contents hparts) (parts_type hparts) hc
    exact ⟨uid, info, at_, by simp, by simp, by simp [h1], by simp [h2], by simp [h3]⟩

/-- Codes do get delivered by both handlers. -/
example : (∃ pre resp, Steps (handleRequest .default Sample.lib codeGet) (pre ++ [wrote resp]) ∧
      (b!"Location", b!"https://app/cb?code=code&state=a%26b%3Dc+d") ∈ resp.headers) ∧
    (∃ pre resp, Steps (completeRequest .default Sample.lib anyReq) (pre ++ [wrote resp]) ∧
      (b!"Location", b!"https://app/cb#access_token=at&code=code&expires_in=3600&id_token=signed&scope=openid&state=s&token_type=bearer") ∈ resp.headers) := by
  obtain ⟨p1, r1, h1, h1'⟩ := sample_code_success
  obtain ⟨p2, r2, h2, h2'⟩ := sample_complete_success
  exact ⟨⟨p1, r1, runs_steps h1, of_decide_eq_true h1'⟩, ⟨p2, r2, runs_steps h2, of_decide_eq_true h2'⟩⟩

/-! ## C41 -/

/-- What a success response to a request with flow `f` delivers: a code exactly for the code and hybrid
flows, an access token exactly when asked for, fresh from the application, an ID token exactly when asked
for, signed with the client's key over the right claims. -/
structure FrontParts (policy : Policy) (lib : Lib) (info : Option AuthInfo) (clientId nonce : GoStr)
    (wantCode wantToken wantIdToken : Prop) (pre : List Event) (ps : Params) : Prop where
  code : (wantCode ∧ ∃ c, valuesOf ps b!"code" = [c]) ∨ (¬ wantCode ∧ valuesOf ps b!"code" = [])
  token : (wantToken ∧ ∃ tk, ⟨.createOAuthToken info false, (some tk, none)⟩ ∈ pre ∧
      valuesOf ps b!"access_token" = [tk.accessToken]) ∨
    (¬ wantToken ∧ valuesOf ps b!"access_token" = [] ∧ ∀ e ∈ pre, ∀ i b, e.q ≠ .createOAuthToken i b)
  idToken : (wantIdToken ∧ ∃ c i iss now authTime idt claims,
      ⟨.findClientById clientId, (some c, none)⟩ ∈ pre ∧ info = some i ∧ ⟨.issuer, iss⟩ ∈ pre ∧
      ⟨.now, now⟩ ∈ pre ∧ ⟨.getAuthTime, some authTime⟩ ∈ pre ∧ valuesOf ps b!"id_token" = [idt] ∧
      SignedBy lib c.idTokenAlg c.idTokenKeyId claims c.idTokenKey idt ∧
      ∀ k v, (k, v) ∈ claims ↔ FrontIdTokenClaims lib c.idTokenAlg iss i.clientId i.subject nonce
        (now + policy.idTokenExpiresIn) now authTime (valuesOf ps b!"access_token") (valuesOf ps b!"code") k v) ∨
    (¬ wantIdToken ∧ valuesOf ps b!"id_token" = [])

theorem frontParts {info : Option AuthInfo} {f : Flow} {w pre : List Event} {ps : Params}
    (hp : CompleteParts policy lib info req f w ps) (hsub : ∀ e ∈ w, e ∈ pre)
    (hno : ∀ e ∈ pre, e ∈ w ∨ ∀ i b, e.q ≠ .createOAuthToken i b)
    {wc wt wi : Prop} (hwc : wc ↔ f.type = .authorizationCode ∨ f.type = .hybrid)
    (hwt : wt ↔ f.type ≠ .authorizationCode ∧ f.requireAccessToken = true)
    (hwi : wi ↔ f.type ≠ .authorizationCode ∧ f.requireIdToken = true) :
    FrontParts policy lib info req.clientId req.nonce wc wt wi pre ps := by
  have hc := contents hp
  have hty := parts_type hp
  constructor
  · rcases Decidable.em (f.type = .authorizationCode ∨ f.type = .hybrid) with h | h
    · obtain ⟨c, _, h1, _⟩ := hc.code h
      exact .inl ⟨hwc.2 h, c, h1⟩
    · refine .inr ⟨fun h' => h (hwc.1 h'), hc.noCode ?_⟩
      revert h hty
      cases f.type <;> simp
  · rcases Decidable.em (f.type ≠ .authorizationCode ∧ f.requireAccessToken = true) with h | h
    · obtain ⟨tk, h1, h2, _⟩ := hc.token h.1 h.2
      exact .inl ⟨hwt.2 h, tk, hsub _ h1, h2⟩
    · have h' : f.type = .authorizationCode ∨ f.requireAccessToken = false := by
        revert h; cases f.type <;> cases f.requireAccessToken <;> simp
      obtain ⟨h1, h2⟩ := hc.noToken h'
      refine .inr ⟨fun h'' => h (hwt.1 h''), h1, fun e he => ?_⟩
      rcases hno e he with h3 | h3
      · exact h2 e h3
      · exact h3
  · rcases Decidable.em (f.type ≠ .authorizationCode ∧ f.requireIdToken = true) with h | h
    · obtain ⟨c, i, iss, now, at_, idt, claims, h1, h2, h3, h4, h5, h6⟩ := hc.idToken h.1 h.2
      exact .inl ⟨hwi.2 h, c, i, iss, now, at_, idt, claims, hsub _ h1, h2, hsub _ h3, hsub _ h4, hsub _ h5, h6⟩
    · have h' : f.type = .authorizationCode ∨ f.requireIdToken = false := by
        revert h; cases f.type <;> cases f.requireIdToken <;> simp
      exact .inr ⟨fun h'' => h (hwi.1 h''), hc.noIdToken h'⟩

theorem inert_noCreate (h : Inert t) : ∀ e ∈ t, ∀ i b, e.q ≠ .createOAuthToken i b := by
  intro e he i b hq
  have := h e he
  rw [hq] at this
  cases this

theorem ranges_noCreate (h : Ranges t) : ∀ e ∈ t, ∀ i b, e.q ≠ .createOAuthToken i b := by
  intro e he i b
  obtain ⟨m, l, rfl⟩ := h e he
  simp

theorem code_wants_nothing {rt : GoStr} {ws : List GoStr} (h : Words rt ws) {f : Flow}
    (hj : Flow.judgeByResponseType rt = some f) :
    f.type = .authorizationCode → f.requireAccessToken = false ∧ f.requireIdToken = false := by
  obtain ⟨e, he, _, rfl⟩ := (C47_judge_iff h f).1 hj
  have key : ∀ e ∈ responseTypes, e.2.type = .authorizationCode → e.2.requireAccessToken = false ∧
    e.2.requireIdToken = false := by decide
  exact key e he

/-- C41, for `HandleRequest`: a success response delivers `code`, `access_token` and `id_token` exactly
when `code`, `token` and `id_token` are among the words of `response_type`. -/
theorem C41_handle (h : Runs (handleRequest policy lib r) (pre ++ [wrote resp]) (.ok true)) {ws : List GoStr}
    (hw : Words (r.formValue b!"response_type") ws) :
    ∃ ps ch uid info, Delivers resp (r.formValue b!"redirect_uri") ps ch ∧ ⟨.getLoginUserId, some uid⟩ ∈ pre ∧
      ⟨.findAuthInfoByUserIdAndClientId uid (r.formValue b!"client_id"), (some info, none)⟩ ∈ pre ∧
      FrontParts policy lib (some info) (r.formValue b!"client_id") (r.formValue b!"nonce")
        (b!"code" ∈ ws) (b!"token" ∈ ws) (b!"id_token" ∈ ws) pre ps := by
  obtain ⟨c, f, req, info, before, w, a, ps, rfl, hs⟩ := handleRequest_true h
  obtain ⟨uid, now, hu, hfi, _⟩ := hs.covered
  rw [hs.built.clientId] at hfi
  refine ⟨ps, _, uid, info, hs.delivers, by simp [hu], by simp [hfi], ?_⟩
  obtain ⟨_, _, _, h1, h2, h3⟩ := C47_accepted_tokens hw hs.built.judged
  have hno := code_wants_nothing hw hs.built.judged
  rw [← hs.built.clientId, ← hs.built.nonce]
  refine frontParts hs.parts (fun e he => by simp [he]) ?_ h1 ?_ ?_
  · intro e he
    simp only [List.mem_append] at he
    rcases he with (he | he) | he
    · exact .inr (inert_noCreate hs.inert e he)
    · exact .inl he
    · exact .inr (ranges_noCreate hs.ranging e he)
  · rw [h3]
    exact ⟨fun h => ⟨fun hf => (by rw [(hno hf).1] at h; cases h), h⟩, fun h => h.2⟩
  · rw [h2]
    exact ⟨fun h => ⟨fun hf => (by rw [(hno hf).2] at h; cases h), h⟩, fun h => h.2⟩

/-- C41, for `CompleteRequest`: the same for the flow of the continued request. -/
theorem C41_complete (h : Runs (completeRequest policy lib r) (pre ++ [wrote resp]) (.ok true)) :
    ∃ req f ps ch uid info, ⟨.continue_, some (some req)⟩ ∈ pre ∧ req.flow = some f ∧
      Delivers resp req.redirectURI ps ch ∧ ⟨.getLoginUserId, some uid⟩ ∈ pre ∧
      ⟨.createOrUpdateAuthInfo uid req.clientId req.scope, (info, none)⟩ ∈ pre ∧
      FrontParts policy lib info req.clientId req.nonce
        (f.type = .authorizationCode ∨ f.type = .hybrid)
        (f.type ≠ .authorizationCode ∧ f.requireAccessToken = true)
        (f.type ≠ .authorizationCode ∧ f.requireIdToken = true) pre ps := by
  obtain ⟨req, b, hm, hw, hr⟩ := completeRequest_wrote (runs_steps h)
  have hb : b = true := by have := runs_det h hr; cases this; rfl
  subst hb
  cases hw with
  | success uid info f work after ps _ hf hwk hparts hrg hd =>
    refine ⟨req, f, ps, _, uid, info, hm, hf, hd, by simp, by simp, ?_⟩
    refine frontParts hparts (fun e he => by simp [he]) ?_ Iff.rfl Iff.rfl Iff.rfl
    intro e he
    simp only [List.mem_cons, List.mem_append] at he
    rcases he with rfl | rfl | rfl | he | he
    · right; simp
    · right; simp
    · right; simp
    · exact .inl he
    · exact .inr (ranges_noCreate hrg e he)

/-- Hybrid requests succeed in both handlers. -/
example : (∃ pre resp, Runs (handleRequest .default Sample.lib hybridGet) (pre ++ [wrote resp]) (.ok true)) ∧
    Words (hybridGet.formValue b!"response_type") [b!"code", b!"id_token", b!"token"] ∧
    (∃ pre resp, Runs (completeRequest .default Sample.lib anyReq) (pre ++ [wrote resp]) (.ok true)) := by
  obtain ⟨p1, r1, h1, _⟩ := sample_hybrid_success
  obtain ⟨p2, r2, h2, _⟩ := sample_complete_success
  exact ⟨⟨p1, r1, h1⟩, fields_iff.2 (by decide +kernel), ⟨p2, r2, h2⟩⟩

/-! ## C42 -/

/-- C42 (partial: the lifetime is only proved for the hybrid flow; in the implicit flow it is delivered
under the misspelt name `rexpires_in`, see `C42_false`): a delivered access token comes with
`token_type=bearer`, and in the hybrid flow with its lifetime in decimal under `expires_in`. -/
theorem C42_lifetime_partial (h : Runs (handleRequest policy lib r) (pre ++ [wrote resp]) (.ok true)) {ws : List GoStr}
    (hw : Words (r.formValue b!"response_type") ws) (ht : b!"token" ∈ ws) :
    ∃ ps ch info tk, Delivers resp (r.formValue b!"redirect_uri") ps ch ∧
      ⟨.createOAuthToken info false, (some tk, none)⟩ ∈ pre ∧
      valuesOf ps b!"access_token" = [tk.accessToken] ∧ valuesOf ps b!"token_type" = [b!"bearer"] ∧
      (b!"code" ∈ ws → ∃ v, valuesOf ps b!"expires_in" = [v] ∧ CanonicalDecimal v tk.accessTokenExpiresIn.toInt) := by
  obtain ⟨c, f, req, info, before, w, a, ps, rfl, hs⟩ := handleRequest_true h
  obtain ⟨_, _, _, h1, h2, h3⟩ := C47_accepted_tokens hw hs.built.judged
  have hno := code_wants_nothing hw hs.built.judged
  have hty : f.type ≠ .authorizationCode := fun hf => by
    have := h3.1 ht
    rw [(hno hf).1] at this
    cases this
  obtain ⟨tk, k1, k2, k3, k4⟩ := (contents hs.parts).token hty (h3.1 ht)
  refine ⟨ps, _, some info, tk, hs.delivers, by simp [k1], k2, k3, fun hc => ?_⟩
  refine ⟨_, k4 ?_, itoa_canonical _⟩
  rcases h1.1 hc with h | h
  · exact absurd h hty
  · exact h

example : ∃ pre resp, Runs (handleRequest .default Sample.lib hybridGet) (pre ++ [wrote resp]) (.ok true) :=
  let ⟨p, r, h, _⟩ := sample_hybrid_success; ⟨p, r, h⟩

/-- C42 is false in the implicit flow: this response delivers an access token and no `expires_in`. -/
theorem C42_false : ∃ pre resp loc q,
    Runs (handleRequest .default Sample.lib implicitGet) (pre ++ [wrote resp]) (.ok true) ∧
    (b!"Location", loc) ∈ resp.headers ∧ loc = b!"https://app/cb#" ++ q ∧
    valuesOf (parseQuery q) b!"access_token" = [b!"at"] ∧ valuesOf (parseQuery q) b!"expires_in" = [] := by
  obtain ⟨pre, resp, h1, h2⟩ := world_success (w := consentedWorld)
    (p := handleRequest .default Sample.lib implicitGet)
    (P := fun resp => decide ((b!"Location", b!"https://app/cb#access_token=at&id_token=signed&rexpires_in=3600&scope=openid&state=s&token_type=bearer") ∈ resp.headers))
    (by decide +kernel) (by decide +kernel)
  exact ⟨pre, resp, _, b!"access_token=at&id_token=signed&rexpires_in=3600&scope=openid&state=s&token_type=bearer",
    h1, of_decide_eq_true h2, by decide +kernel, by decide +kernel, by decide +kernel⟩

/-! ## C43 -/

/-- C43: `CancelRequest` calls no `DataInterface` method and shows no screen. -/
theorem C43_cancel_touches_nothing (h : Steps (cancelRequest lib r) t) :
    ∀ e ∈ t, e.q.isData = false ∧ (isVisible e.q = true → ∃ resp, e = wrote resp) := by
  obtain ⟨t', o, hr⟩ := steps_complete h
  suffices hx : ∀ e ∈ t ++ t', e.q.isData = false ∧ (isVisible e.q = true → ∃ resp, e = wrote resp) from
    fun e he => hx e (by simp [he])
  have hrg : ∀ {l : List Event}, Ranges l → ∀ e ∈ l, e.q.isData = false ∧ (isVisible e.q = true → ∃ resp, e = wrote resp) := by
    intro l hl e he
    obtain ⟨m, x, rfl⟩ := hl e he
    exact ⟨rfl, fun h => by cases h⟩
  intro e he
  generalize t ++ t' = l at hr he
  cases cancelRequest_runs hr with
  | noRequest l =>
    simp only [List.mem_cons, List.not_mem_nil, or_false] at he
    rcases he with rfl | rfl <;> exact ⟨rfl, fun h => by cases h⟩
  | nilRequest =>
    simp only [List.mem_cons, List.not_mem_nil, or_false] at he
    subst he
    exact ⟨rfl, fun h => by cases h⟩
  | denied req t o hs =>
    rcases List.mem_cons.1 he with rfl | he
    · exact ⟨rfl, fun h => by cases h⟩
    · rcases hs with ⟨_, rfl, _⟩ | ⟨_, a, resp, rfl, hr, _⟩
      · simp at he
      · rcases List.mem_append.1 he with he | he
        · exact hrg hr e he
        · obtain rfl : e = wrote resp := by simpa using he
          exact ⟨rfl, fun _ => ⟨resp, rfl⟩⟩

/-- C43: when the application continues a request, `CancelRequest` returns true and sends one
`access_denied` error with the request's state to its redirect URI, over its response mode; when the
application reports an error it sends nothing and returns false. -/
theorem C43_cancel_answers (h : Runs (cancelRequest lib r) t (.ok b)) :
    (b = true ∧ ∃ req pre resp, ⟨.continue_, some (some req)⟩ ∈ pre ∧ t = pre ++ [wrote resp] ∧
      (∀ e ∈ pre, isVisible e.q = false) ∧
      Delivers resp req.redirectURI (errorResponse b!"access_denied" [] req.state) (channel req.responseMode)) ∨
    (b = false ∧ ⟨.continue_, none⟩ ∈ t ∧ ∀ e ∈ t, isVisible e.q = false) := by
  generalize ho : Outcome.ok b = o at h
  cases cancelRequest_runs h with
  | noRequest l =>
    cases ho
    refine .inr ⟨rfl, by simp, fun e he => ?_⟩
    simp only [List.mem_cons, List.not_mem_nil, or_false] at he
    rcases he with rfl | rfl <;> rfl
  | nilRequest => cases ho
  | denied req t o hs =>
    rcases hs with ⟨rfl, _⟩ | ⟨rfl, a, resp, rfl, hr, hd⟩
    · cases ho
    · cases ho
      refine .inl ⟨rfl, req, ⟨.continue_, some (some req)⟩ :: a, resp, by simp, rfl, fun e he => ?_, hd⟩
      rcases List.mem_cons.1 he with rfl | he
      · rfl
      · obtain ⟨m, x, rfl⟩ := hr e he
        rfl

/-- A cancelled request: the error is delivered; an error of `Continue`: nothing is sent. -/
example : (∃ pre resp, Runs (cancelRequest Sample.lib anyReq) (pre ++ [wrote resp]) (.ok true)) ∧
    ∃ t, Runs (cancelRequest Sample.lib anyReq) t (.ok false) := by
  obtain ⟨p, r, h, _⟩ := sample_cancel_success
  exact ⟨⟨p, r, h⟩, _, Sample.World.runs {} (cancelRequest Sample.lib anyReq)⟩

/-- Drop a call at the front that is not the one looked for. -/
theorem drop_front {x e : Event} {pre post l : List Event} {P : Event → Prop} (h : pre ++ e :: post = x :: l)
    (he : P e) (hx : ¬ P x) : ∃ pre', pre = x :: pre' ∧ pre' ++ e :: post = l := by
  cases pre with
  | nil =>
    simp only [List.nil_append, List.cons.injEq] at h
    rw [h.1] at he
    exact absurd he hx
  | cons y pre =>
    simp only [List.cons_append, List.cons.injEq] at h
    obtain ⟨rfl, h⟩ := h
    exact ⟨pre, rfl, h⟩

/-- C43: at any point of any run of `CompleteRequest` where a code, session or token is created, the
application had continued a request, named the login user, and recorded the authorization of exactly
that user for the request's client and scope; sessions and tokens are created for that authorization. -/
theorem C43_complete_records_first {e : Event} {post : List Event}
    (h : Steps (completeRequest policy lib r) (pre ++ e :: post)) (he : createsGrant e.q = true) :
    ∃ req uid info rest, pre = ⟨.continue_, some (some req)⟩ :: ⟨.getLoginUserId, some uid⟩ ::
        ⟨.createOrUpdateAuthInfo uid req.clientId req.scope, (info, none)⟩ :: rest ∧
      ∀ i, grantOwner e.q = some i → i = info := by
  obtain ⟨t', o, hr⟩ := steps_complete h
  have hrg : ∀ {l : List Event}, Ranges l → ∀ e ∈ l, createsGrant e.q = false := by
    intro l hl e he
    obtain ⟨m, x, rfl⟩ := hl e he
    rfl
  have hse : ∀ {rh req typ b t o}, SendsError lib rh req typ b t o → ∀ e ∈ t, createsGrant e.q = false := by
    rintro rh req typ b t o (⟨_, rfl, _⟩ | ⟨_, a, resp, rfl, hr, _⟩) e he
    · simp at he
    · rcases List.mem_append.1 he with he | he
      · exact hrg hr e he
      · obtain rfl : e = wrote resp := by simpa using he
        rfl
  have hc := completeRequest_runs hr
  generalize hl : pre ++ e :: post ++ t' = l at hc
  have hmem : e ∈ l := by rw [← hl]; simp
  rw [List.append_assoc, List.cons_append] at hl
  cases hc with
  | noRequest l =>
    simp only [List.mem_cons, List.not_mem_nil, or_false] at hmem
    rcases hmem with rfl | rfl <;> cases he
  | nilRequest =>
    simp only [List.mem_cons, List.not_mem_nil, or_false] at hmem
    subst hmem
    cases he
  | noUser req l t o hs =>
    simp only [List.mem_cons] at hmem
    rcases hmem with rfl | rfl | rfl | hm
    · cases he
    · cases he
    · cases he
    · rw [hse hs e hm] at he; cases he
  | noAuth req uid x e' t o hs =>
    simp only [List.mem_cons] at hmem
    rcases hmem with rfl | rfl | rfl | hm
    · cases he
    · cases he
    · cases he
    · rw [hse hs e hm] at he; cases he
  | completed req uid info t o hs hown =>
    obtain ⟨p1, h1, hl1⟩ := drop_front (P := fun e => createsGrant e.q = true) hl he (by simp [createsGrant])
    obtain ⟨p2, h2, hl2⟩ := drop_front (P := fun e => createsGrant e.q = true) hl1 he (by simp [createsGrant])
    obtain ⟨p3, h3, hl3⟩ := drop_front (P := fun e => createsGrant e.q = true) hl2 he (by simp [createsGrant])
    exact ⟨req, uid, info, p3, by rw [h1, h2, h3], hown e (by rw [← hl3]; simp)⟩

theorem errorResponse_error (typ desc state : GoStr) : valuesOf (errorResponse typ desc state) b!"error" = [typ] := by
  unfold errorResponse
  rw [valuesOf_cons_eq, valuesOf_append]
  split <;> split <;> rfl

theorem completeParts_error {info : Option AuthInfo} {f : Flow} {w : List Event} {ps : Params}
    (h : CompleteParts policy lib info req f w ps) : valuesOf ps b!"error" = [] := by
  unfold CompleteParts at h
  cases hty : f.type <;> rw [hty] at h <;> dsimp only at h
  · obtain ⟨code, authTime, rfl, rfl⟩ := h
    rw [valuesOf_cons_ne (by decide), stateParam_other (by decide)]
  · obtain ⟨clnt, t1, atk, p1, authTime, t2, p2, htok, hid, rfl, rfl⟩ := h
    rw [valuesOf_append, valuesOf_append, valuesOf_append, stateParam_other (by decide), scopeParam_other (by decide),
      tokenPart_other htok (by decide) (by decide) (by decide), idPart_other hid (by decide)]; rfl
  · obtain ⟨code, authTime, clnt, t1, atk, p1, t2, p2, htok, hid, rfl, rfl⟩ := h
    rw [valuesOf_cons_ne (by decide), valuesOf_append, valuesOf_append, valuesOf_append, stateParam_other (by decide), scopeParam_other (by decide),
      tokenPart_other htok (by decide) (by decide) (by decide), idPart_other hid (by decide)]; rfl

theorem work_invisible (h : Work t) : ∀ e ∈ t, isVisible e.q = false := by
  intro e he
  have := h e he
  cases e with | mk q r => cases q <;> first | rfl | simp [Query.isWork] at this

theorem inert_invisible (h : Inert t) : ∀ e ∈ t, isVisible e.q = false := by
  intro e he
  have := h e he
  cases e with | mk q r => cases q <;> first | rfl | simp [Query.isInert] at this

theorem ranges_invisible (h : Ranges t) : ∀ e ∈ t, isVisible e.q = false := by
  intro e he
  obtain ⟨m, x, rfl⟩ := h e he
  rfl

theorem all_append {P : Event → Prop} {a c : List Event} (ha : ∀ e ∈ a, P e) (hc : ∀ e ∈ c, P e) : ∀ e ∈ a ++ c, P e := by
  intro e he
  rcases List.mem_append.1 he with he | he
  · exact ha e he
  · exact hc e he

theorem all_cons {P : Event → Prop} {a : Event} {c : List Event} (ha : P a) (hc : ∀ e ∈ c, P e) : ∀ e ∈ a :: c, P e := by
  intro e he
  rcases List.mem_cons.1 he with rfl | he
  · exact ha
  · exact hc e he

/-- C43: a run of `CompleteRequest` that continues a browser request and does not panic shows nothing but
one response, to that request's redirect URI over its response mode and with its state; it returns true
exactly when the response is not an error. -/
theorem C43_complete_answers (h : Runs (completeRequest policy lib r) t (.ok b)) {f : Flow}
    (hc : ⟨.continue_, some (some req)⟩ ∈ t) (hf : req.flow = some f) (hty : f.type ≠ .directGrant) :
    ∃ pre resp ps, t = pre ++ [wrote resp] ∧ (∀ e ∈ pre, isVisible e.q = false) ∧
      Delivers resp req.redirectURI ps (channel req.responseMode) ∧
      valuesOf ps b!"state" = stateValues req.state ∧ (b = true ↔ valuesOf ps b!"error" = []) := by
  generalize ho : Outcome.ok b = o at h
  have hone : ∀ {x : Event} {l : List Event}, ⟨.continue_, some (some req)⟩ ∈ x :: l →
      (∀ e ∈ l, ∀ a, e ≠ ⟨.continue_, a⟩) → x = ⟨.continue_, some (some req)⟩ := by
    intro x l hm hl
    rcases List.mem_cons.1 hm with h | h
    · exact h.symm
    · exact absurd rfl (hl _ h _)
  have hse : ∀ {rh req typ b t o}, SendsError lib rh req typ b t o → ∀ e ∈ t, ∀ a, e ≠ ⟨.continue_, a⟩ := by
    rintro rh req typ b t o (⟨_, rfl, _⟩ | ⟨_, a, resp, rfl, hr, _⟩) e he
    · simp at he
    · rcases List.mem_append.1 he with he | he
      · obtain ⟨m, x, rfl⟩ := hr e he
        simp
      · obtain rfl : e = wrote resp := by simpa using he
        simp [wrote]
  have hfin : ∀ {x y z : Event} {t : List Event}, isVisible x.q = false → isVisible y.q = false → isVisible z.q = false →
      SendsError lib req.responseMode req b!"server_error" false t (.ok b) →
      ∃ pre resp ps, x :: y :: z :: t = pre ++ [wrote resp] ∧ (∀ e ∈ pre, isVisible e.q = false) ∧
      Delivers resp req.redirectURI ps (channel req.responseMode) ∧
      valuesOf ps b!"state" = stateValues req.state ∧ (b = true ↔ valuesOf ps b!"error" = []) := by
    rintro x y z t hx hy hz (⟨h, _⟩ | ⟨h, a, resp, rfl, hr, hd⟩)
    · cases h
    · cases h
      refine ⟨x :: y :: z :: a, resp, _, rfl, all_cons hx (all_cons hy (all_cons hz (ranges_invisible hr))), hd,
        errorResponse_state .., ?_⟩
      rw [errorResponse_error]
      simp
  cases completeRequest_runs h with
  | noRequest l => simp at hc
  | nilRequest => cases ho
  | noUser req' l t o hs =>
    have h1 := hone hc (all_cons (by simp) (all_cons (by simp) (hse hs)))
    simp only [Event.mk.injEq, heq_eq_eq, Option.some.injEq, true_and] at h1
    subst h1
    subst ho
    exact hfin rfl rfl rfl hs
  | noAuth req' uid x e t o hs =>
    have h1 := hone hc (all_cons (by simp) (all_cons (by simp) (hse hs)))
    simp only [Event.mk.injEq, heq_eq_eq, Option.some.injEq, true_and] at h1
    subst h1
    subst ho
    exact hfin rfl rfl rfl hs
  | completed req' uid info t o hs hown =>
    have hwk : ∀ {t}, Work t → ∀ e ∈ t, ∀ a, e ≠ ⟨.continue_, a⟩ := by
      rintro t hw e he a rfl
      have := hw _ he
      cases this
    have hst : ∀ {t resp}, SentTrace t resp → ∀ e ∈ t, ∀ a, e ≠ ⟨.continue_, a⟩ := by
      rintro t resp hs e he a rfl
      rcases hs with rfl | ⟨m, l, rfl⟩ <;> simp at he
    have hnc : ∀ e ∈ t, ∀ a, e ≠ ⟨.continue_, a⟩ := by
      rcases hs with ⟨_, h1, _⟩ | ⟨_, rfl, _⟩ | ⟨_, t1, t2, resp, rfl, h1, h2, _⟩ | ⟨_, f, t1, t2, ps, resp, _, rfl, h1, _, h2, _⟩
      · exact hwk h1
      · simp
      · exact all_append (hwk h1) (hst h2)
      · exact all_append (hwk h1) (hst h2)
    have h1 := hone hc (all_cons (by simp) (all_cons (by simp) hnc))
    simp only [Event.mk.injEq, heq_eq_eq, Option.some.injEq, true_and] at h1
    subst h1
    subst ho
    rcases hs with ⟨h1, _⟩ | ⟨_, rfl, f', hf', hty'⟩ | ⟨h1, t1, t2, resp, rfl, hw, hs, hd⟩ |
      ⟨h1, f, t1, t2, ps, resp, _, rfl, hw, hparts, hs, hd⟩
    · cases h1
    · rw [hf] at hf'; cases hf'; exact absurd hty' hty
    · cases h1
      obtain ⟨p, rfl, _, hp⟩ := sentTrace_last hs
      refine ⟨_ :: _ :: _ :: (t1 ++ p), resp, _, by simp; exact ⟨rfl, rfl, rfl⟩, ?_, hd, errorResponse_state .., ?_⟩
      · exact all_cons rfl (all_cons rfl (all_cons rfl (all_append (work_invisible hw) (ranges_invisible hp))))
      · rw [errorResponse_error]; simp
    · cases h1
      obtain ⟨p, rfl, _, hp⟩ := sentTrace_last hs
      refine ⟨_ :: _ :: _ :: (t1 ++ p), resp, ps, by simp; exact ⟨rfl, rfl, rfl⟩, ?_, hd, completeParts_state hparts, ?_⟩
      · exact all_cons rfl (all_cons rfl (all_cons rfl (all_append (work_invisible hw) (ranges_invisible hp))))
      · rw [completeParts_error hparts]; simp

/-- A hybrid request is completed; without a login user an error is sent. -/
example : (∃ pre resp, Runs (completeRequest .default Sample.lib anyReq) (pre ++ [wrote resp]) (.ok true)) ∧
    ∃ t, Runs (completeRequest .default Sample.lib anyReq) t (.ok false) ∧ t.length = 4 := by
  obtain ⟨p, r, h, _⟩ := sample_complete_success
  exact ⟨⟨p, r, h⟩, _, Sample.World.runs { hybridWorld with loginUser := none } (completeRequest .default Sample.lib anyReq),
    by decide +kernel⟩

/-! ## C44 -/

/-- C44 (partial: a failing login screen callback is reported to the client unless the login was demanded
by `prompt=login` or `max_age`, see `C44_false`): a run of `HandleRequest` that does not panic ends with
its outcome: an error screen, a login screen, a consent screen or a response.  Nothing visible happens
before, except that a failed screen callback is followed by a `server_error` response.  It returns true
exactly when the consent screen was shown or a response without error was sent. -/
theorem C44_one_outcome_partial (h : Runs (handleRequest policy lib r) t (.ok b)) :
    ∃ pre e, t = pre ++ [e] ∧
      ((∀ x ∈ pre, isVisible x.q = false) ∨
        ∃ a s c resp desc ch, pre = a ++ s :: c ∧ (∀ x ∈ a ++ c, isVisible x.q = false) ∧ ScreenFailed s ∧
          e = wrote resp ∧ Delivers resp (r.formValue b!"redirect_uri")
            (errorResponse b!"server_error" desc (r.formValue b!"state")) ch) ∧
      ((b = true ∧ ((∃ clnt req, e = ⟨.showConsentScreen clnt req, true⟩) ∨
          ∃ resp ps ch, e = wrote resp ∧ Delivers resp (r.formValue b!"redirect_uri") ps ch ∧
            valuesOf ps b!"error" = [])) ∨
       (b = false ∧ ((∃ n, e = ⟨.showErrorScreen n, ()⟩) ∨
          (∃ req shown, e = ⟨.showLoginScreen req, shown⟩ ∧ (shown = true ∨
            (∀ ws, Words (r.formValue b!"prompt") ws → b!"login" ∈ ws) ∨ r.formValue b!"max_age" ≠ [])) ∨
          ∃ resp typ desc ch, e = wrote resp ∧ Delivers resp (r.formValue b!"redirect_uri")
            (errorResponse typ desc (r.formValue b!"state")) ch))) := by
  have hend := handleRequest_ending h
  generalize ho : Outcome.ok b = o at hend
  cases hend with
  | screen t n hi =>
    cases ho
    exact ⟨t, _, rfl, .inl (inert_invisible hi), .inr ⟨rfl, .inl ⟨n, rfl⟩⟩⟩
  | refused clnt pre resp hr hn =>
    cases ho
    obtain ⟨typ, desc, ch, _, hd⟩ := hr.delivers
    refine ⟨pre, _, rfl, ?_, .inr ⟨rfl, .inr (.inr ⟨resp, typ, desc, ch, rfl, hd⟩)⟩⟩
    have hcalm : ∀ {l : List Event}, (∀ e ∈ l, Calm e) → ∀ e ∈ l, isVisible e.q = false := by
      intro l hl e he
      rcases hl e he with h | ⟨m, x, rfl⟩
      · exact inert_invisible (t := [e]) (inert_cons.2 ⟨h, inert_nil⟩) e (by simp)
      · rfl
    rcases hr.once with hq | ⟨a, s, c, rfl, hq, hs, desc, ch, hd⟩
    · exact .inl (hcalm hq)
    · exact .inr ⟨a, s, c, resp, desc, ch, rfl, hcalm hq, hs, rfl, hd⟩
  | login clnt f req t shown hf hb hm hi hw =>
    cases ho
    refine ⟨t, _, rfl, .inl (inert_invisible hi), .inr ⟨rfl, .inr (.inl ⟨req, shown, rfl, ?_⟩)⟩⟩
    rcases hw with h | h | h
    · exact .inl h
    · refine .inr (.inl fun ws hws => ?_)
      rw [hb.prompt] at h
      exact (C48_prompt_include_iff hws).1 h
    · refine .inr (.inr fun hma => ?_)
      rcases hb.maxAge with ⟨_, h0⟩ | ⟨_, h0, _⟩
      · rw [h0] at h; exact absurd h (by decide)
      · exact h0 hma
  | consent clnt f req t hf hb hm hi hp =>
    cases ho
    exact ⟨t, _, rfl, .inl (inert_invisible hi), .inl ⟨rfl, .inl ⟨clnt, req, rfl⟩⟩⟩
  | success clnt f req info before work after ps resp hs =>
    cases ho
    refine ⟨before ++ work ++ after, _, rfl, .inl ?_, .inl ⟨rfl, .inr ⟨resp, ps, _, rfl, hs.delivers, completeParts_error hs.parts⟩⟩⟩
    exact all_append (all_append (inert_invisible hs.inert) (work_invisible hs.working)) (ranges_invisible hs.ranging)
  | panic => cases ho
  | failed clnt f req info before work after resp hf ha hb hi hc hw hr hd =>
    cases ho
    refine ⟨before ++ work ++ after, _, rfl, .inl ?_, .inr ⟨rfl, .inr (.inr ⟨resp, _, _, _, rfl, hd⟩)⟩⟩
    exact all_append (all_append (inert_invisible hi) (work_invisible hw)) (ranges_invisible hr)

/-- A run that ends with a response, and one that ends with the consent screen. -/
example : (∃ pre resp, Runs (handleRequest .default Sample.lib hybridGet) (pre ++ [wrote resp]) (.ok true)) ∧
    ∃ t, Runs (handleRequest .default Sample.lib hybridGet) t (.ok true) ∧
      t.any (fun e => match e.q with | .showConsentScreen _ _ => true | _ => false) = true :=
  ⟨let ⟨pre, resp, h, _⟩ := sample_hybrid_success; ⟨pre, resp, h⟩,
    _, Sample.World.runs {} (handleRequest .default Sample.lib hybridGet), by decide +kernel⟩

/-- The code that shows a login screen for `prompt=login`. -/
def loginGet : Req := authGet [(b!"response_type", b!"code"), (b!"scope", b!"openid"), (b!"prompt", b!"login")]

/-- Whether the trace ends with a failed login screen. -/
def endsWithFailedLogin (t : List Event) : Bool :=
  match t.getLast? with
  | some ⟨.showLoginScreen _, false⟩ => true
  | _ => false

/-- C44 is false: with `prompt=login` a failing `ShowLoginScreen` ends the run, and nothing is sent to
the client. -/
theorem C44_false : ∃ pre req, Runs (handleRequest .default Sample.lib loginGet)
    (pre ++ [⟨.showLoginScreen req, false⟩]) (.ok false) := by
  have h1 := Sample.World.runs { consentedWorld with showLogin := false } (handleRequest .default Sample.lib loginGet)
  have h2 : endsWithFailedLogin (Sample.World.run { consentedWorld with showLogin := false }
    (handleRequest .default Sample.lib loginGet)).1 = true := by decide +kernel
  obtain ⟨_, _, hok⟩ : ∃ b o', (Sample.World.run { consentedWorld with showLogin := false }
    (handleRequest .default Sample.lib loginGet)).2 = (.ok b, o') := ⟨_, _, rfl⟩
  rw [hok] at h1
  generalize (Sample.World.run { consentedWorld with showLogin := false }
    (handleRequest .default Sample.lib loginGet)).1 = t at h1 h2
  unfold endsWithFailedLogin at h2
  rcases List.eq_nil_or_concat t with rfl | ⟨pre, e, rfl⟩
  · simp at h2
  · rw [List.concat_eq_append] at h1 h2
    rw [List.getLast?_concat] at h2
    split at h2
    · rename_i req heq
      cases heq
      obtain ⟨pre', e', he, _, ⟨_, ⟨_, _, rfl⟩ | ⟨_, _, _, rfl, _⟩⟩ | ⟨rfl, _⟩⟩ := C44_one_outcome_partial h1
      · have := (List.append_inj' he rfl).2
        simp at this
      · have := (List.append_inj' he rfl).2
        simp at this
      · exact ⟨pre, req, h1⟩
    · cases h2

end Goidc.Props
