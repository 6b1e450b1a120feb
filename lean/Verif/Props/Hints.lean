import Verif.Spec.Hints
import Verif.Props.Verifier
import Verif.Props.Extent

/-! # C113, C114: what the hints and `max_age` are good for -/

namespace Goidc.Props

open Spec AuthzEndpoint

variable {lib : Lib} {policy : Policy} {r r' : Req} {m : Request → Request} {t pre : List Event} {o : Outcome Bool} {α : Type}
  {resp : HttpResp}

/-- The calls that carry no request. -/
def Unmoved (m : Request → Request) (q : Query) : Prop := ∀ x, recast m ⟨q, x⟩ = ⟨q, x⟩

theorem unmoved_success {mode uri ps} : AllQ (Unmoved m) (AuthResponse.success lib r mode uri ps) := by
  unfold AuthResponse.success AuthResponse.redirectTo AuthResponse.render AuthResponse.connector respond
  blank

theorem unmoved_alog {lv ev ps} : AllQ (Unmoved m) (alog lv r ev ps).run := allQ_xlift (allQ_ask fun _ => rfl)

theorem unmoved_errorTo {mode uri typ desc state} : AllQ (Unmoved m) (errorTo lib r mode uri typ desc state : AuthM α).run :=
  allQ_xbind (allQ_xlift unmoved_success) fun _ => allQ_xthrow

theorem unmoved_callback {mode uri state n} : AllQ (Unmoved m) (AuthzEndpoint.callbackFailed lib r mode uri state n : AuthM α).run :=
  allQ_xbind unmoved_alog fun _ => unmoved_errorTo

/-- Everything inside `HandleRequest` that makes no call with a request. -/
macro "stills" : tactic => `(tactic| ((try dsimp only); repeat' first
    | exact unmoved_alog | exact unmoved_errorTo | exact unmoved_callback
    | exact allQ_xlift (allQ_ask (fun _ => rfl))
    | exact allQ_xpure | exact allQ_xthrow | exact allQ_panic
    | (refine allQ_xbind ?_ fun _ => ?_) | split))

theorem unmoved_identify : AllQ (Unmoved m) (identify r).run := by
  have hf : ∀ {cid}, AllQ (Unmoved m) (findClient r cid).run := by
    intro cid
    unfold findClient showError
    stills
  unfold identify showError
  dsimp only
  split
  · stills
  split
  · stills
  refine allQ_xbind hf fun _ => ?_
  split
  · stills
  · exact allQ_xpure

theorem unmoved_build {clnt : Client} : AllQ (Unmoved m) (buildRequest policy lib r clnt).run := by
  unfold buildRequest
  dsimp only
  refine allQ_xbind (by unfold judgeFlow; stills) fun _ => ?_
  refine allQ_xbind (by unfold pickMode; stills) fun _ => ?_
  refine allQ_xbind (by unfold checkModeLevel; stills) fun _ => ?_
  refine allQ_xbind (by unfold checkFlow; stills) fun _ => ?_
  refine allQ_xbind (by unfold checkDisplay; stills) fun _ => ?_
  refine allQ_xbind (by unfold checkMaxAge; stills) fun _ => ?_
  refine allQ_xbind (by unfold checkPrompt; stills) fun _ => ?_
  refine allQ_xbind (by unfold offlineScope; stills) fun _ => ?_
  refine allQ_xbind (by unfold checkScope; stills) fun _ => ?_
  refine allQ_xbind (by unfold checkNonce; stills) fun _ => ?_
  refine allQ_xbind (by unfold checkVerifier; stills) fun _ => ?_
  refine allQ_xbind (by unfold chooseLocale; stills) fun _ => ?_
  exact allQ_xpure

/-! ## The answer -/

theorem same_complete {q q' : Request} (h : SameAnswer q q') {rh : GoStr} {info : Option AuthInfo} :
    complete policy lib r rh info q' = complete policy lib r rh info q := by
  obtain ⟨f, c, u, s, md, st, n, d, p, ma, ul, cv, ih, lh⟩ := q
  obtain ⟨f', c', u', s', md', st', n', d', p', ma', ul', cv', ih', lh'⟩ := q'
  obtain ⟨h1, h2, h3, h4, h5, h6, h7, h8⟩ := h
  dsimp only at h1 h2 h3 h4 h5 h6 h7 h8
  subst h1 h2 h3 h4 h5 h6 h7 h8
  unfold complete
  rcases f' with _ | f
  · rfl
  dsimp only
  cases f.type with
  | directGrant => rfl
  | authorizationCode =>
    refine bind_congr fun x => ?_
    rcases x with _ | code
    · rfl
    · refine bind_congr fun y => ?_
      rcases y with _ | a
      · rfl
      · refine bind_congr fun z => ?_
        rcases z with _ | e <;> rfl
  | implicit =>
    refine bind_congr fun x => ?_
    rcases x with ⟨c, _ | e⟩
    · refine bind_congr fun y => ?_
      rcases y with _ | ⟨a, b⟩
      · rfl
      · refine bind_congr fun z => ?_
        rcases z with _ | w
        · rfl
        · refine bind_congr fun v => ?_
          rcases v with _ | e <;> rfl
    · rfl
  | hybrid =>
    refine bind_congr fun x => ?_
    rcases x with _ | code
    · rfl
    · refine bind_congr fun y => ?_
      rcases y with _ | a
      · rfl
      · refine bind_congr fun z => ?_
        rcases z with _ | e
        · refine bind_congr fun c => ?_
          rcases c with ⟨c, _ | e⟩
          · refine bind_congr fun y => ?_
            rcases y with _ | ⟨a, b⟩
            · rfl
            · refine bind_congr fun v => ?_
              rcases v with _ | e <;> rfl
          · rfl
        · rfl

theorem unmoved_completeFail {rh} {req : Request} : AllQ (Unmoved m) (completeFail lib r rh req) :=
  allQ_bind' unmoved_success fun _ => allQ_pure

theorem unmoved_completeCallbackFail {rh n} {req : Request} : AllQ (Unmoved m) (completeCallbackFail lib r rh req n) :=
  allQ_bind' (allQ_ask fun _ => rfl) fun _ => unmoved_completeFail

theorem unmoved_idToken {clnt info f} {req : Request} {authTime atk code} :
    AllQ (Unmoved m) (frontIdToken policy lib clnt info f req authTime atk code) := by
  unfold frontIdToken
  repeat' first
    | exact allQ_pure | exact allQ_panic | exact allQ_ask (fun _ => rfl)
    | (refine allQ_bind' ?_ fun _ => ?_) | split | dsimp only

theorem unmoved_token {info f key} : AllQ (Unmoved m) (frontToken info f key) := by
  unfold frontToken
  blank

/-- Everything on the way to the answer. -/
macro "stilla" : tactic => `(tactic| repeat' first
    | exact unmoved_success | exact unmoved_completeFail | exact unmoved_completeCallbackFail | exact unmoved_idToken | exact unmoved_token
    | exact allQ_pure | exact allQ_panic | exact allQ_ask (fun _ => rfl)
    | (refine allQ_bind' ?_ fun _ => ?_) | split | dsimp only)

theorem unmoved_complete {rh info} {req : Request} : AllQ (Unmoved m) (complete policy lib r rh info req) := by
  unfold complete completeCode completeImplicit completeHybrid
  stilla

/-- C114, how far the defect reaches: `CompleteRequest` and `CancelRequest` look at nothing of the request they are handed back
but what the answer is made of.  `max_age`, `prompt`, `display`, the locale and the hints may be any others: every run
remains one, with the same response, calls, log lines and result. -/
theorem C114_unread (hm : ∀ q, SameAnswer q (m q)) :
    (Runs (completeRequest policy lib r) t o → Runs (completeRequest policy lib r) (t.map (recast m)) o) ∧
    (Runs (cancelRequest lib r) t o → Runs (cancelRequest lib r) (t.map (recast m)) o) := by
  have hc : SimR (recast m) (fun a b => (∃ q, a = some (some q) ∧ b = some (some (m q))) ∨
      a = some none ∧ b = some none ∨ a = none ∧ b = none) (ask .continue_) (ask .continue_) := by
    intro x
    match x with
    | none => exact ⟨.continue_, _, none, rfl, rfl, none, rfl, .inr (.inr ⟨rfl, rfl⟩)⟩
    | some none => exact ⟨.continue_, _, some none, rfl, rfl, some none, rfl, .inr (.inl ⟨rfl, rfl⟩)⟩
    | some (some q) => exact ⟨.continue_, _, some (some (m q)), rfl, rfl, some (some (m q)), rfl, .inl ⟨q, rfl, rfl⟩⟩
  constructor
  · refine simR_runs_eq ?_
    unfold completeRequest
    refine simR_bind hc fun a b hab => ?_
    rcases hab with ⟨q, rfl, rfl⟩ | ⟨rfl, rfl⟩ | ⟨rfl, rfl⟩
    · dsimp only
      unfold completeCallbackFail completeFail
      rw [(hm q).clientId, (hm q).scope, (hm q).responseMode, (hm q).redirectURI, (hm q).state]
      refine simR_same (allQ_ask fun _ => rfl) fun uid => ?_
      cases uid with
      | none => exact simR_refl (unmoved_completeCallbackFail (req := q))
      | some uid =>
        refine simR_same (p := ask (.createOrUpdateAuthInfo uid q.clientId q.scope)) (allQ_ask fun _ => rfl) fun i => ?_
        obtain ⟨i, e⟩ := i
        cases e with
        | some e => exact simR_refl (unmoved_completeFail (req := q))
        | none =>
          dsimp only
          rw [same_complete (hm q)]
          exact simR_refl unmoved_complete
    · rfl
    · exact simR_refl (allQ_bind' (allQ_ask fun _ => rfl) fun _ => allQ_pure)
  · refine simR_runs_eq ?_
    unfold cancelRequest
    refine simR_bind hc fun a b hab => ?_
    rcases hab with ⟨q, rfl, rfl⟩ | ⟨rfl, rfl⟩ | ⟨rfl, rfl⟩
    · dsimp only
      rw [(hm q).responseMode, (hm q).redirectURI, (hm q).state]
      exact simR_refl (allQ_bind' unmoved_success fun _ => allQ_pure)
    · rfl
    · exact simR_refl (allQ_bind' (allQ_ask fun _ => rfl) fun _ => allQ_pure)

/-- A continued request that demands a login of the last minute. -/
def agedReq : Request := { continuedReq ⟨.hybrid, true, true⟩ b!"fragment" with maxAge := 60 }

/-- C114 is false: `CompleteRequest` answers a request with `max_age=60` for a user who logged in 200 seconds ago. -/
theorem C114_false : ¬ ∀ (policy : Policy) (lib : Lib) (r : Req) (t : List Event) (req : Request),
    Runs (completeRequest policy lib r) t (.ok true) → ⟨.continue_, some (some req)⟩ ∈ t → AgeHonoured req.maxAge t := by
  intro hall
  let w : Sample.World := { continued := some (some agedReq) }
  have hr := w.runs (completeRequest .default Sample.lib anyReq)
  have hok : ∃ x, (w.run (completeRequest .default Sample.lib anyReq)).2 = (.ok true, x) := ⟨_, rfl⟩
  obtain ⟨x, hok⟩ := hok
  rw [hok] at hr
  have h1 : (⟨.continue_, some (some agedReq)⟩ : Event) ∈ (w.run (completeRequest .default Sample.lib anyReq)).1 :=
    List.mem_cons_self
  have hany : ∀ {p : Event → Bool} {e : Event}, (∀ x, p x = true → x = e) →
      (w.run (completeRequest .default Sample.lib anyReq)).1.any p = true →
      e ∈ (w.run (completeRequest .default Sample.lib anyReq)).1 := by
    intro p e hp h
    obtain ⟨x, hx, hpx⟩ := List.any_eq_true.1 h
    exact hp x hpx ▸ hx
  have h2 : (⟨.getAuthTime, some 800⟩ : Event) ∈ (w.run (completeRequest .default Sample.lib anyReq)).1 := by
    refine hany (p := fun e => match e with | ⟨.getAuthTime, some n⟩ => n = 800 | _ => false) (fun x hx => ?_) (by decide +kernel)
    split at hx
    · simp at hx; subst hx; rfl
    · cases hx
  have h3 : (⟨.now, 1000⟩ : Event) ∈ (w.run (completeRequest .default Sample.lib anyReq)).1 := by
    refine hany (p := fun e => match e with | ⟨.now, n⟩ => n = 1000 | _ => false) (fun x hx => ?_) (by decide +kernel)
    split at hx
    · simp at hx; subst hx; rfl
    · cases hx
  have := hall _ _ _ _ _ hr h1 (by decide) 800 1000 h2 h3
  revert this
  decide

/-- Two requests with the same answer: one asks for a login of the last minute, the other does not. -/
example : SameAnswer agedReq { agedReq with maxAge := 0 } ∧
    returnedTrue (({ continued := some (some agedReq) } : Sample.World).run (completeRequest .default Sample.lib anyReq)) = true :=
  ⟨⟨rfl, rfl, rfl, rfl, rfl, rfl, rfl, rfl⟩, by decide +kernel⟩

/-! ## C113 -/

theorem same_rehinted (a b : GoStr) (q : Request) : SameAnswer q (rehinted a b q) := ⟨rfl, rfl, rfl, rfl, rfl, rfl, rfl, rfl⟩

variable {a b : GoStr} {q : Request} {c : Client}

theorem rehint_finish {info : AuthInfo} : (finish policy lib r info (rehinted a b q) : AuthM α) = finish policy lib r info q := by
  unfold finish
  rw [same_complete (same_rehinted a b q)]
  rfl

theorem rehint_none : (noneComplete policy lib r (rehinted a b q) : AuthM α) = noneComplete policy lib r q := by
  refine bind_congr fun x => ?_
  rcases x with _ | u
  · rfl
  · refine bind_congr fun y => ?_
    rcases y with ⟨_ | i, _ | _ | _ | _ | _⟩ <;> try rfl
    show (consentCovers policy i q >>= _) = (consentCovers policy i q >>= _)
    refine bind_congr fun ok => ?_
    rw [rehint_finish]
    rfl

/-- The client's policy for silent requests does not look at hints. -/
def Hintless (c : Client) : Prop :=
  c.nonePromptPolicy ≠ .allowIfLoginHintMatched ∧ c.nonePromptPolicy ≠ .allowIfIdTokenHintMatched

theorem rehint_promptNone (hc : Hintless c) : promptNone policy lib r c (rehinted a b q) = promptNone policy lib r c q := by
  unfold promptNone
  cases h : c.nonePromptPolicy with
  | allowIfLoginHintMatched => exact absurd h hc.1
  | allowIfIdTokenHintMatched => exact absurd h hc.2
  | forbidden => rfl
  | allowWithLoginSession =>
    dsimp only
    rw [rehint_none]
    rfl
  | other => rfl

theorem rehint_omit : omitConsent policy lib r c (rehinted a b q) = omitConsent policy lib r c q := by
  unfold omitConsent
  rw [show (rehinted a b q).prompt = q.prompt from rfl]
  split
  · rfl
  cases c.noConsentPromptPolicy with
  | forceConsent => rfl
  | other => rfl
  | omitConsentIfCan =>
    refine bind_congr fun x => ?_
    rcases x with _ | u
    · rfl
    · refine bind_congr fun y => ?_
      rcases y with ⟨_ | i, _ | _ | _ | _ | _⟩ <;> try rfl
      show (consentCovers policy i q >>= _) = (consentCovers policy i q >>= _)
      refine bind_congr fun ok => ?_
      rw [rehint_finish]

theorem unmoved_none : AllQ (Unmoved m) (noneComplete policy lib r q : AuthM α).run := by
  unfold noneComplete consentCovers finish
  stills
  exact allQ_xlift unmoved_complete

theorem unmoved_omit : AllQ (Unmoved m) (omitConsent policy lib r c q).run := by
  unfold omitConsent consentCovers finish
  stills
  exact allQ_xlift unmoved_complete

theorem unmoved_promptNone : AllQ (Unmoved m) (promptNone policy lib r c q).run := by
  have h1 : AllQ (Unmoved m) (requireLogin lib r q).run := by unfold requireLogin; stills
  have h2 : ∀ {s d}, AllQ (Unmoved m) (requireMatch lib r q s d).run := by intro s d; unfold requireMatch; stills
  have h3 : AllQ (Unmoved m) (checkIdTokenHint lib r c q).run := by
    unfold checkIdTokenHint
    stills
    exact allQ_xlift (allQ_parse (fun _ => rfl) fun _ => allQ_pure)
  unfold promptNone
  split
  · stills
  · exact allQ_xbind h1 fun _ => unmoved_none
  · split
    · stills
    · exact allQ_xbind h1 fun _ => allQ_xbind h2 fun _ => unmoved_none
  · exact allQ_xbind h3 fun _ => allQ_xbind h2 fun _ => unmoved_none
  · exact allQ_xpure

theorem recast_login {m : Request → Request} : SimR (recast m) (ExceptRel (ε := Bool) Eq) (aask (.showLoginScreen q)).run
    (aask (.showLoginScreen (m q))).run :=
  fun x => ⟨.showLoginScreen (m q), _, x, rfl, rfl, _, rfl, rfl⟩

theorem recast_consent {m : Request → Request} : SimR (recast m) (ExceptRel (ε := Bool) Eq)
    (aask (.showConsentScreen c q)).run (aask (.showConsentScreen c (m q))).run :=
  fun x => ⟨.showConsentScreen c (m q), _, x, rfl, rfl, _, rfl, rfl⟩

theorem recast_callback {n} : SimR (recast m) (ExceptRel (β := α) Eq)
    (AuthzEndpoint.callbackFailed lib r q.responseMode q.redirectURI q.state n : AuthM α).run
    (AuthzEndpoint.callbackFailed lib r q.responseMode q.redirectURI q.state n : AuthM α).run := simR_xrefl unmoved_callback

theorem recast_decide (hc : q.prompt ≠ Prompt.pNone ∨ Hintless c) : SimR (recast (rehinted a b)) (ExceptRel Eq)
    (decideRequest policy lib r c q).run (decideRequest policy lib r c (rehinted a b q)).run := by
  have confirm : SimR (recast (rehinted a b)) (ExceptRel Eq)
      (confirmLogin lib r q).run (confirmLogin lib r (rehinted a b q)).run := by
    unfold confirmLogin
    refine simR_xsame (allQ_xlift (allQ_ask fun _ => rfl)) fun x => ?_
    cases x with
    | none => exact recast_callback
    | some x =>
      cases x with
      | true => exact ⟨_, rfl, rfl⟩
      | false =>
        refine simR_xsame unmoved_alog fun _ => simR_xbind (recast_login (m := rehinted a b)) fun x y hxy => ?_
        have hxy : x = y := hxy
        subst hxy
        cases x with
        | false => exact recast_callback
        | true => exact ⟨_, rfl, rfl⟩
  have login : SimR (recast (rehinted a b)) (ExceptRel Eq)
      (promptLogin lib r q).run (promptLogin lib r (rehinted a b q)).run := by
    unfold promptLogin
    rw [show (rehinted a b q).prompt = q.prompt from rfl]
    split
    · refine simR_xsame (allQ_xlift (allQ_ask fun _ => rfl)) fun x => ?_
      cases x with
      | none => exact recast_callback
      | some x =>
        cases x with
        | true => exact ⟨_, rfl, rfl⟩
        | false => exact simR_xsame unmoved_alog fun _ => simR_xbind (recast_login (m := rehinted a b)) fun x y hxy => ⟨_, rfl, rfl⟩
    · exact ⟨_, rfl, rfl⟩
  have age : SimR (recast (rehinted a b)) (ExceptRel Eq)
      (checkAuthAge lib r q).run (checkAuthAge lib r (rehinted a b q)).run := by
    unfold checkAuthAge
    refine simR_xsame (allQ_xlift (allQ_ask fun _ => rfl)) fun x => ?_
    cases x with
    | none => exact recast_callback
    | some x =>
      dsimp only
      rw [show (rehinted a b q).maxAge = q.maxAge from rfl]
      split
      · refine simR_xsame (allQ_xlift (allQ_ask fun _ => rfl)) fun now => ?_
        split
        · exact simR_xsame unmoved_alog fun _ => simR_xbind (recast_login (m := rehinted a b)) fun x y hxy => ⟨_, rfl, rfl⟩
        · exact ⟨_, rfl, rfl⟩
      · exact ⟨_, rfl, rfl⟩
  have omits : SimR (recast (rehinted a b)) (ExceptRel Eq)
      (omitConsent policy lib r c q).run (omitConsent policy lib r c (rehinted a b q)).run := by
    rw [rehint_omit]
    exact simR_xrefl unmoved_omit
  have shows : SimR (recast (rehinted a b)) (ExceptRel Eq)
      (showConsent lib r c q).run (showConsent lib r c (rehinted a b q)).run := by
    unfold showConsent
    refine simR_xbind (recast_consent (m := rehinted a b)) fun x y hxy => ?_
    have hxy : x = y := hxy
    subst hxy
    cases x with
    | false => exact recast_callback
    | true => exact ⟨_, rfl, rfl⟩
  unfold decideRequest
  have rest : SimR (recast (rehinted a b)) (ExceptRel Eq)
      (promptLogin lib r q >>= fun _ => checkAuthAge lib r q >>= fun _ => omitConsent policy lib r c q >>= fun _ =>
        showConsent lib r c q).run
      (promptLogin lib r (rehinted a b q) >>= fun _ => checkAuthAge lib r (rehinted a b q) >>= fun _ =>
        omitConsent policy lib r c (rehinted a b q) >>= fun _ => showConsent lib r c (rehinted a b q)).run :=
    simR_xbind (R := Eq) login fun _ _ _ =>
      simR_xbind (R := Eq) age fun _ _ _ => simR_xbind (R := Eq) omits fun _ _ _ => shows
  rw [show (rehinted a b q).prompt = q.prompt from rfl]
  dsimp only
  split
  · rename_i hp
    have hc := hc.resolve_left (fun h => h hp)
    rw [rehint_promptNone hc]
    exact simR_xbind (R := Eq) (simR_xrefl unmoved_promptNone) fun _ _ _ => rest
  · exact simR_xbind (R := Eq) confirm fun _ _ _ => rest

theorem rehint_build (hm : r.method = r'.method) (hp : r.path = r'.path)
    (hk : ∀ n ∈ unhintedNames, r.formValue n = r'.formValue n) :
    buildRequest policy lib r' c = buildRequest policy lib r c >>= fun q =>
      pure (rehinted (r'.formValue b!"id_token_hint") (r'.formValue b!"login_hint") q) := by
  have e : unhintedNames = [b!"client_id", b!"redirect_uri", b!"response_type", b!"response_mode", b!"state", b!"display",
   b!"max_age", b!"prompt", b!"scope", b!"nonce", b!"code_verifier", b!"ui_locales"] := by decide +kernel
  rw [e] at hk
  simp only [List.forall_mem_cons] at hk
  obtain ⟨k1, k2, k3, k4, k5, k6, k7, k8, k9, k10, k11, k12, -⟩ := hk
  have al : ∀ {lv ev ps}, AuthzEndpoint.alog lv r ev ps = AuthzEndpoint.alog lv r' ev ps := front_alog hp
  have et : ∀ {α : Type} {mode uri typ desc state}, (errorTo lib r mode uri typ desc state : AuthM α) =
    errorTo lib r' mode uri typ desc state := front_errorTo hm
  have hlo := front_locale (lib := lib) hm hp k12
  unfold buildRequest judgeFlow pickMode checkModeLevel checkFlow checkDisplay checkMaxAge checkPrompt offlineScope
    checkScope checkNonce checkVerifier
  simp only [k1, k2, k3, k4, k5, k6, k7, k8, k9, k10, k11, al, et, hlo, bind_assoc, pure_bind]
  rfl

theorem unmoved_map {α : Type} {p : Prog α} (h : AllQ (Unmoved m) p) {o : Outcome α} (hr : Runs p t o) : t.map (recast m) = t := by
  have := allQ_runs h hr
  clear hr
  induction t with
  | nil => rfl
  | cons e t ih =>
    rw [List.map_cons, ih fun x hx => this x (List.mem_cons_of_mem _ hx)]
    rw [show recast m e = e from this e List.mem_cons_self e.r]

/-- C113, how far the defect reaches: unless the request is silent and the policy of the client for silent requests asks for a hint,
the hints are of no consequence.  Two requests that differ in their hints only are served alike, but for the hints in what
the login screen and the consent screen are handed. -/
theorem C113_unread (h : SameRecognised unhintedNames [] r r') (hp : r.path = r'.path)
    (hu : r.formValue b!"prompt" ≠ b!"none" ∨ ∀ clnt, FoundClient r clnt t → Hintless clnt)
    (hr : Runs (handleRequest policy lib r) t o) : Runs (handleRequest policy lib r')
      (t.map (recast (rehinted (r'.formValue b!"id_token_hint") (r'.formValue b!"login_hint")))) o := by
  have hk : ∀ n ∈ unhintedNames, r.formValue n = r'.formValue n := fun _ hn => same_form h hn
  have ei : identify r' = identify r := (front_identify hp (hk _ (by decide +kernel)) (hk _ (by decide +kernel))).symm
  have ed : ∀ c q, decideRequest policy lib r' c q = decideRequest policy lib r c q := fun c q =>
    (front_decide h.method hp (hk _ (by decide +kernel)) c q).symm
  rw [handleRequest_after] at hr ⊢
  rw [ei]
  rw [runs_bind] at hr ⊢
  rcases hr with ⟨x, t1, t2, rfl, h1, h2⟩ | ⟨h1, rfl⟩
  · refine .inl ⟨x, t1, _, by rw [List.map_append, unmoved_map unmoved_identify h1], h1, ?_⟩
    cases x with
    | error b =>
      obtain ⟨rfl, rfl⟩ := h2
      exact ⟨rfl, rfl⟩
    | ok c =>
      have hid := (ah_identify r).ok h1
      have hc : r.formValue b!"prompt" ≠ b!"none" ∨ Hintless c :=
        hu.imp id fun hc => hc c (foundClient_mono (identified_found hid).1 fun e he => by simp [he])
      unfold afterClient at h2 ⊢
      dsimp only at h2 ⊢
      rw [rehint_build (policy := policy) (lib := lib) h.method hp hk]
      simp only [bind_assoc, pure_bind, ed]
      have key : ∀ {t o}, Runs (buildRequest policy lib r c >>= decideRequest policy lib r c).run t o →
          Runs (buildRequest policy lib r c >>= fun q => decideRequest policy lib r c
            (rehinted (r'.formValue b!"id_token_hint") (r'.formValue b!"login_hint") q)).run
            (t.map (recast (rehinted (r'.formValue b!"id_token_hint") (r'.formValue b!"login_hint")))) o := by
        intro t o hr
        rw [xrun_bind, runs_bind] at hr ⊢
        rcases hr with ⟨x, t1, t2, rfl, h1, h2⟩ | ⟨h1, rfl⟩
        · refine .inl ⟨x, t1, _, by rw [List.map_append, unmoved_map unmoved_build h1], h1, ?_⟩
          cases x with
          | error b =>
            obtain ⟨rfl, rfl⟩ := h2
            exact ⟨rfl, rfl⟩
          | ok q =>
            obtain ⟨_, f, hb⟩ := ah_buildRequest.ok h1
            have hq : q.prompt ≠ Prompt.pNone ∨ Hintless c := hc.imp (fun h h' => h (hb.prompt.symm.trans h')) id
            rcases simR_runs (recast_decide (policy := policy) (lib := lib) (r := r) hq) h2 with ⟨x, y, rfl, hxy, hr⟩ | ⟨rfl, hr⟩
            · rw [exceptRel_eq] at hxy
              subst hxy
              exact hr
            · exact hr
        · exact .inr ⟨by rw [unmoved_map unmoved_build h1]; exact h1, rfl⟩
      rw [Prog.bind_eq, runs_bind] at h2 ⊢
      rcases h2 with ⟨x, t3, t4, rfl, h3, h4⟩ | ⟨h3, rfl⟩
      · refine .inl ⟨x, _, [], ?_, key h3, ?_⟩
        · cases x <;> (obtain ⟨rfl, rfl⟩ := h4; simp)
        · cases x <;> (obtain ⟨rfl, rfl⟩ := h4; exact ⟨rfl, rfl⟩)
      · exact .inr ⟨key h3, rfl⟩
  · exact .inr ⟨by rw [unmoved_map unmoved_identify h1]; exact h1, rfl⟩

/-- An interactive request with a hint. -/
def hintedGet (h : GoStr) : Req := authGet [(b!"response_type", b!"code"), (b!"scope", b!"openid"), (b!"id_token_hint", h)]

/-- Two interactive requests that differ in their hints; the first is answered. -/
example : SameRecognised unhintedNames [] (hintedGet b!"tok") (hintedGet b!"rubbish") ∧
    (hintedGet b!"tok").formValue b!"prompt" ≠ b!"none" ∧
    returnedTrue (consentedWorld.run (handleRequest .default Sample.lib (hintedGet b!"tok"))) = true :=
  ⟨⟨by decide +kernel, by decide +kernel, by decide +kernel, by decide +kernel, by decide +kernel⟩, by decide +kernel, by decide +kernel⟩

/-- C113 is false: a request whose hint is a token about `client` is answered although the logged-in user is somebody else. -/
theorem C113_false : ¬ ∀ (policy : Policy) (lib : Lib) (r : Req) (pre : List Event) (resp : HttpResp),
    Runs (handleRequest policy lib r) (pre ++ [wrote resp]) (.ok true) →
    HintHonoured lib (r.formValue b!"id_token_hint") pre := by
  intro hall
  obtain ⟨pre, resp, hr, hp⟩ := world_success' (w := { consentedWorld with subjectMatches := some false })
    (p := handleRequest .default Sample.lib (hintedGet b!"tok")) (by decide +kernel) (by decide +kernel)
  have hh : (hintedGet b!"tok").formValue b!"id_token_hint" = b!"tok" := by decide +kernel
  have := hp _ (hall _ _ _ _ _ hr Sample.jwt b!"client" (by rw [hh]; rfl) (by decide +kernel))
  cases this

/-- What remains of C113: a silent request of a client whose policy asks for a matching `id_token_hint` is answered
positively only if the application confirmed that the user is the subject of the hint. -/
theorem C113_silent_partial (h : Runs (handleRequest policy lib r) (pre ++ [wrote resp]) (.ok true))
    (hp : r.formValue b!"prompt" = b!"none")
    (hc : ∀ clnt, FoundClient r clnt pre → clnt.nonePromptPolicy = .allowIfIdTokenHintMatched) :
    HintHonoured lib (r.formValue b!"id_token_hint") pre := by
  obtain ⟨clnt, f, info, scope, h1, _, _, h2, _⟩ := C34_silent h hp
  have h3 := hc clnt h1
  have h4 := h2 (by rw [h3]; simp)
  unfold SilentlyAllowed at h4
  rw [h3] at h4
  obtain ⟨sub, ⟨tk, key, now, hd, _, _, _, _, hs⟩, hm⟩ := h4
  intro tkn sub' hd' hs'
  rw [hd] at hd'
  cases hd'
  rw [hs] at hs'
  cases hs'
  exact hm

/-- Such a client, and a silent request of it that is answered. -/
example : ({ consentedWorld with client := (some { Sample.client with nonePromptPolicy := .allowIfIdTokenHintMatched }, none) } :
      Sample.World).status (handleRequest .default Sample.lib (promptGet b!"none" [(b!"id_token_hint", b!"tok")])) = some 302 ∧
    (promptGet b!"none" [(b!"id_token_hint", b!"tok")]).formValue b!"prompt" = b!"none" := by
  decide +kernel

end Goidc.Props
