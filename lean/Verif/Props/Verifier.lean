import Verif.Spec.Verifier
import Verif.Props.Ignored
import Verif.Props.Insensitive
import Verif.Lemmas.TokenDecision
import Verif.Props.AuthPrompt
import Verif.Props.AuthComplete

/-! # C100: the code verifier stays on the server -/

namespace Goidc.Props

open Spec AuthzEndpoint

variable {lib : Lib} {policy : Policy} {r r' : Req} {u v : GoStr} {t : List Event} {o : Outcome Bool} {α : Type}

/-- The calls that carry no code verifier. -/
def Blank (u v : GoStr) (q : Query) : Prop := ∀ x, rebound u v ⟨q, x⟩ = ⟨q, x⟩

/-- Everything that makes no call with a code verifier. -/
macro "blank" : tactic => `(tactic| (repeat' first
  | exact allQ_xpure | exact allQ_xthrow | exact allQ_pure | exact allQ_panic | trivial
  | exact allQ_ask (fun _ => rfl)
  | (refine allQ_xbind ?_ fun _ => ?_)
  | (refine allQ_xlift ?_)
  | (refine allQ_bind ?_ fun _ => ?_)
  | (refine allQ_bind' ?_ fun _ => ?_)
  | split))

theorem blank_success {mode uri ps} : AllQ (Blank u v) (AuthResponse.success lib r mode uri ps) := by
  unfold AuthResponse.success AuthResponse.redirectTo AuthResponse.render AuthResponse.connector respond
  blank

theorem blank_alog {lv ev ps} : AllQ (Blank u v) (alog lv r ev ps).run :=
  allQ_xlift (allQ_ask fun _ => rfl)

theorem blank_errorTo {mode uri typ desc state} : AllQ (Blank u v) (errorTo lib r mode uri typ desc state : AuthM α).run :=
  allQ_xbind (allQ_xlift blank_success) fun _ => allQ_xthrow

theorem blank_callback {mode uri state m} : AllQ (Blank u v) (AuthzEndpoint.callbackFailed lib r mode uri state m : AuthM α).run :=
  allQ_xbind blank_alog fun _ => blank_errorTo

/-- The same inside `HandleRequest`. -/
macro "blanks" : tactic => `(tactic| ((try dsimp only); repeat' first
    | exact blank_alog | exact blank_errorTo | exact blank_callback
    | exact allQ_xlift (allQ_ask (fun _ => rfl))
    | exact allQ_xpure | exact allQ_xthrow | exact allQ_panic
    | (refine allQ_xbind ?_ fun _ => ?_) | split))

theorem blank_findClient {cid} : AllQ (Blank u v) (findClient r cid).run := by
  unfold findClient showError
  blanks

theorem blank_identify : AllQ (Blank u v) (identify r).run := by
  unfold identify showError
  dsimp only
  split
  · blanks
  split
  · blanks
  refine allQ_xbind blank_findClient fun _ => ?_
  split
  · blanks
  · exact allQ_xpure

/-- The request without its code verifier: authorization_endpoint.go:146-550 without 503-518. -/
def buildBase (policy : Policy) (lib : Lib) (r : Req) (clnt : Client) : AuthM Request := do
  let cid := r.formValue b!"client_id"
  let ruri := r.formValue b!"redirect_uri"
  let state := r.formValue b!"state"
  let f ← judgeFlow lib r ruri (r.formValue b!"response_mode") state
  let rmode0 ← pickMode policy lib r f ruri (r.formValue b!"response_mode") state
  let rmode ← checkModeLevel policy lib r f ruri rmode0 state
  checkFlow lib r clnt f rmode ruri state
  let display ← checkDisplay lib r rmode ruri state
  let ma ← checkMaxAge policy lib r rmode ruri state
  let prmpt ← checkPrompt lib r rmode ruri state
  let scp ← offlineScope policy lib r f prmpt rmode ruri state
  checkScope policy lib r clnt f cid scp rmode ruri state
  let n ← checkNonce policy lib r f scp rmode ruri state
  let locale ← chooseLocale lib r rmode ruri state
  pure { flow := some f, clientId := cid, redirectURI := ruri, scope := scp,
         responseMode := rmode, state := state, nonce := n, display := display, prompt := prmpt,
         maxAge := ma, uiLocale := locale, codeVerifier := [],
         idTokenHint := r.formValue b!"id_token_hint", loginHint := r.formValue b!"login_hint" }

theorem build_base {clnt : Client} (h : VerifierAllowed policy (r.formValue b!"code_verifier")) :
    buildRequest policy lib r clnt = buildBase policy lib r clnt >>= fun req =>
      pure { req with codeVerifier := r.formValue b!"code_verifier" } := by
  have hc : ∀ mode ruri state, checkVerifier policy lib r mode ruri state = pure (r.formValue b!"code_verifier") := by
    intro mode ruri state
    unfold checkVerifier
    rw [if_neg]
    rintro ⟨h1, h2⟩
    rcases h with h | h
    · exact h1 h
    · omega
  unfold buildRequest buildBase
  simp only [hc, bind_assoc, pure_bind]

theorem front_base {clnt : Client} (hm : r.method = r'.method) (hp : r.path = r'.path)
    (hk : ∀ n ∈ otherParamNames, r.formValue n = r'.formValue n) :
    buildBase policy lib r clnt = buildBase policy lib r' clnt := by
  have e : otherParamNames = [b!"client_id", b!"redirect_uri", b!"response_type", b!"response_mode", b!"state", b!"display",
   b!"max_age", b!"prompt", b!"scope", b!"nonce", b!"ui_locales", b!"id_token_hint", b!"login_hint"] := by decide +kernel
  rw [e] at hk
  simp only [List.forall_mem_cons] at hk
  obtain ⟨k1, k2, k3, k4, k5, k6, k7, k8, k9, k10, k12, k13, k14, -⟩ := hk
  have al : ∀ {lv ev ps}, AuthzEndpoint.alog lv r ev ps = AuthzEndpoint.alog lv r' ev ps := front_alog hp
  have et : ∀ {α : Type} {mode uri typ desc state}, (errorTo lib r mode uri typ desc state : AuthM α) =
    errorTo lib r' mode uri typ desc state := front_errorTo hm
  have hlo := front_locale (lib := lib) hm hp k12
  unfold buildBase judgeFlow pickMode checkModeLevel checkFlow checkDisplay checkMaxAge checkPrompt offlineScope
    checkScope checkNonce
  simp only [k1, k2, k3, k4, k5, k6, k7, k8, k9, k10, k13, k14, al, et, hlo]

theorem blank_judgeFlow {ruri rmode state} : AllQ (Blank u v) (judgeFlow lib r ruri rmode state).run := by
  unfold judgeFlow
  blanks

theorem blank_pickMode {f ruri rmode state} : AllQ (Blank u v) (pickMode policy lib r f ruri rmode state).run := by
  unfold pickMode
  blanks

theorem blank_checkModeLevel {f ruri rmode state} : AllQ (Blank u v) (checkModeLevel policy lib r f ruri rmode state).run := by
  unfold checkModeLevel
  blanks

theorem blank_checkFlow {c f mode ruri state} : AllQ (Blank u v) (checkFlow lib r c f mode ruri state).run := by
  unfold checkFlow
  blanks

theorem blank_checkDisplay {mode ruri state} : AllQ (Blank u v) (checkDisplay lib r mode ruri state).run := by
  unfold checkDisplay
  blanks

theorem blank_checkMaxAge {mode ruri state} : AllQ (Blank u v) (checkMaxAge policy lib r mode ruri state).run := by
  unfold checkMaxAge
  blanks

theorem blank_checkPrompt {mode ruri state} : AllQ (Blank u v) (checkPrompt lib r mode ruri state).run := by
  unfold checkPrompt
  blanks

theorem blank_offlineScope {f p mode ruri state} : AllQ (Blank u v) (offlineScope policy lib r f p mode ruri state).run := by
  unfold offlineScope
  blanks

theorem blank_checkScope {c f cid scp mode ruri state} : AllQ (Blank u v) (checkScope policy lib r c f cid scp mode ruri state).run := by
  unfold checkScope
  blanks

theorem blank_checkNonce {f scp mode ruri state} : AllQ (Blank u v) (checkNonce policy lib r f scp mode ruri state).run := by
  unfold checkNonce
  blanks

theorem blank_chooseLocale {mode ruri state} : AllQ (Blank u v) (chooseLocale lib r mode ruri state).run := by
  unfold chooseLocale
  blanks

theorem blank_base {clnt : Client} : AllQ (Blank u v) (buildBase policy lib r clnt).run := by
  unfold buildBase
  refine allQ_xbind blank_judgeFlow fun _ => allQ_xbind blank_pickMode fun _ => allQ_xbind blank_checkModeLevel fun _ => allQ_xbind blank_checkFlow fun _ => allQ_xbind blank_checkDisplay fun _ => allQ_xbind blank_checkMaxAge fun _ => allQ_xbind blank_checkPrompt fun _ => allQ_xbind blank_offlineScope fun _ => allQ_xbind blank_checkScope fun _ => allQ_xbind blank_checkNonce fun _ => allQ_xbind blank_chooseLocale fun _ =>  allQ_xpure

theorem rebound_self {req : Request} (h : req.codeVerifier = u) : Request.rebound u v req = { req with codeVerifier := v } := by
  unfold Request.rebound inPlace
  rw [if_pos h]

/-! ## The response -/

theorem blank_completeFail {rh req} : AllQ (Blank u v) (completeFail lib r rh req) :=
  allQ_bind' blank_success fun _ => allQ_pure

theorem blank_completeCallbackFail {rh req m} : AllQ (Blank u v) (completeCallbackFail lib r rh req m) :=
  allQ_bind' (allQ_ask fun _ => rfl) fun _ => blank_completeFail

theorem blank_frontToken {info f key} : AllQ (Blank u v) (frontToken info f key) := by
  unfold frontToken
  blank

theorem blank_frontIdToken {clnt info f req authTime atk code} :
    AllQ (Blank u v) (frontIdToken policy lib clnt info f req authTime atk code) := by
  unfold frontIdToken
  repeat' first
    | exact allQ_pure | exact allQ_panic | exact allQ_ask (fun _ => rfl)
    | (refine allQ_bind' ?_ fun _ => ?_) | split | dsimp only

theorem rebound_idToken {clnt info f} {req : Request} {authTime atk code} :
    frontIdToken policy lib clnt info f (Request.rebound u v req) authTime atk code =
      frontIdToken policy lib clnt info f req authTime atk code := by
  unfold frontIdToken
  rfl

theorem rebound_fail {rh} {req : Request} : completeFail lib r rh (Request.rebound u v req) = completeFail lib r rh req := rfl

theorem rebound_callbackFail {rh m} {req : Request} :
    completeCallbackFail lib r rh (Request.rebound u v req) m = completeCallbackFail lib r rh req m := rfl

theorem simR_complete {rh info} {req : Request} :
    SimR (rebound u v) Eq (complete policy lib r rh info req) (complete policy lib r rh info (Request.rebound u v req)) := by
  unfold complete
  rw [show (Request.rebound u v req).flow = req.flow from rfl]
  cases req.flow with
  | none => rfl
  | some f =>
    dsimp only
    cases f.type with
    | directGrant => exact ⟨_, rfl, rfl⟩
    | implicit =>
      show SimR _ _ (completeImplicit policy lib r rh info req f) (completeImplicit policy lib r rh info (Request.rebound u v req) f)
      unfold completeImplicit
      refine simR_same (p := ask (.findClientById req.clientId)) (allQ_ask fun _ => rfl) fun c => ?_
      obtain ⟨c, e⟩ := c
      cases e with
      | some e => exact simR_refl (p := completeFail lib r rh req) blank_completeFail
      | none =>
        refine simR_same blank_frontToken fun tk => ?_
        cases tk with
        | none => exact simR_refl (p := completeFail lib r rh req) blank_completeFail
        | some tk =>
          refine simR_same (allQ_ask fun _ => rfl) fun time => ?_
          cases time with
          | none => exact simR_refl (p := completeCallbackFail lib r rh req _) blank_completeCallbackFail
          | some time =>
            refine simR_same (p := frontIdToken policy lib c info f req time tk.1 none) blank_frontIdToken fun idt => ?_
            cases idt with
            | none => exact simR_refl (p := completeFail lib r rh req) blank_completeFail
            | some idt => exact simR_refl (p := (AuthResponse.success lib r rh req.redirectURI _ >>= fun _ => pure true))
                            (allQ_bind' blank_success fun _ => allQ_pure)
    | authorizationCode =>
      show SimR _ _ (completeCode policy lib r rh info req) (completeCode policy lib r rh info (Request.rebound u v req))
      unfold completeCode
      refine simR_same (allQ_ask fun _ => rfl) fun code => ?_
      cases code with
      | none => exact simR_refl (p := completeCallbackFail lib r rh req _) blank_completeCallbackFail
      | some code =>
        refine simR_same (allQ_ask fun _ => rfl) fun time => ?_
        cases time with
        | none => exact simR_refl (p := completeCallbackFail lib r rh req _) blank_completeCallbackFail
        | some time =>
          refine simR_bind (R := Eq) (fun x => ⟨.createAuthSession info ((Request.rebound u v req).toSession code policy.authSessionExpiresIn time), _, x, rfl,
            rfl, x, rfl, rfl⟩) fun a b hab => ?_
          subst hab
          cases a with
          | some e => exact simR_refl (p := completeFail lib r rh req) blank_completeFail
          | none => exact simR_refl (p := (AuthResponse.success lib r rh req.redirectURI _ >>= fun _ => pure true))
                      (allQ_bind' blank_success fun _ => allQ_pure)
    | hybrid =>
      show SimR _ _ (completeHybrid policy lib r rh info req f) (completeHybrid policy lib r rh info (Request.rebound u v req) f)
      unfold completeHybrid
      refine simR_same (allQ_ask fun _ => rfl) fun code => ?_
      cases code with
      | none => exact simR_refl (p := completeCallbackFail lib r rh req _) blank_completeCallbackFail
      | some code =>
        refine simR_same (allQ_ask fun _ => rfl) fun time => ?_
        cases time with
        | none => exact simR_refl (p := completeCallbackFail lib r rh req _) blank_completeCallbackFail
        | some time =>
          refine simR_bind (R := Eq) (fun x => ⟨.createAuthSession info ((Request.rebound u v req).toSession code policy.authSessionExpiresIn time), _, x, rfl,
            rfl, x, rfl, rfl⟩) fun a b hab => ?_
          subst hab
          cases a with
          | some e => exact simR_refl (p := completeFail lib r rh req) blank_completeFail
          | none =>
            refine simR_same (p := ask (.findClientById req.clientId)) (allQ_ask fun _ => rfl) fun c => ?_
            obtain ⟨c, e⟩ := c
            cases e with
            | some e => exact simR_refl (p := completeFail lib r rh req) blank_completeFail
            | none =>
              refine simR_same blank_frontToken fun tk => ?_
              cases tk with
              | none => exact simR_refl (p := completeFail lib r rh req) blank_completeFail
              | some tk =>
                refine simR_same (p := frontIdToken policy lib c info f req time tk.1 (some code)) blank_frontIdToken
                  fun idt => ?_
                cases idt with
                | none => exact simR_refl (p := completeFail lib r rh req) blank_completeFail
                | some idt => exact simR_refl (p := (AuthResponse.success lib r rh req.redirectURI _ >>= fun _ => pure true))
                                (allQ_bind' blank_success fun _ => allQ_pure)

/-! ## The decision -/

theorem simR_finish {info : AuthInfo} {req : Request} : SimR (rebound u v) (ExceptRel (β := α) Eq)
    (finish policy lib r info req : AuthM α).run (finish policy lib r info (Request.rebound u v req) : AuthM α).run := by
  unfold finish
  refine simR_xbind (R := Eq) ?_ fun a b hab => ?_
  · rw [xrun_lift, xrun_lift]
    refine simR_bind (simR_complete (policy := policy) (lib := lib) (r := r)) fun a b hab => ⟨_, rfl, hab⟩
  · subst hab
    exact ⟨_, rfl, rfl⟩

theorem blank_covers {info : AuthInfo} {req : Request} : AllQ (Blank u v) (consentCovers policy info req).run := by
  unfold consentCovers
  blanks

variable {req : Request}

theorem simR_noneComplete : SimR (rebound u v) (ExceptRel (β := α) Eq)
    (noneComplete policy lib r req : AuthM α).run (noneComplete policy lib r (Request.rebound u v req) : AuthM α).run := by
  unfold noneComplete
  refine simR_xsame (allQ_xlift (allQ_ask fun _ => rfl)) fun uid => ?_
  cases uid with
  | none => exact simR_xrefl (p := AuthzEndpoint.callbackFailed lib r req.responseMode req.redirectURI req.state _) blank_callback
  | some uid =>
    have he : ∀ {typ desc}, SimR (rebound u v) (ExceptRel (β := α) Eq)
        (errorTo lib r req.responseMode req.redirectURI typ desc req.state : AuthM α).run
        (errorTo lib r req.responseMode req.redirectURI typ desc req.state : AuthM α).run := simR_xrefl blank_errorTo
    refine simR_xsame (p := aask (.findAuthInfoByUserIdAndClientId uid req.clientId)) (allQ_xlift (allQ_ask fun _ => rfl)) fun i => ?_
    obtain ⟨i, e⟩ := i
    cases e with
    | some e => cases e <;> exact he
    | none =>
      cases i with
      | none => exact he
      | some info =>
        refine simR_xsame (p := consentCovers policy info req) blank_covers fun ok => ?_
        cases ok
        · exact he
        · exact simR_finish

theorem blank_requireLogin : AllQ (Blank u v) (requireLogin lib r req).run := by
  unfold requireLogin aask
  blanks

theorem blank_requireMatch {sub desc} : AllQ (Blank u v) (requireMatch lib r req sub desc).run := by
  unfold requireMatch aask
  blanks

theorem blank_hint {clnt} : AllQ (Blank u v) (checkIdTokenHint lib r clnt req).run := by
  unfold checkIdTokenHint
  blanks
  exact allQ_xlift (allQ_parse (fun _ => rfl) fun _ => allQ_pure)

/-- A screen that is handed the request. -/
theorem simR_login : SimR (rebound u v) (ExceptRel (ε := Bool) Eq) (aask (.showLoginScreen req)).run
    (aask (.showLoginScreen (Request.rebound u v req))).run :=
  fun x => ⟨.showLoginScreen (Request.rebound u v req), _, x, rfl, rfl, _, rfl, rfl⟩

theorem simR_consentScreen {clnt : Client} : SimR (rebound u v) (ExceptRel (ε := Bool) Eq)
    (aask (.showConsentScreen clnt req)).run (aask (.showConsentScreen clnt (Request.rebound u v req))).run :=
  fun x => ⟨.showConsentScreen clnt (Request.rebound u v req), _, x, rfl, rfl, _, rfl, rfl⟩

theorem simR_callback {m} : SimR (rebound u v) (ExceptRel (β := α) Eq)
    (AuthzEndpoint.callbackFailed lib r req.responseMode req.redirectURI req.state m : AuthM α).run
    (AuthzEndpoint.callbackFailed lib r req.responseMode req.redirectURI req.state m : AuthM α).run := simR_xrefl blank_callback

theorem simR_error {typ desc} : SimR (rebound u v) (ExceptRel (β := α) Eq)
    (errorTo lib r req.responseMode req.redirectURI typ desc req.state : AuthM α).run
    (errorTo lib r req.responseMode req.redirectURI typ desc req.state : AuthM α).run := simR_xrefl blank_errorTo

theorem simR_promptNone {clnt : Client} : SimR (rebound u v) (ExceptRel Eq)
    (promptNone policy lib r clnt req).run (promptNone policy lib r clnt (Request.rebound u v req)).run := by
  unfold promptNone
  cases clnt.nonePromptPolicy with
  | forbidden => exact simR_xsame blank_alog fun _ => simR_error
  | allowWithLoginSession =>
    exact simR_xsame (p := requireLogin lib r req) blank_requireLogin fun _ => simR_noneComplete
  | allowIfLoginHintMatched =>
    dsimp only
    by_cases h : req.loginHint = []
    · rw [if_pos h, if_pos (show (Request.rebound u v req).loginHint = [] from h)]
      exact simR_error
    · rw [if_neg h, if_neg (show ¬ (Request.rebound u v req).loginHint = [] from h)]
      exact simR_xsame (p := requireLogin lib r req) blank_requireLogin fun _ =>
        simR_xsame (p := requireMatch lib r req req.loginHint _) blank_requireMatch fun _ => simR_noneComplete
  | allowIfIdTokenHintMatched =>
    exact simR_xsame (p := checkIdTokenHint lib r clnt req) blank_hint fun _ =>
        simR_xsame (p := requireMatch lib r req _ _) blank_requireMatch fun _ => simR_noneComplete
  | other => exact ⟨_, rfl, rfl⟩

theorem simR_confirmLogin : SimR (rebound u v) (ExceptRel Eq)
    (confirmLogin lib r req).run (confirmLogin lib r (Request.rebound u v req)).run := by
  unfold confirmLogin
  refine simR_xsame (allQ_xlift (allQ_ask fun _ => rfl)) fun a => ?_
  cases a with
  | none => exact simR_callback
  | some a =>
    cases a with
    | true => exact ⟨_, rfl, rfl⟩
    | false =>
      refine simR_xsame blank_alog fun _ => simR_xbind simR_login fun a b hab => ?_
      have hab : a = b := hab
      subst hab
      cases a with
      | false => exact simR_callback
      | true => exact ⟨_, rfl, rfl⟩

theorem simR_promptLogin : SimR (rebound u v) (ExceptRel Eq)
    (promptLogin lib r req).run (promptLogin lib r (Request.rebound u v req)).run := by
  unfold promptLogin
  rw [show (Request.rebound u v req).prompt = req.prompt from rfl]
  split
  · refine simR_xsame (allQ_xlift (allQ_ask fun _ => rfl)) fun a => ?_
    cases a with
    | none => exact simR_callback
    | some a =>
      cases a with
      | true => exact ⟨_, rfl, rfl⟩
      | false => exact simR_xsame blank_alog fun _ => simR_xbind simR_login fun a b hab => ⟨_, rfl, rfl⟩
  · exact ⟨_, rfl, rfl⟩

theorem simR_authAge : SimR (rebound u v) (ExceptRel Eq)
    (checkAuthAge lib r req).run (checkAuthAge lib r (Request.rebound u v req)).run := by
  unfold checkAuthAge
  refine simR_xsame (allQ_xlift (allQ_ask fun _ => rfl)) fun a => ?_
  cases a with
  | none => exact simR_callback
  | some a =>
    dsimp only
    rw [show (Request.rebound u v req).maxAge = req.maxAge from rfl]
    split
    · refine simR_xsame (allQ_xlift (allQ_ask fun _ => rfl)) fun now => ?_
      split
      · exact simR_xsame blank_alog fun _ => simR_xbind simR_login fun a b hab => ⟨_, rfl, rfl⟩
      · exact ⟨_, rfl, rfl⟩
    · exact ⟨_, rfl, rfl⟩

theorem simR_omitConsent {clnt : Client} : SimR (rebound u v) (ExceptRel Eq)
    (omitConsent policy lib r clnt req).run (omitConsent policy lib r clnt (Request.rebound u v req)).run := by
  unfold omitConsent
  rw [show (Request.rebound u v req).prompt = req.prompt from rfl]
  split
  · exact ⟨_, rfl, rfl⟩
  · cases clnt.noConsentPromptPolicy with
    | forceConsent => exact ⟨_, rfl, rfl⟩
    | other => exact ⟨_, rfl, rfl⟩
    | omitConsentIfCan =>
      refine simR_xsame (allQ_xlift (allQ_ask fun _ => rfl)) fun uid => ?_
      cases uid with
      | none => exact simR_callback
      | some uid =>
        refine simR_xsame (p := aask (.findAuthInfoByUserIdAndClientId uid req.clientId)) (allQ_xlift (allQ_ask fun _ => rfl))
          fun i => ?_
        obtain ⟨i, e⟩ := i
        cases e with
        | some e =>
          cases e
          case failed => exact ⟨_, rfl, rfl⟩
          case other => exact ⟨_, rfl, rfl⟩
          all_goals exact simR_error
        | none =>
          cases i with
          | none => exact simR_error
          | some info =>
            refine simR_xsame (p := consentCovers policy info req) blank_covers fun ok => ?_
            cases ok
            · exact ⟨_, rfl, rfl⟩
            · exact simR_finish

theorem simR_showConsent {clnt : Client} : SimR (rebound u v) (ExceptRel Eq)
    (showConsent lib r clnt req).run (showConsent lib r clnt (Request.rebound u v req)).run := by
  unfold showConsent
  refine simR_xbind simR_consentScreen fun a b hab => ?_
  have hab : a = b := hab
  subst hab
  cases a with
  | false => exact simR_callback
  | true => exact ⟨_, rfl, rfl⟩

theorem simR_decide {clnt : Client} : SimR (rebound u v) (ExceptRel Eq)
    (decideRequest policy lib r clnt req).run (decideRequest policy lib r clnt (Request.rebound u v req)).run := by
  unfold decideRequest
  have rest : SimR (rebound u v) (ExceptRel Eq)
      (promptLogin lib r req >>= fun _ => checkAuthAge lib r req >>= fun _ => omitConsent policy lib r clnt req >>= fun _ =>
        showConsent lib r clnt req).run
      (promptLogin lib r (Request.rebound u v req) >>= fun _ => checkAuthAge lib r (Request.rebound u v req) >>= fun _ =>
        omitConsent policy lib r clnt (Request.rebound u v req) >>= fun _ => showConsent lib r clnt (Request.rebound u v req)).run :=
    simR_xbind (R := Eq) simR_promptLogin fun _ _ _ =>
      simR_xbind (R := Eq) simR_authAge fun _ _ _ => simR_xbind (R := Eq) simR_omitConsent fun _ _ _ => simR_showConsent
  rw [show (Request.rebound u v req).prompt = req.prompt from rfl]
  dsimp only
  split
  · exact simR_xbind (R := Eq) simR_promptNone fun _ _ _ => rest
  · exact simR_xbind (R := Eq) simR_confirmLogin fun _ _ _ => rest

/-- C100, `HandleRequest`: two authorization requests that differ in their code verifiers only (both of a
length the policy allows) are served alike.  Whatever can happen on the one can happen on the other, with
the other verifier in place of the first in what is handed to the login screen, to the consent screen and to
the session store; the log lines, the response to the browser and the return value are the same. -/
theorem C100_authorization (h : SameRecognised otherParamNames [] r r') (hp : r.path = r'.path)
    (ha : VerifierAllowed policy (r.formValue b!"code_verifier")) (ha' : VerifierAllowed policy (r'.formValue b!"code_verifier"))
    (hr : Runs (handleRequest policy lib r) t o) : Runs (handleRequest policy lib r')
      (t.map (rebound (r.formValue b!"code_verifier") (r'.formValue b!"code_verifier"))) o := by
  have hk : ∀ n ∈ otherParamNames, r.formValue n = r'.formValue n := fun _ hn => same_form h hn
  refine simR_runs_eq ?_ hr
  have ei : identify r' = identify r := (front_identify hp (hk _ (by decide +kernel)) (hk _ (by decide +kernel))).symm
  have eb : ∀ c, buildBase policy lib r' c = buildBase policy lib r c := fun c => (front_base h.method hp hk).symm
  have ed : ∀ c q, decideRequest policy lib r' c q = decideRequest policy lib r c q := fun c q =>
    (front_decide h.method hp (hk _ (by decide +kernel)) c q).symm
  have key : SimR (rebound (r.formValue b!"code_verifier") (r'.formValue b!"code_verifier")) (ExceptRel Eq)
      (handleRequestM policy lib r).run (handleRequestM policy lib r').run := by
    have e1 : ∀ r, handleRequestM policy lib r = (identify r >>= fun clnt =>
        buildRequest policy lib r clnt >>= fun req => decideRequest policy lib r clnt req) := fun _ => rfl
    rw [e1, e1, ei]
    refine simR_xsame blank_identify fun c => ?_
    rw [build_base ha, build_base ha', eb]
    simp only [bind_assoc, pure_bind, ed]
    refine simR_xsame blank_base fun req => ?_
    have e2 : Request.rebound (r.formValue b!"code_verifier") (r'.formValue b!"code_verifier")
        { req with codeVerifier := r.formValue b!"code_verifier" } = { req with codeVerifier := r'.formValue b!"code_verifier" } :=
      rebound_self rfl
    rw [← e2]
    exact simR_decide
  unfold handleRequest
  refine simR_bind key fun a b hab => ?_
  rw [exceptRel_eq] at hab
  subst hab
  cases a <;> exact ⟨_, rfl, rfl⟩

/-- A request with a code verifier. -/
def verifierGet (v : GoStr) : Req := authGet [(b!"response_type", b!"code"), (b!"scope", b!"openid"), (b!"code_verifier", v)]

/-- Two requests that differ in the verifier; served, each of them: the consent screen is shown with the verifier,
and, when the user has consented before, the code is stored with it and the browser is sent back. -/
example : SameRecognised otherParamNames [] (verifierGet b!"first") (verifierGet b!"second") ∧
    (verifierGet b!"first").formValue b!"code_verifier" = b!"first" ∧
    (verifierGet b!"second").formValue b!"code_verifier" = b!"second" ∧
    VerifierAllowed .default b!"first" ∧ VerifierAllowed .default b!"second" ∧
    consentedWorld.status
      (handleRequest .default Sample.lib (verifierGet b!"first")) = some 302 ∧
    (({} : Sample.World).run (handleRequest .default Sample.lib (verifierGet b!"first"))).1.any (fun e =>
      match e with | ⟨.showConsentScreen _ q, _⟩ => q.codeVerifier = b!"first" | _ => false) :=
  ⟨⟨by decide +kernel, by decide +kernel, by decide +kernel, by decide +kernel, by decide +kernel⟩, by decide +kernel, by decide +kernel,
    .inr (by decide +kernel), .inr (by decide +kernel), by decide +kernel, by decide +kernel⟩

/-- C100, `CompleteRequest` and `CancelRequest`: the same when the request handed back by `Continue` has
another code verifier. -/
theorem C100_decision (u v : GoStr) :
    (Runs (completeRequest policy lib r) t o → Runs (completeRequest policy lib r) (t.map (rebound u v)) o) ∧
    (Runs (cancelRequest lib r) t o → Runs (cancelRequest lib r) (t.map (rebound u v)) o) := by
  have hc : SimR (rebound u v) (fun a b => (∃ q, a = some (some q) ∧ b = some (some (Request.rebound u v q))) ∨
      a = some none ∧ b = some none ∨ a = none ∧ b = none) (ask .continue_) (ask .continue_) := by
    intro x
    match x with
    | none => exact ⟨.continue_, _, none, rfl, rfl, none, rfl, .inr (.inr ⟨rfl, rfl⟩)⟩
    | some none => exact ⟨.continue_, _, some none, rfl, rfl, some none, rfl, .inr (.inl ⟨rfl, rfl⟩)⟩
    | some (some q) =>
      exact ⟨.continue_, _, some (some (Request.rebound u v q)), rfl, rfl, some (some (Request.rebound u v q)), rfl, .inl ⟨q, rfl, rfl⟩⟩
  constructor
  · refine simR_runs_eq ?_
    unfold completeRequest
    refine simR_bind hc fun a b hab => ?_
    rcases hab with ⟨q, rfl, rfl⟩ | ⟨rfl, rfl⟩ | ⟨rfl, rfl⟩
    · refine simR_same (allQ_ask fun _ => rfl) fun uid => ?_
      cases uid with
      | none => exact simR_refl (p := completeCallbackFail lib r q.responseMode q _) blank_completeCallbackFail
      | some uid =>
        refine simR_same (p := ask (.createOrUpdateAuthInfo uid q.clientId q.scope)) (allQ_ask fun _ => rfl) fun i => ?_
        obtain ⟨i, e⟩ := i
        cases e with
        | some e => exact simR_refl (p := completeFail lib r q.responseMode q) blank_completeFail
        | none => exact simR_complete
    · rfl
    · exact simR_refl (allQ_bind' (allQ_ask fun _ => rfl) fun _ => allQ_pure)
  · refine simR_runs_eq ?_
    unfold cancelRequest
    refine simR_bind hc fun a b hab => ?_
    rcases hab with ⟨q, rfl, rfl⟩ | ⟨rfl, rfl⟩ | ⟨rfl, rfl⟩
    · exact simR_refl (p := (AuthResponse.error lib r q.responseMode q.redirectURI _ _ q.state >>= fun _ => pure true))
        (allQ_bind' blank_success fun _ => allQ_pure)
    · rfl
    · exact simR_refl (allQ_bind' (allQ_ask fun _ => rfl) fun _ => allQ_pure)

/-- A completed request with a verifier, stored with the session. -/
example : (({ continued := some (some (continuedReq ⟨.authorizationCode, true, false⟩ [])) } : Sample.World).run (completeRequest .default Sample.lib (authGet []))).1.any
    (fun e => match e with | ⟨.createAuthSession _ s, _⟩ => s.codeVerifier = b!"v" | _ => false) := by
  decide +kernel

/-! ## The token endpoint -/

theorem pkce_rebound (hu : u ≠ []) (hv : v ≠ []) (hf : ChallengeFits lib r u ↔ ChallengeFits lib r v) (c : Client)
    (s : AuthSession) : Grant.checkPkce lib r c { s with codeVerifier := inPlace u v s.codeVerifier } =
      Grant.checkPkce lib r c s := by
  by_cases hs : s.codeVerifier = u
  · unfold Grant.checkPkce inPlace
    dsimp only
    rw [if_pos hs, hs, if_neg hu, if_neg hv]
    unfold Grant.needParam
    dsimp only
    by_cases h1 : r.formValue b!"code_challenge_method" = []
    · rw [if_pos h1]; rfl
    rw [if_neg h1]
    simp only [pure_bind]
    by_cases h2 : r.formValue b!"code_challenge" = []
    · rw [if_pos h2]; rfl
    rw [if_neg h2]
    simp only [pure_bind]
    cases hm : Pkce.findVerifierByMethod (r.formValue b!"code_challenge_method") with
    | none => rfl
    | some m =>
      dsimp only
      have : m.verify lib (r.formValue b!"code_challenge") v = m.verify lib (r.formValue b!"code_challenge") u := by
        rw [Bool.eq_iff_iff, verify_fits hm, verify_fits hm, hf]
      rw [this]
  · unfold inPlace
    rw [if_neg hs]

/-- C100, the token endpoint: of the code verifier a code was requested with, an exchange of the code tells whether
the presented challenge fits it, and nothing else.  Two verifiers that both fit, or both do not fit, are
served alike: the same outcome, response, log lines and calls, but for the verifier in the session. -/
theorem C100_token {cfg : TokenCfg} {o : Outcome Unit} (hu : u ≠ []) (hv : v ≠ [])
    (hf : ChallengeFits lib r u ↔ ChallengeFits lib r v) (hb : AllBuiltIn lib cfg)
    (h : Runs (TokenEndpoint.handler cfg lib r) t o) : Runs (TokenEndpoint.handler cfg lib r) (t.map (rebound u v)) o := by
  refine resession_runs (m := fun s => { s with codeVerifier := inPlace u v s.codeVerifier })
    ⟨fun _ _ _ => rfl, fun _ _ => rfl, fun _ _ => rfl, fun q h1 h2 h3 h4 h5 h6 x => ?_,
      fun _ => rfl, fun _ => rfl, fun _ => rfl, fun _ => rfl, fun _ => rfl⟩ (pkce_rebound hu hv hf) hb h
  cases q <;> first
    | rfl | exact absurd rfl (h1 _) | exact absurd rfl (h2 _) | exact absurd rfl (h3 _) | exact absurd rfl (h4 _ _)
    | exact absurd rfl h5 | exact absurd rfl (h6 _ _)

/-- Two verifiers that do not fit the challenge of the sample request, and one that does; of the code requested
with the latter an exchange succeeds. -/
example : (ChallengeFits Sample.lib (Sample.post Sample.codeBody) b!"guess" ↔
      ChallengeFits Sample.lib (Sample.post Sample.codeBody) b!"other guess") ∧
    ChallengeFits Sample.lib (Sample.post Sample.codeBody) b!"verifier" ∧
    ({} : Sample.World).status (TokenEndpoint.handler Sample.tokenCfg Sample.lib (Sample.post Sample.codeBody)) = some 200 ∧
    ({ session := (some { Sample.session with codeVerifier := b!"guess" }, none) } : Sample.World).status
      (TokenEndpoint.handler Sample.tokenCfg Sample.lib (Sample.post Sample.codeBody)) = some 400 := by
  refine ⟨?_, .inl (by decide +kernel), by decide +kernel, by decide +kernel⟩
  have hm : (Sample.post Sample.codeBody).formValue b!"code_challenge_method" = b!"plain" := by decide +kernel
  have hc : (Sample.post Sample.codeBody).formValue b!"code_challenge" = b!"verifier" := by decide +kernel
  unfold ChallengeFits
  rw [hm, hc]
  have h1 : b!"verifier" ≠ b!"guess" := by decide +kernel
  have h2 : b!"verifier" ≠ b!"other guess" := by decide +kernel
  have h3 : b!"plain" ≠ b!"S256" := by decide +kernel
  simp [h1, h2, h3]

/-- The condition is needed: two verifiers of which one fits are told apart (that is what they are for). -/
example : ∃ u v, u ≠ [] ∧ v ≠ [] ∧ ∃ t o, Runs (TokenEndpoint.handler Sample.tokenCfg Sample.lib (Sample.post Sample.codeBody)) t o ∧
    t.any (fun e => match e with | ⟨.findAuthSessionByCode _, (some s, _)⟩ => s.codeVerifier = u | _ => false) ∧
    ({} : Sample.World).status (TokenEndpoint.handler Sample.tokenCfg Sample.lib (Sample.post Sample.codeBody)) ≠
      ({ session := (some { Sample.session with codeVerifier := v }, none) } : Sample.World).status
        (TokenEndpoint.handler Sample.tokenCfg Sample.lib (Sample.post Sample.codeBody)) :=
  ⟨b!"verifier", b!"guess", by decide +kernel, by decide +kernel, _, _, Sample.World.runs {} _, by decide +kernel, by decide +kernel⟩

end Goidc.Props
