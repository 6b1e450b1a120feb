import Verif.Lemmas.AuditFront

/-! # Every call of the authorization endpoint -/

namespace Goidc

open Spec AuthzEndpoint

variable {α β : Type} {P : Query → Prop} {lib : Lib} {r : Req} {policy : Policy} {clnt : Client} {req : Request} {uri : GoStr}

/-- Log lines, responses and the iteration over their parameters. -/
def Query.isOutput : Query → Bool
  | .log _ | .write _ | .mapRange _ => true
  | _ => false

/-- Calls that give or receive tokens and new codes. -/
def Query.issues : Query → Bool
  | .createOAuthToken _ _ | .refreshAccessToken _ _ | .findOAuthTokenByRefreshToken _ | .findOAuthTokenByAccessToken _
  | .createAuthorizationCode | .createAuthSession _ _ => true
  | _ => false

/-- What makes `P` hold of every call made for a request with redirect URI `uri`: it holds of log lines
filed under the path, of responses sent to `uri`, and of all other calls but those that issue something. -/
structure FrontQ (P : Query → Prop) (lib : Lib) (r : Req) (uri : GoStr) : Prop where
  log : ∀ lv ev ps, P (.log ⟨lv, b!"authorization_endpoint", r.path, ev, ps⟩)
  send : ∀ mode ps, AllQ P (AuthResponse.success lib r mode uri ps)
  other : ∀ q : Query, q.isOutput = false → q.issues = false → P q

namespace FrontQ

variable (h : FrontQ P lib r uri)
include h

theorem aask {q : Query} (hq : q.isOutput = false) (hi : q.issues = false) : AllQ P (AuthzEndpoint.aask q).run :=
  allQ_xlift (allQ_ask (h.other q hq hi))
theorem ask {q : Query} (hq : q.isOutput = false) (hi : q.issues = false) : AllQ P (Goidc.ask q) := allQ_ask (h.other q hq hi)
theorem plog {lv ev ps} : AllQ P (plog lv r ev ps) := allQ_ask (h.log lv ev ps)
theorem alog {lv ev ps} : AllQ P (alog lv r ev ps).run := allQ_xlift h.plog
theorem showError {n} : AllQ P (showError n : AuthM α).run := allQ_xbind (h.aask rfl rfl) fun _ => trivial
theorem errorTo {mode typ desc state} : AllQ P (errorTo lib r mode uri typ desc state : AuthM α).run :=
  allQ_xbind (allQ_xlift (h.send _ _)) fun _ => trivial
theorem callbackFailed {mode state m} : AllQ P (callbackFailed lib r mode uri state m : AuthM α).run :=
  allQ_xbind h.alog fun _ => h.errorTo

end FrontQ

/-- Walk through a program of the authorization endpoint. -/
macro "front" h:term : tactic => `(tactic| repeat' first
  | with_reducible exact FrontQ.errorTo $h | with_reducible exact FrontQ.callbackFailed $h
  | with_reducible exact FrontQ.showError $h | with_reducible exact FrontQ.plog $h
  | with_reducible exact FrontQ.alog $h | with_reducible exact allQ_xpure | with_reducible exact allQ_pure
  | with_reducible exact allQ_xthrow | with_reducible exact FrontQ.aask $h rfl rfl | with_reducible exact FrontQ.ask $h rfl rfl
  | with_reducible exact FrontQ.send $h _ _
  | (with_reducible refine allQ_xbind ?_ fun _ => ?_) | (with_reducible refine allQ_bind' ?_ fun _ => ?_)
  | split | dsimp only | exact allQ_panic)

namespace FrontQ

theorem findClient (h : FrontQ P lib r uri) {cid} : AllQ P (findClient r cid).run := by
  unfold AuthzEndpoint.findClient; front h

theorem identify (h : FrontQ P lib r uri) : AllQ P (identify r).run := by
  unfold AuthzEndpoint.identify
  dsimp only
  split
  · front h
  split
  · front h
  refine allQ_xbind h.findClient fun _ => ?_
  front h

theorem buildRequest (h : FrontQ P lib r (r.formValue b!"redirect_uri")) : AllQ P (buildRequest policy lib r clnt).run := by
  unfold AuthzEndpoint.buildRequest
  dsimp only
  refine allQ_xbind (by unfold judgeFlow; front h) fun _ => ?_
  refine allQ_xbind (by unfold pickMode; front h) fun _ => ?_
  refine allQ_xbind (by unfold checkModeLevel; front h) fun _ => ?_
  refine allQ_xbind (by unfold checkFlow; front h) fun _ => ?_
  refine allQ_xbind (by unfold checkDisplay; front h) fun _ => ?_
  refine allQ_xbind (by unfold checkMaxAge; front h) fun _ => ?_
  refine allQ_xbind (by unfold checkPrompt; front h) fun _ => ?_
  refine allQ_xbind (by unfold offlineScope; front h) fun _ => ?_
  refine allQ_xbind (by unfold checkScope; front h) fun _ => ?_
  refine allQ_xbind (by unfold checkNonce; front h) fun _ => ?_
  refine allQ_xbind (by unfold checkVerifier; front h) fun _ => ?_
  refine allQ_xbind (by unfold chooseLocale; front h) fun _ => ?_
  front h

theorem completeFail (h : FrontQ P lib r req.redirectURI) {rh} : AllQ P (completeFail lib r rh req) := by
  unfold AuthzEndpoint.completeFail AuthResponse.error
  front h

theorem completeCallbackFail (h : FrontQ P lib r req.redirectURI) {rh m} : AllQ P (completeCallbackFail lib r rh req m) := by
  unfold AuthzEndpoint.completeCallbackFail
  exact allQ_bind' h.plog fun _ => h.completeFail

theorem frontToken (hi : ∀ q : Query, q.issues = true → P q) {info f key} : AllQ P (frontToken info f key) := by
  unfold AuthzEndpoint.frontToken
  split
  · refine allQ_bind' (allQ_ask (hi _ rfl)) fun x => ?_
    rcases x with ⟨_ | _, _ | _⟩ <;> trivial
  · trivial

theorem frontIdToken (h : FrontQ P lib r uri) {c info f at' a code} :
    AllQ P (frontIdToken policy lib c info f req at' a code) := by
  unfold AuthzEndpoint.frontIdToken; front h

end FrontQ

/-- Walk through `complete`. -/
macro "frontc" h:term:max hi:term:max : tactic => `(tactic| repeat' first
  | with_reducible exact FrontQ.completeFail $h | with_reducible exact FrontQ.completeCallbackFail $h
  | with_reducible exact FrontQ.frontToken $hi | with_reducible exact FrontQ.frontIdToken $h
  | with_reducible exact FrontQ.plog $h | with_reducible exact allQ_pure
  | with_reducible exact FrontQ.ask $h rfl rfl | with_reducible exact allQ_ask ($hi _ rfl)
  | with_reducible exact FrontQ.send $h _ _
  | (with_reducible refine allQ_bind' ?_ fun _ => ?_)
  | split | dsimp only | exact allQ_panic)

namespace FrontQ

theorem complete (h : FrontQ P lib r req.redirectURI) (hi : ∀ q : Query, q.issues = true → P q) {rh info} : AllQ P (complete policy lib r rh info req) := by
  unfold AuthzEndpoint.complete
  split
  · trivial
  split
  · unfold completeCode; frontc h hi
  · unfold completeImplicit; frontc h hi
  · unfold completeHybrid; frontc h hi
  · trivial

theorem finish (h : FrontQ P lib r req.redirectURI) (hi : ∀ q : Query, q.issues = true → P q) {info} : AllQ P (finish policy lib r info req : AuthM α).run :=
  allQ_xbind (allQ_xlift (h.complete hi)) fun _ => trivial

theorem consentCovers (h : FrontQ P lib r uri) {info} : AllQ P (consentCovers policy info req).run := by
  unfold AuthzEndpoint.consentCovers; front h

theorem noneComplete (h : FrontQ P lib r req.redirectURI) (hi : ∀ q : Query, q.issues = true → P q) : AllQ P (noneComplete policy lib r req : AuthM α).run := by
  unfold AuthzEndpoint.noneComplete
  refine allQ_xbind (h.aask rfl rfl) fun x => ?_
  cases x with
  | none => front h
  | some uid =>
    refine allQ_xbind (h.aask rfl rfl) fun x => ?_
    rcases x with ⟨_ | info, _ | _ | _ | _ | n⟩ <;> dsimp only
    case some.none =>
      refine allQ_xbind h.consentCovers fun b => ?_
      cases b
      · exact h.errorTo
      · exact h.finish hi
    all_goals front h

theorem requireLogin (h : FrontQ P lib r req.redirectURI) : AllQ P (requireLogin lib r req).run := by
  unfold AuthzEndpoint.requireLogin; front h
theorem requireMatch (h : FrontQ P lib r req.redirectURI) {s d} : AllQ P (requireMatch lib r req s d).run := by
  unfold AuthzEndpoint.requireMatch; front h
theorem checkIdTokenHint (h : FrontQ P lib r req.redirectURI) : AllQ P (checkIdTokenHint lib r clnt req).run := by
  unfold AuthzEndpoint.checkIdTokenHint
  dsimp only
  split
  · front h
  · refine allQ_xbind (allQ_xlift (allQ_parse (h.other _ rfl rfl) fun t => (by unfold hintKeyFunc; exact allQ_ret))) fun x => ?_
    front h
theorem confirmLogin (h : FrontQ P lib r req.redirectURI) : AllQ P (confirmLogin lib r req).run := by
  unfold AuthzEndpoint.confirmLogin; front h
theorem promptLogin (h : FrontQ P lib r req.redirectURI) : AllQ P (promptLogin lib r req).run := by
  unfold AuthzEndpoint.promptLogin; front h
theorem checkAuthAge (h : FrontQ P lib r req.redirectURI) : AllQ P (checkAuthAge lib r req).run := by
  unfold AuthzEndpoint.checkAuthAge; front h
theorem showConsent (h : FrontQ P lib r req.redirectURI) : AllQ P (showConsent lib r clnt req).run := by
  unfold AuthzEndpoint.showConsent; front h

theorem promptNone (h : FrontQ P lib r req.redirectURI) (hi : ∀ q : Query, q.issues = true → P q) : AllQ P (promptNone policy lib r clnt req).run := by
  unfold AuthzEndpoint.promptNone
  split
  · front h
  · exact allQ_xbind h.requireLogin fun _ => h.noneComplete hi
  · split
    · front h
    · exact allQ_xbind h.requireLogin fun _ => allQ_xbind h.requireMatch fun _ => h.noneComplete hi
  · exact allQ_xbind h.checkIdTokenHint fun _ => allQ_xbind h.requireMatch fun _ => h.noneComplete hi
  · trivial

theorem omitConsent (h : FrontQ P lib r req.redirectURI) (hi : ∀ q : Query, q.issues = true → P q) : AllQ P (omitConsent policy lib r clnt req).run := by
  unfold AuthzEndpoint.omitConsent
  split
  · trivial
  · split
    · refine allQ_xbind (h.aask rfl rfl) fun x => ?_
      cases x with
      | none => front h
      | some uid =>
        refine allQ_xbind (h.aask rfl rfl) fun x => ?_
        rcases x with ⟨_ | info, _ | _ | _ | _ | n⟩ <;> dsimp only
        case some.none =>
          refine allQ_xbind h.consentCovers fun b => ?_
          cases b
          · trivial
          · exact h.finish hi
        all_goals front h
    · trivial
    · trivial

/-- `HandleRequest` -/
theorem handleRequest (h : FrontQ P lib r (r.formValue b!"redirect_uri")) (hi : ∀ q : Query, q.issues = true → P q) : AllQ P (handleRequest policy lib r) := by
  unfold AuthzEndpoint.handleRequest
  refine allQ_bind' ?_ fun x => by cases x <;> trivial
  unfold handleRequestM
  refine allQ_xbind h.identify fun clnt => allQ_xbind_ok h.buildRequest fun req t hreq => ?_
  obtain ⟨_, f, hb⟩ := ah_buildRequest.ok hreq
  rw [← hb.redirectURI] at h
  have ht : AllQ P (do
      AuthzEndpoint.promptLogin lib r req
      AuthzEndpoint.checkAuthAge lib r req
      AuthzEndpoint.omitConsent policy lib r clnt req
      AuthzEndpoint.showConsent lib r clnt req : AuthM Bool).run :=
    allQ_xbind h.promptLogin fun _ => allQ_xbind h.checkAuthAge fun _ => allQ_xbind (h.omitConsent hi) fun _ => h.showConsent
  dsimp only
  split
  · exact allQ_xbind (h.promptNone hi) fun _ => ht
  · exact allQ_xbind h.confirmLogin fun _ => ht

end FrontQ

/-- `CompleteRequest`: the redirect URI is that of the continued request. -/
theorem frontQ_complete {t : List Event} (hi : ∀ q : Query, q.issues = true → P q) (hs : Steps (completeRequest policy lib r) t) (hc : P .continue_)
    (hl : ∀ lv ev ps, P (.log ⟨lv, b!"authorization_endpoint", r.path, ev, ps⟩))
    (h : ∀ req, ⟨.continue_, some (some req)⟩ ∈ t → FrontQ P lib r req.redirectURI) : ∀ e ∈ t, P e.q := by
  unfold completeRequest at hs
  rcases hs with rfl | ⟨x, t', rfl, hs⟩
  · simp
  suffices hp : ∀ e ∈ t', P e.q by
    intro e he
    rcases List.mem_cons.1 he with rfl | he
    · exact hc
    · exact hp e he
  change Steps (Prog.bind (.ret x) _) t' at hs
  match x with
  | none => exact allQ_steps (p := do plog .error r .interfaceError [pMethod b!"Continue"]; pure false) (allQ_bind' (allQ_ask (hl _ _ _)) fun _ => trivial) hs
  | some none => exact allQ_steps allQ_panic hs
  | some (some req) =>
    have h := h req List.mem_cons_self
    refine allQ_steps (show AllQ P (Prog.bind (ask .getLoginUserId) _) from ?_) hs
    refine allQ_bind' (h.ask rfl rfl) fun x => ?_
    cases x with
    | none => exact h.completeCallbackFail
    | some uid =>
      refine allQ_bind' (h.ask rfl rfl) fun x => ?_
      rcases x with ⟨i, _ | _⟩
      · exact h.complete hi
      · exact h.completeFail

/-- `CancelRequest` -/
theorem frontQ_cancel {t : List Event} (hs : Steps (cancelRequest lib r) t) (hc : P .continue_)
    (hl : ∀ lv ev ps, P (.log ⟨lv, b!"authorization_endpoint", r.path, ev, ps⟩))
    (h : ∀ req, ⟨.continue_, some (some req)⟩ ∈ t → FrontQ P lib r req.redirectURI) : ∀ e ∈ t, P e.q := by
  unfold cancelRequest at hs
  rcases hs with rfl | ⟨x, t', rfl, hs⟩
  · simp
  suffices hp : ∀ e ∈ t', P e.q by
    intro e he
    rcases List.mem_cons.1 he with rfl | he
    · exact hc
    · exact hp e he
  change Steps (Prog.bind (.ret x) _) t' at hs
  match x with
  | none => exact allQ_steps (p := do plog .error r .interfaceError [pMethod b!"Continue"]; pure false) (allQ_bind' (allQ_ask (hl _ _ _)) fun _ => trivial) hs
  | some none => exact allQ_steps allQ_panic hs
  | some (some req) =>
    have h := h req List.mem_cons_self
    refine allQ_steps (p := do AuthResponse.success lib r req.responseMode req.redirectURI _; pure true) ?_ hs
    front h

end Goidc
