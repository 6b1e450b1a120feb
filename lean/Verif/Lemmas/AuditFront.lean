import Verif.Lemmas.AuditFail
import Verif.Lemmas.FromLogin
import Verif.Model.AuthorizationEndpoint
import Verif.Model.ResourceProtector

/-! # The logs of the authorization endpoint and of the resource protector -/

namespace Goidc

open Spec

variable {α β ε : Type}

/-! ## Lines after calls -/

/-- Every call whose answer is in `S` is followed by a line in `L`. -/
def Foll (S : (q : Query) → q.Resp → Prop) (L : (q : Query) → q.Resp → LogLine → Prop) : Prog α → Prop
  | .ret _ => True
  | .panic => True
  | .call q k => ∀ x, (S q x → ∃ l k', k x = .call (.log l) k' ∧ L q x l) ∧ Foll S L (k x)

section
variable {S : (q : Query) → q.Resp → Prop} {L : (q : Query) → q.Resp → LogLine → Prop}

theorem foll_bind {p : Prog α} {f : α → Prog β} (hp : Foll S L p) (hf : ∀ a, Foll S L (f a)) : Foll S L (p.bind f) := by
  induction p with
  | ret a => exact hf a
  | panic => exact trivial
  | call q k ih =>
    intro x
    refine ⟨fun hs => ?_, ih x (hp x).2⟩
    obtain ⟨l, k', h1, h2⟩ := (hp x).1 hs
    exact ⟨l, fun r => (k' r).bind f, by show (k x).bind f = _; rw [h1]; rfl, h2⟩

theorem foll_steps {p : Prog α} {pre q x post} (h : Foll S L p) (hs : Steps p (pre ++ ⟨q, x⟩ :: post)) (hx : S q x) :
    post = [] ∨ ∃ l post', post = logged l :: post' ∧ L q x l := by
  induction p generalizing pre with
  | ret a => exact absurd (show _ = [] from hs) (by simp)
  | panic => exact absurd (show _ = [] from hs) (by simp)
  | call q0 k0 ih =>
    rcases hs with hs | ⟨r, t', ht, hs⟩
    · exact absurd hs (by simp)
    · cases pre with
      | nil =>
        simp only [List.nil_append, List.cons.injEq] at ht
        obtain ⟨he, rfl⟩ := ht
        cases he
        obtain ⟨l, k', h1, h2⟩ := (h x).1 hx
        rw [h1] at hs
        rcases hs with rfl | ⟨_, t'', rfl, _⟩
        · exact .inl rfl
        · exact .inr ⟨l, t'', rfl, h2⟩
      | cons e pre =>
        simp only [List.cons_append, List.cons.injEq] at ht
        obtain ⟨rfl, rfl⟩ := ht
        exact ih r (h r).2 hs

theorem foll_safe {p : Prog α} (h : AllQ (fun q => ∀ x, ¬ S q x) p) : Foll S L p := by
  induction p with
  | ret a => exact trivial
  | panic => exact trivial
  | call q k ih => exact fun x => ⟨fun hf => absurd hf (h.1 x), ih x (h.2 x)⟩

theorem foll_xbind {p : ExceptT ε Prog α} {f : α → ExceptT ε Prog β} (hp : Foll S L p.run) (hf : ∀ a, Foll S L (f a).run) :
    Foll S L (p >>= f).run := by
  rw [xrun_bind]
  refine foll_bind hp fun x => ?_
  cases x with
  | ok a => exact hf a
  | error e => exact trivial

theorem foll_xlift {p : Prog α} (h : Foll S L p) : Foll S L (ExceptT.lift p : ExceptT ε Prog α).run := by
  rw [xrun_lift]; exact foll_bind h fun _ => trivial

end

/-! ## Lines before calls -/

/-- Every call in `S` comes right after a line in `L`; `last` is the line before the program. -/
def Prec (L : Query → LogLine → Prop) (S : Query → Prop) : Option LogLine → Prog α → Prop
  | _, .ret _ => True
  | _, .panic => True
  | last, .call q k => (S q → ∃ l, last = some l ∧ L q l) ∧
      ∀ x, Prec L S (match q with | .log l => some l | _ => none) (k x)

section
variable {L : Query → LogLine → Prop} {S : Query → Prop}

theorem prec_bind {last} {p : Prog α} {f : α → Prog β} (hp : Prec L S last p) (hf : ∀ last a, Prec L S last (f a)) :
    Prec L S last (p.bind f) := by
  induction p generalizing last with
  | ret a => exact hf last a
  | panic => exact trivial
  | call q k ih => exact ⟨hp.1, fun x => ih x (hp.2 x)⟩

theorem prec_safe {last} {p : Prog α} (h : AllQ (fun q => ¬ S q) p) : Prec L S last p := by
  induction p generalizing last with
  | ret a => exact trivial
  | panic => exact trivial
  | call q k ih => exact ⟨fun hs => absurd hs h.1, fun x => ih x (h.2 x)⟩

theorem prec_mono {S' : Query → Prop} {last} {p : Prog α} (h : Prec L S last p) (hs : ∀ q, S' q → S q) : Prec L S' last p := by
  induction p generalizing last with
  | ret a => exact trivial
  | panic => exact trivial
  | call q k ih => exact ⟨fun hq => h.1 (hs q hq), fun x => ih x (h.2 x)⟩

theorem prec_steps {last} {p : Prog α} {pre q x post} (h : Prec L S last p) (hs : Steps p (pre ++ ⟨q, x⟩ :: post)) (hq : S q) :
    (pre = [] ∧ ∃ l, last = some l ∧ L q l) ∨ ∃ pre' l, pre = pre' ++ [logged l] ∧ L q l := by
  induction p generalizing last pre with
  | ret a => exact absurd (show _ = [] from hs) (by simp)
  | panic => exact absurd (show _ = [] from hs) (by simp)
  | call q0 k0 ih =>
    rcases hs with hs | ⟨r, t', ht, hs⟩
    · exact absurd hs (by simp)
    · cases pre with
      | nil =>
        simp only [List.nil_append, List.cons.injEq] at ht
        obtain ⟨he, rfl⟩ := ht
        cases he
        exact .inl ⟨rfl, h.1 hq⟩
      | cons e pre =>
        simp only [List.cons_append, List.cons.injEq] at ht
        obtain ⟨rfl, rfl⟩ := ht
        right
        rcases ih r (h.2 r) hs with ⟨rfl, l, h1, h2⟩ | ⟨pre', l, rfl, h2⟩
        · cases q0 <;> cases h1
          exact ⟨[], l, rfl, h2⟩
        · exact ⟨⟨q0, r⟩ :: pre', l, rfl, h2⟩

theorem prec_xbind {last} {p : ExceptT ε Prog α} {f : α → ExceptT ε Prog β} (hp : Prec L S last p.run)
    (hf : ∀ last a, Prec L S last (f a).run) : Prec L S last (p >>= f).run := by
  rw [xrun_bind]
  refine prec_bind hp fun last x => ?_
  cases x with
  | ok a => exact hf last a
  | error e => exact trivial

end

/-! ## Failing callbacks -/

section callbacks
open AuthzEndpoint
variable {policy : Policy} {lib : Lib} {r : Req} {clnt : Client} {req : Request}

/-- The failures that are reported. -/
abbrev CbFailed (q : Query) (x : q.Resp) : Prop := Spec.callbackFailed q x ∧ ∀ req, q ≠ .showLoginScreen req

/-- The method is named, with one exception. -/
abbrev CbNamed (q : Query) (l : LogLine) : Prop :=
  NamesMethod q l ∨ ((∃ s, q = .loginUserIsMatchedToSubject s) ∧ (b!"method", b!"LoginUserIsMatchedToHint") ∈ l.params)

abbrev CbLine (r : Req) (q : Query) (_ : q.Resp) (l : LogLine) : Prop := ReportsCallback r.path q l ∧ CbNamed q l

abbrev CbOk (r : Req) (p : Prog α) : Prop := Foll CbFailed (CbLine r) p

theorem cb_log {lv ep path ev ps} : CbOk r (logAt lv ep path ev ps) := foll_safe (allQ_ask fun _ h => h.1)

theorem cb_redirectTo {ty uri ps} : CbOk r (AuthResponse.redirectTo lib r ty uri ps) := by
  refine foll_safe ?_
  unfold AuthResponse.redirectTo AuthResponse.connector
  refine allQ_bind' ?_ fun _ => allQ_ask fun _ h => h.1
  split
  · trivial
  · split <;> trivial

theorem cb_success {mode uri ps} : CbOk r (AuthResponse.success lib r mode uri ps) := by
  unfold AuthResponse.success
  split
  · exact cb_redirectTo
  · split
    · exact cb_redirectTo
    · split
      · exact foll_safe (allQ_bind' (allQ_ask fun _ h => h.1) fun _ => allQ_ask fun _ h => h.1)
      · exact cb_redirectTo

theorem cb_ask {q : Query} (h : ∀ x, ¬ Spec.callbackFailed q x) : CbOk r (ask q) := foll_safe (allQ_ask fun x k => h x k.1)
theorem cb_aask {q : Query} (h : ∀ x, ¬ Spec.callbackFailed q x) : CbOk r (aask q).run := foll_xlift (cb_ask h)
theorem cb_alog {lv ev ps} : CbOk r (alog lv r ev ps).run := foll_xlift cb_log
theorem cb_pure {a : α} : CbOk r (pure a : AuthM α).run := trivial
theorem cb_throw {b : Bool} : CbOk r (throw b : AuthM α).run := trivial
theorem cb_apanic : CbOk r (apanic : AuthM α).run := trivial
theorem cb_showError {n} : CbOk r (showError n : AuthM α).run := foll_xbind (cb_aask fun _ h => h) fun _ => trivial
theorem cb_errorTo {mode ruri typ desc state} : CbOk r (errorTo lib r mode ruri typ desc state : AuthM α).run :=
  foll_xbind (foll_xlift cb_success) fun _ => trivial
theorem cb_failed {mode ruri state m} : CbOk r (AuthzEndpoint.callbackFailed lib r mode ruri state m : AuthM α).run :=
  foll_xbind cb_alog fun _ => cb_errorTo

/-- A callback whose failures are logged. -/
theorem cb_call {q : Query} {f : q.Resp → AuthM β} {mode ruri state m}
    (h : ∀ x, Spec.callbackFailed q x → f x = AuthzEndpoint.callbackFailed lib r mode ruri state m)
    (hm : CbNamed q ⟨.error, b!"authorization_endpoint", r.path, .interfaceError, [pMethod m]⟩)
    (hf : ∀ x, CbOk r (f x).run) : CbOk r (aask q >>= f).run := by
  intro x
  refine ⟨fun hx => ?_, hf x⟩
  show ∃ l k', (f x).run = _ ∧ _
  rw [h x hx.1]
  exact ⟨_, _, rfl, ⟨rfl, rfl, rfl, rfl⟩, hm⟩

/-- Close goals about programs that call no callback. -/
macro "cbq" : tactic => `(tactic| repeat' first
  | with_reducible exact cb_errorTo | with_reducible exact cb_failed
  | with_reducible exact cb_showError | with_reducible exact cb_alog | with_reducible exact cb_pure
  | with_reducible exact cb_throw | with_reducible exact cb_aask (fun _ h => h) | with_reducible exact cb_apanic
  | (with_reducible refine foll_xbind ?_ fun _ => ?_) | split | dsimp only)

theorem cb_findClient {cid} : CbOk r (findClient r cid).run := by
  unfold findClient
  refine foll_xbind (cb_aask fun _ h => h) fun x => ?_
  rcases x with ⟨_ | c, _ | _ | _ | _ | n⟩ <;> dsimp only <;> cbq

theorem cb_identify : CbOk r (identify r).run := by
  unfold identify
  dsimp only
  split
  · cbq
  · split
    · cbq
    · refine foll_xbind cb_findClient fun _ => ?_
      cbq

theorem cb_buildRequest : CbOk r (buildRequest policy lib r clnt).run := by
  unfold buildRequest
  dsimp only
  refine foll_xbind (by unfold judgeFlow; cbq) fun _ => ?_
  refine foll_xbind (by unfold pickMode; cbq) fun _ => ?_
  refine foll_xbind (by unfold checkModeLevel; cbq) fun _ => ?_
  refine foll_xbind (by unfold checkFlow; cbq) fun _ => ?_
  refine foll_xbind (by unfold checkDisplay; cbq) fun _ => ?_
  refine foll_xbind (by unfold checkMaxAge; cbq) fun _ => ?_
  refine foll_xbind (by unfold checkPrompt; cbq) fun _ => ?_
  refine foll_xbind (by unfold offlineScope; cbq) fun _ => ?_
  refine foll_xbind (by unfold checkScope; cbq) fun _ => ?_
  refine foll_xbind (by unfold checkNonce; cbq) fun _ => ?_
  refine foll_xbind (by unfold checkVerifier; cbq) fun _ => ?_
  refine foll_xbind ?_ fun _ => cb_pure
  unfold AuthzEndpoint.chooseLocale
  refine cb_call (fun x hx => by obtain rfl : x = none := hx; rfl) (.inl (by simp [NamesMethod, methodName, pMethod])) fun x => ?_
  cbq

theorem cb_completeFail {rh} : CbOk r (completeFail lib r rh req) := foll_bind cb_success fun _ => trivial

theorem cb_pcall {q : Query} {f : q.Resp → Prog Bool} {rh m}
    (h : ∀ x, Spec.callbackFailed q x → f x = completeCallbackFail lib r rh req m)
    (hm : CbNamed q ⟨.error, b!"authorization_endpoint", r.path, .interfaceError, [pMethod m]⟩)
    (hf : ∀ x, CbOk r (f x)) : CbOk r (ask q >>= f) := by
  intro x
  refine ⟨fun hx => ?_, hf x⟩
  show ∃ l k', f x = _ ∧ _
  rw [h x hx.1]
  exact ⟨_, _, rfl, ⟨rfl, rfl, rfl, rfl⟩, hm⟩

theorem cb_completeCallbackFail {rh m} : CbOk r (completeCallbackFail lib r rh req m) := foll_bind cb_log fun _ => cb_completeFail

theorem cb_frontToken {info f k} : CbOk r (frontToken info f k) := by
  unfold frontToken
  split
  · refine foll_bind (cb_ask fun _ h => h) fun x => ?_
    rcases x with ⟨_ | _, _ | _⟩ <;> exact trivial
  · exact trivial

theorem cb_frontIdToken {c info f at' atk code} : CbOk r (frontIdToken policy lib c info f req at' atk code) := by
  unfold frontIdToken
  split
  · split
    · exact trivial
    · refine foll_bind (cb_ask fun _ h => h) fun _ => ?_
      split
      · exact trivial
      · refine foll_bind (cb_ask fun _ h => h) fun _ => ?_
        cases code <;> dsimp only <;> split <;> exact trivial
  · exact trivial

theorem cb_send {rh uri ps} : CbOk r ((AuthResponse.success lib r rh uri ps).bind fun _ => .ret true) :=
  foll_bind cb_success fun _ => trivial

theorem cb_completeCode {rh info} : CbOk r (completeCode policy lib r rh info req) := by
  unfold completeCode
  refine cb_pcall (fun x hx => by obtain rfl : x = none := hx; rfl) (.inl (by simp [NamesMethod, methodName, pMethod])) fun x => ?_
  split
  · exact cb_completeCallbackFail
  · refine cb_pcall (fun x hx => by obtain rfl : x = none := hx; rfl) (.inl (by simp [NamesMethod, methodName, pMethod])) fun x => ?_
    split
    · exact cb_completeCallbackFail
    · refine foll_bind (cb_ask fun _ h => h) fun x => ?_
      split
      · exact cb_completeFail
      · exact cb_send

theorem cb_completeImplicit {rh info f} : CbOk r (completeImplicit policy lib r rh info req f) := by
  unfold completeImplicit
  refine foll_bind (cb_ask fun _ h => h) fun x => ?_
  split
  · exact cb_completeFail
  · refine foll_bind cb_frontToken fun x => ?_
    split
    · exact cb_completeFail
    · refine cb_pcall (fun x hx => by obtain rfl : x = none := hx; rfl) (.inl (by simp [NamesMethod, methodName, pMethod])) fun x => ?_
      split
      · exact cb_completeCallbackFail
      · refine foll_bind cb_frontIdToken fun x => ?_
        split
        · exact cb_completeFail
        · exact cb_send

theorem cb_completeHybrid {rh info f} : CbOk r (completeHybrid policy lib r rh info req f) := by
  unfold completeHybrid
  refine cb_pcall (fun x hx => by obtain rfl : x = none := hx; rfl) (.inl (by simp [NamesMethod, methodName, pMethod])) fun x => ?_
  split
  · exact cb_completeCallbackFail
  · refine cb_pcall (fun x hx => by obtain rfl : x = none := hx; rfl) (.inl (by simp [NamesMethod, methodName, pMethod])) fun x => ?_
    split
    · exact cb_completeCallbackFail
    · refine foll_bind (cb_ask fun _ h => h) fun x => ?_
      split
      · exact cb_completeFail
      · refine foll_bind (cb_ask fun _ h => h) fun x => ?_
        split
        · exact cb_completeFail
        · refine foll_bind cb_frontToken fun x => ?_
          split
          · exact cb_completeFail
          · refine foll_bind cb_frontIdToken fun x => ?_
            split
            · exact cb_completeFail
            · exact cb_send

theorem cb_complete {rh info} : CbOk r (complete policy lib r rh info req) := by
  unfold complete
  split
  · exact trivial
  · split
    · exact cb_completeCode
    · exact cb_completeImplicit
    · exact cb_completeHybrid
    · exact trivial

theorem cb_finish {info} : CbOk r (finish policy lib r info req : AuthM α).run :=
  foll_xbind (foll_xlift cb_complete) fun _ => trivial

theorem cb_consentCovers {info} : CbOk r (consentCovers policy info req).run := by
  unfold consentCovers; cbq

theorem cb_noneComplete : CbOk r (noneComplete policy lib r req : AuthM α).run := by
  unfold noneComplete
  refine cb_call (fun x hx => by obtain rfl : x = none := hx; rfl) (.inl (by simp [NamesMethod, methodName, pMethod])) fun x => ?_
  cases x with
  | none => exact cb_failed
  | some uid =>
    refine foll_xbind (cb_aask fun _ h => h) fun x => ?_
    rcases x with ⟨_ | info, _ | _ | _ | _ | n⟩ <;> dsimp only
    case some.none =>
      refine foll_xbind cb_consentCovers fun b => ?_
      cases b
      · exact cb_errorTo
      · exact cb_finish
    all_goals cbq

theorem cb_requireLogin : CbOk r (requireLogin lib r req).run := by
  unfold requireLogin
  refine cb_call (fun x hx => by obtain rfl : x = none := hx; rfl) (.inl (by simp [NamesMethod, methodName, pMethod])) fun x => ?_
  cbq

theorem cb_requireMatch {s d} : CbOk r (requireMatch lib r req s d).run := by
  unfold requireMatch
  refine cb_call (fun x hx => by obtain rfl : x = none := hx; rfl) (.inr ⟨⟨_, rfl⟩, by simp [pMethod]⟩) fun x => ?_
  cbq

theorem cb_checkIdTokenHint : CbOk r (checkIdTokenHint lib r clnt req).run := by
  unfold checkIdTokenHint
  dsimp only
  split
  · exact cb_errorTo
  · refine foll_xbind (foll_xlift (foll_safe (allQ_parse (fun _ h => h.1) fun _ => trivial))) fun x => ?_
    rcases x with ⟨_ | _, _ | _, _⟩ <;> dsimp only <;> cbq

theorem cb_promptNone : CbOk r (promptNone policy lib r clnt req).run := by
  unfold promptNone
  split
  · cbq
  · exact foll_xbind cb_requireLogin fun _ => cb_noneComplete
  · split
    · cbq
    · exact foll_xbind cb_requireLogin fun _ => foll_xbind cb_requireMatch fun _ => cb_noneComplete
  · exact foll_xbind cb_checkIdTokenHint fun _ => foll_xbind cb_requireMatch fun _ => cb_noneComplete
  · exact trivial

theorem cb_showLogin {q : Request} : CbOk r (aask (.showLoginScreen q)).run :=
  foll_xlift (foll_safe (allQ_ask fun _ h => h.2 _ rfl))

theorem cb_afterPrompt : CbOk r (do
    promptLogin lib r req
    checkAuthAge lib r req
    omitConsent policy lib r clnt req
    showConsent lib r clnt req : AuthM Bool).run := by
  refine foll_xbind ?_ fun _ => foll_xbind ?_ fun _ => foll_xbind ?_ fun _ => ?_
  · unfold promptLogin
    split
    · refine cb_call (fun x hx => by obtain rfl : x = none := hx; rfl) (.inl (by simp [NamesMethod, methodName, pMethod])) fun x => ?_
      split
      · exact cb_failed
      · refine foll_xbind cb_alog fun _ => foll_xbind cb_showLogin fun _ => trivial
      · exact trivial
    · exact trivial
  · unfold checkAuthAge
    refine cb_call (fun x hx => by obtain rfl : x = none := hx; rfl) (.inl (by simp [NamesMethod, methodName, pMethod])) fun x => ?_
    split
    · exact cb_failed
    · split
      · refine foll_xbind (cb_aask fun _ h => h) fun _ => ?_
        dsimp only
        split
        · refine foll_xbind cb_alog fun _ => foll_xbind cb_showLogin fun _ => trivial
        · exact trivial
      · exact trivial
  · unfold omitConsent
    split
    · exact trivial
    · split
      · refine cb_call (fun x hx => by obtain rfl : x = none := hx; rfl) (.inl (by simp [NamesMethod, methodName, pMethod])) fun x => ?_
        cases x with
        | none => exact cb_failed
        | some uid =>
          refine foll_xbind (cb_aask fun _ h => h) fun x => ?_
          rcases x with ⟨_ | info, _ | _ | _ | _ | n⟩ <;> dsimp only
          case some.none =>
            refine foll_xbind cb_consentCovers fun b => ?_
            cases b
            · exact trivial
            · exact cb_finish
          all_goals cbq
      · exact trivial
      · exact trivial
  · unfold showConsent
    refine cb_call (fun x hx => by obtain rfl : x = false := hx; rfl) (.inl (by simp [NamesMethod, methodName, pMethod])) fun x => ?_
    cbq

theorem cb_confirmLogin : CbOk r (confirmLogin lib r req).run := by
  unfold confirmLogin
  refine cb_call (fun x hx => by obtain rfl : x = none := hx; rfl) (.inl (by simp [NamesMethod, methodName, pMethod])) fun x => ?_
  split
  · exact cb_failed
  · refine foll_xbind cb_alog fun _ => foll_xbind cb_showLogin fun _ => ?_
    cbq
  · exact trivial

theorem cb_handleRequestM : CbOk r (handleRequestM policy lib r).run := by
  unfold handleRequestM
  refine foll_xbind cb_identify fun clnt => foll_xbind cb_buildRequest fun req => ?_
  dsimp only
  split
  · exact foll_xbind cb_promptNone fun _ => cb_afterPrompt
  · exact foll_xbind cb_confirmLogin fun _ => cb_afterPrompt

theorem cb_handleRequest : CbOk r (handleRequest policy lib r) :=
  foll_bind cb_handleRequestM fun x => by cases x <;> exact trivial

theorem cb_continue {f : Option (Option Request) → Prog Bool}
    (h : f none = (plog .error r .interfaceError [pMethod b!"Continue"]).bind fun _ => .ret false)
    (hf : ∀ x, CbOk r (f x)) : CbOk r (ask .continue_ >>= f) := by
  intro x
  refine ⟨fun hx => ?_, hf x⟩
  obtain rfl : x = none := hx.1
  show ∃ l k', f none = _ ∧ _
  rw [h]
  exact ⟨_, _, rfl, ⟨rfl, rfl, rfl, rfl⟩, .inl (by simp [NamesMethod, methodName, pMethod])⟩

theorem cb_cancelRequest : CbOk r (cancelRequest lib r) := by
  unfold cancelRequest
  refine cb_continue rfl fun x => ?_
  split
  · exact foll_bind cb_log fun _ => trivial
  · exact trivial
  · exact foll_bind cb_success fun _ => trivial

theorem cb_completeRequest : CbOk r (completeRequest policy lib r) := by
  unfold completeRequest
  refine cb_continue rfl fun x => ?_
  split
  · exact foll_bind cb_log fun _ => trivial
  · exact trivial
  · refine cb_pcall (fun x hx => by obtain rfl : x = none := hx; rfl) (.inl (by simp [NamesMethod, methodName, pMethod])) fun x => ?_
    split
    · exact cb_completeCallbackFail
    · refine foll_bind (cb_ask fun _ h => h) fun x => ?_
      split
      · exact cb_completeFail
      · exact cb_complete

end callbacks

/-! ## Error screens -/

section screens
open AuthzEndpoint
variable {policy : Policy} {lib : Lib} {r : Req} {clnt : Client} {req : Request}

def Query.isScreen : Query → Bool
  | .showErrorScreen _ => true
  | _ => false

abbrev ScreenOk (r : Req) (last : Option LogLine) (p : Prog α) : Prop :=
  Prec (fun q l => ∀ n, q = .showErrorScreen n → ExplainsScreen r.path n l) (fun q => q.isScreen = true) last p

theorem sc_log_show {last lv ev ps n} (h : ExplainsScreen r.path n ⟨lv, b!"authorization_endpoint", r.path, ev, ps⟩) :
    ScreenOk r last (do alog lv r ev ps; showError n : AuthM α).run :=
  ⟨fun h => (by cases h), fun _ => ⟨fun _ => ⟨_, rfl, fun n h' => (by cases h'; exact h)⟩, fun _ => trivial⟩⟩

theorem sc_findClient {last cid} : ScreenOk r last (findClient r cid).run := by
  unfold findClient
  refine prec_xbind ⟨fun h => (by cases h), fun _ => trivial⟩ fun last x => ?_
  rcases x with ⟨_ | c, _ | _ | _ | _ | n⟩ <;> dsimp only
  all_goals first
    | exact trivial
    | exact sc_log_show ⟨rfl, rfl, by simp [screenReasons], by simp, .inr (by simp [pMethod])⟩

theorem sc_identify {last} : ScreenOk r last (identify r).run := by
  unfold identify
  dsimp only
  split
  · exact sc_log_show ⟨rfl, rfl, by simp [screenReasons], by simp, .inl (by simp [pParam])⟩
  · split
    · exact sc_log_show ⟨rfl, rfl, by simp [screenReasons], by simp, .inl (by simp [pParam])⟩
    · refine prec_xbind sc_findClient fun last c => ?_
      split
      · exact sc_log_show ⟨rfl, rfl, by simp [screenReasons], by simp, .inr (by simp [pMethod])⟩
      · exact trivial

/-- Not an error screen. -/
abbrev NSC (q : Query) : Prop := q.isScreen = false

theorem nsc_redirectTo {ty uri ps} : AllQ NSC (AuthResponse.redirectTo lib r ty uri ps) := by
  unfold AuthResponse.redirectTo AuthResponse.connector
  refine allQ_bind' ?_ fun _ => allQ_ask rfl
  split
  · trivial
  · split <;> trivial

theorem nsc_success {mode uri ps} : AllQ NSC (AuthResponse.success lib r mode uri ps) := by
  unfold AuthResponse.success
  split
  · exact nsc_redirectTo
  · split
    · exact nsc_redirectTo
    · split
      · exact allQ_bind' (allQ_ask rfl) fun _ => allQ_ask rfl
      · exact nsc_redirectTo

theorem nsc_aask {q : Query} (h : NSC q) : AllQ NSC (aask q).run := allQ_xlift (allQ_ask h)
theorem nsc_alog {lv ev ps} : AllQ NSC (alog lv r ev ps).run := allQ_xlift (allQ_ask rfl)
theorem nsc_errorTo {mode ruri typ desc state} : AllQ NSC (errorTo lib r mode ruri typ desc state : AuthM α).run :=
  allQ_xbind (allQ_xlift nsc_success) fun _ => trivial
theorem nsc_callbackFailed {mode ruri state m} : AllQ NSC (callbackFailed lib r mode ruri state m : AuthM α).run :=
  allQ_xbind nsc_alog fun _ => nsc_errorTo

/-- Close goals about programs that show no error screen. -/
macro "nscr" : tactic => `(tactic| repeat' first
  | with_reducible exact nsc_errorTo | with_reducible exact nsc_callbackFailed
  | with_reducible exact nsc_alog | with_reducible exact allQ_xpure
  | with_reducible exact allQ_xthrow | with_reducible exact nsc_aask rfl
  | (with_reducible refine allQ_xbind ?_ fun _ => ?_) | split | dsimp only | exact allQ_panic)

theorem nsc_buildRequest : AllQ NSC (buildRequest policy lib r clnt).run := by
  unfold buildRequest
  dsimp only
  refine allQ_xbind (by unfold judgeFlow; nscr) fun _ => ?_
  refine allQ_xbind (by unfold pickMode; nscr) fun _ => ?_
  refine allQ_xbind (by unfold checkModeLevel; nscr) fun _ => ?_
  refine allQ_xbind (by unfold checkFlow; nscr) fun _ => ?_
  refine allQ_xbind (by unfold checkDisplay; nscr) fun _ => ?_
  refine allQ_xbind (by unfold checkMaxAge; nscr) fun _ => ?_
  refine allQ_xbind (by unfold checkPrompt; nscr) fun _ => ?_
  refine allQ_xbind (by unfold offlineScope; nscr) fun _ => ?_
  refine allQ_xbind (by unfold checkScope; nscr) fun _ => ?_
  refine allQ_xbind (by unfold checkNonce; nscr) fun _ => ?_
  refine allQ_xbind (by unfold checkVerifier; nscr) fun _ => ?_
  refine allQ_xbind (by unfold chooseLocale; nscr) fun _ => ?_
  nscr

theorem nsc_complete {rh info} : AllQ NSC (complete policy lib r rh info req) := by
  refine allQ_of_runs fun t o h e he => ?_
  have hw : ∀ {t}, Work t → ∀ e ∈ t, NSC e.q := by
    intro t hw e he
    have := hw e he
    cases e with | mk q r => cases q <;> first | rfl | simp [Query.isWork] at this
  have hs : ∀ {t resp}, SentTrace t resp → ∀ e ∈ t, NSC e.q := by
    rintro t resp (rfl | ⟨m, l, rfl⟩) e he
    · obtain rfl : e = wrote resp := by simpa using he
      rfl
    · rcases List.mem_cons.1 he with rfl | he
      · rfl
      · obtain rfl : e = wrote resp := by simpa using he
        rfl
  rcases complete_runs h with ⟨_, h1, _⟩ | ⟨_, rfl, _⟩ | ⟨_, t1, t2, resp, rfl, h1, h2, _⟩ | ⟨_, f, t1, t2, ps, resp, _, rfl, h1, _, h2, _⟩
  · exact hw h1 e he
  · simp at he
  · rcases List.mem_append.1 he with he | he
    · exact hw h1 e he
    · exact hs h2 e he
  · rcases List.mem_append.1 he with he | he
    · exact hw h1 e he
    · exact hs h2 e he

theorem nsc_finish {info} : AllQ NSC (finish policy lib r info req : AuthM α).run :=
  allQ_xbind (allQ_xlift nsc_complete) fun _ => trivial

theorem nsc_consentCovers {info} : AllQ NSC (consentCovers policy info req).run := by
  unfold consentCovers; nscr

theorem nsc_noneComplete : AllQ NSC (noneComplete policy lib r req : AuthM α).run := by
  unfold noneComplete
  refine allQ_xbind (nsc_aask rfl) fun x => ?_
  cases x with
  | none => nscr
  | some uid =>
    refine allQ_xbind (nsc_aask rfl) fun x => ?_
    rcases x with ⟨_ | info, _ | _ | _ | _ | n⟩ <;> dsimp only
    case some.none =>
      refine allQ_xbind nsc_consentCovers fun b => ?_
      cases b
      · exact nsc_errorTo
      · exact nsc_finish
    all_goals nscr

theorem nsc_promptNone : AllQ NSC (promptNone policy lib r clnt req).run := by
  have h1 : AllQ NSC (requireLogin lib r req).run := by unfold requireLogin; nscr
  have h2 : ∀ {s d}, AllQ NSC (requireMatch lib r req s d).run := by intro s d; unfold requireMatch; nscr
  unfold promptNone
  split
  · nscr
  · exact allQ_xbind h1 fun _ => nsc_noneComplete
  · split
    · nscr
    · exact allQ_xbind h1 fun _ => allQ_xbind h2 fun _ => nsc_noneComplete
  · refine allQ_xbind ?_ fun _ => allQ_xbind h2 fun _ => nsc_noneComplete
    unfold checkIdTokenHint
    dsimp only
    split
    · nscr
    · refine allQ_xbind (allQ_xlift (allQ_parse (P := NSC) rfl fun t => (by unfold hintKeyFunc; exact allQ_ret))) fun x => ?_
      nscr
  · trivial

theorem nsc_checkAuthAge : AllQ NSC (checkAuthAge lib r req).run := by unfold checkAuthAge; nscr

theorem nsc_confirmLogin : AllQ NSC (confirmLogin lib r req).run := by unfold confirmLogin; nscr

theorem nsc_omitConsent : AllQ NSC (omitConsent policy lib r clnt req).run := by
  unfold omitConsent
  split
  · trivial
  · split
    · refine allQ_xbind (nsc_aask rfl) fun x => ?_
      cases x with
      | none => nscr
      | some uid =>
        refine allQ_xbind (nsc_aask rfl) fun x => ?_
        rcases x with ⟨_ | info, _ | _ | _ | _ | n⟩ <;> dsimp only
        case some.none =>
          refine allQ_xbind nsc_consentCovers fun b => ?_
          cases b
          · trivial
          · exact nsc_finish
        all_goals nscr
    · trivial
    · trivial

theorem nsc_showConsent : AllQ NSC (showConsent lib r clnt req).run := by unfold showConsent; nscr

theorem nsc_promptLogin : AllQ NSC (promptLogin lib r req).run := by unfold promptLogin; nscr

theorem sc_of_nsc {last} {p : Prog α} (h : AllQ NSC p) : ScreenOk r last p :=
  prec_safe (allQ_mono (fun q (h : q.isScreen = false) => by simp [h]) h)

theorem sc_handleRequest : ScreenOk r none (handleRequest policy lib r) := by
  unfold handleRequest
  refine prec_bind ?_ fun last x => by cases x <;> exact trivial
  unfold handleRequestM
  refine prec_xbind sc_identify fun last clnt => ?_
  refine sc_of_nsc (allQ_xbind nsc_buildRequest fun req => ?_)
  have ht : AllQ NSC (do
      promptLogin lib r req
      checkAuthAge lib r req
      omitConsent policy lib r clnt req
      showConsent lib r clnt req : AuthM Bool).run :=
    allQ_xbind nsc_promptLogin fun _ => allQ_xbind nsc_checkAuthAge fun _ => allQ_xbind nsc_omitConsent fun _ => nsc_showConsent
  dsimp only
  split
  · exact allQ_xbind nsc_promptNone fun _ => ht
  · exact allQ_xbind nsc_confirmLogin fun _ => ht

end screens

/-! ## The protector -/

section protector
open ResourceProtector
variable {cfg : ProtectorCfg} {lib : Lib} {r : Req}

/-- The refusals that must be explained. -/
abbrev WriteOk (r : Req) (last : Option LogLine) (p : Prog α) : Prop :=
  Prec (fun q l => ∀ resp, q = .write resp → ExplainsRefusal r.path resp.status l) (fun q => q.isWrite = true) last p

theorem wo_refuse {last lv ep ev ps} {resp : HttpResp} {a : α} (n : Nat) (hn : resp.status = n)
    (h1 : ev ∈ refusalReasons n) (h2 : AtLeast (refusalLevel n) lv) :
    WriteOk r last (do logAt lv ep r.path ev ps; respond resp; pure a : Prog α) :=
  ⟨fun h => (by cases h), fun _ => ⟨fun _ => ⟨_, rfl, fun resp' h' => (by cases h'; subst hn; exact ⟨rfl, h1, h2⟩)⟩, fun _ => trivial⟩⟩

theorem wo_validate {last} : WriteOk r last (validate cfg lib r) := by
  unfold validate
  dsimp only
  split
  · exact wo_refuse 400 rfl (by decide) (by decide)
  · refine ⟨fun h => (by cases h), fun x => ?_⟩
    rcases x with ⟨_ | atk, _ | _ | _ | _ | n⟩ <;> dsimp only
    case some.none =>
      refine ⟨fun h => (by cases h), fun now => ?_⟩
      dsimp only
      show WriteOk r none (if _ then _ else _ : Prog (Bool × Req))
      split
      · exact ⟨fun h => (by cases h), fun _ => wo_refuse 401 rfl (by decide) (by decide)⟩
      · refine ⟨fun h => (by cases h), fun x => ?_⟩
        rcases x with ⟨_ | i, _ | _ | _ | _ | n⟩ <;> dsimp only
        all_goals first
          | exact trivial
          | exact wo_refuse 401 rfl (by decide) (by decide)
          | exact wo_refuse 500 rfl (by decide) (by decide)
    all_goals first
      | exact wo_refuse 401 rfl (by decide) (by decide)
      | exact wo_refuse 500 rfl (by decide) (by decide)

theorem wo_validateWithScopes {last} {m : List (GoStr × List GoStr)} :
    Prec (fun q l => ∀ resp, q = .write resp → ExplainsRefusal r.path resp.status l) (fun q => ∃ resp, q = .write resp ∧ resp.status ≠ 403)
      last (validateWithScopes cfg lib r m) := by
  unfold validateWithScopes
  refine prec_bind (prec_mono wo_validate ?_) fun last x => ?_
  · rintro q ⟨resp, rfl, _⟩
    rfl
  · obtain ⟨ok, r'⟩ := x
    dsimp only
    split
    · exact trivial
    · split
      · split
        · exact trivial
        · refine ⟨?_, fun _ => trivial⟩
          rintro ⟨resp, h1, h2⟩
          cases h1
          exact absurd rfl h2
      · exact trivial

/-- The failures that are reported. -/
abbrev PrFailed (q : Query) (x : q.Resp) : Prop := ∃ k, failure q x = some k ∧ ¬ ((∃ id, q = .findActiveAuthInfoById id) ∧ k = none)

/-- The method is named, unless the access token is unknown. -/
abbrev PrLine (q : Query) (x : q.Resp) (l : LogLine) : Prop := ∀ k, failure q x = some k → Reports q k l ∧
  (NamesMethod q l ∨ ∃ token, q = .findOAuthTokenByAccessToken token ∧ k = some .failed ∧ (b!"access_token", token) ∈ l.params)

theorem pr_quiet {q : Query} (h : ∀ x, failure q x = none) (x : q.Resp) : ¬ PrFailed q x := by
  rintro ⟨k, hk, _⟩
  rw [h x] at hk
  cases hk

theorem pr_refuse {lv ep path ev ps} {resp : HttpResp} {a : α} :
    Foll PrFailed PrLine (do logAt lv ep path ev ps; respond resp; pure a : Prog α) :=
  foll_safe (allQ_bind' (allQ_ask (pr_quiet fun _ => rfl)) fun _ => allQ_bind' (allQ_ask (pr_quiet fun _ => rfl)) fun _ => trivial)

/-- Close goals about levels. -/
macro "lvl" : tactic => `(tactic| first
  | exact (show AtLeast .debug .info by decide) | exact (show AtLeast .warn .warn by decide)
  | exact (show AtLeast .error .error by decide))

theorem pr_validate : Foll PrFailed PrLine (validate cfg lib r) := by
  unfold validate
  dsimp only
  split
  · exact pr_refuse
  · intro x
    rcases x with ⟨_ | atk, _ | _ | _ | _ | n⟩
    case some.none =>
      refine ⟨fun ⟨k, h, _⟩ => (by cases h), ?_⟩
      intro now
      refine ⟨fun h => (pr_quiet (fun _ => rfl) _ h).elim, ?_⟩
      show Foll _ _ (if _ then _ else _ : Prog (Bool × Req))
      split
      · exact fun _ => ⟨fun h => (pr_quiet (fun _ => rfl) _ h).elim, pr_refuse⟩
      · intro x
        rcases x with ⟨_ | i, _ | _ | _ | _ | n⟩
        case none.none => exact ⟨fun ⟨k, h, h'⟩ => (h' ⟨⟨_, rfl⟩, by cases h; rfl⟩).elim, trivial⟩
        case some.none => exact ⟨fun ⟨k, h, _⟩ => (by cases h), trivial⟩
        all_goals
          refine ⟨fun _ => ⟨_, _, rfl, fun k h => ?_⟩, pr_refuse⟩
          cases h
          exact ⟨⟨rfl, by lvl⟩, .inl (by simp [NamesMethod, methodName, pMethod])⟩
    all_goals
      refine ⟨fun _ => ⟨_, _, rfl, fun k h => ?_⟩, pr_refuse⟩
      cases h
      refine ⟨⟨rfl, by lvl⟩, ?_⟩
      first
        | exact .inr ⟨_, rfl, rfl, by simp⟩
        | exact .inl (by simp [NamesMethod, methodName, pMethod])

end protector

end Goidc
