import Verif.Spec.Methods
import Verif.Lemmas.SimE
import Verif.Props.Ignored
import Verif.Props.AuthPrompt
import Verif.Props.AuthComplete
import Verif.Props.Wire

/-! # C115: authorization requests by GET and by POST -/

namespace Goidc.Props

open Spec AuthzEndpoint

variable {lib : Lib} {policy : Policy} {r r' : Req} {t : List Event} {o : Outcome Bool} {α : Type}

theorem effect_refl (e : Event) : SameEffect e e := .inl rfl

theorem effect_all {p : Prog α} : AllQ (fun q => ∀ x, SameEffect ⟨q, x⟩ ⟨q, x⟩) p :=
  match p with
  | .ret _ => trivial
  | .panic => trivial
  | .call _ _ => ⟨fun _ => effect_refl _, fun _ => effect_all⟩

theorem effect_self {p : Prog α} : SimE SameEffect Eq p p := simE_refl effect_all

theorem effect_redirect {uri : GoStr} : SameEffect (wrote (AuthResponse.redirectResp r uri)) (wrote (AuthResponse.redirectResp r' uri)) := by
  have key : ∀ r : Req, RedirectTo (hexEscapeNonASCII uri) (AuthResponse.redirectResp r uri) := by
    intro r
    refine ⟨rfl, ?_⟩
    unfold AuthResponse.redirectResp
    dsimp only
    have h : b!"Location" ≠ b!"Content-Type" := by decide +kernel
    split <;> simp [h]
  exact .inr ⟨_, _, _, rfl, rfl, key r, key r'⟩

theorem effect_success {mode uri ps} :
    SimE SameEffect Eq (AuthResponse.success lib r mode uri ps) (AuthResponse.success lib r' mode uri ps) := by
  have key : ∀ t, SimE SameEffect Eq (AuthResponse.redirectTo lib r t uri ps) (AuthResponse.redirectTo lib r' t uri ps) := by
    intro t
    unfold AuthResponse.redirectTo
    refine simE_same effect_all fun conn => ?_
    intro x
    exact ⟨_, _, (), rfl, effect_redirect, (), rfl, rfl⟩
  unfold AuthResponse.success
  split
  · exact key _
  split
  · exact key _
  split
  · exact effect_self
  · exact key _

theorem effect_lift {p p' : Prog α} (h : SimE SameEffect Eq p p') :
    SimE SameEffect (ExceptRel Eq) (ExceptT.lift p : AuthM α).run (ExceptT.lift p' : AuthM α).run := by
  refine simE_bind (g := fun a => pure (Except.ok a)) (g' := fun a => pure (Except.ok a)) h fun a b hab => ?_
  exact ⟨_, rfl, hab⟩

theorem effect_errorTo {mode uri typ desc state} : SimE SameEffect (ExceptRel Eq)
    (errorTo lib r mode uri typ desc state : AuthM α).run (errorTo lib r' mode uri typ desc state : AuthM α).run :=
  simE_xbind (R := Eq) (effect_lift effect_success) fun _ _ _ => ⟨_, rfl, rfl⟩

theorem effect_xself {p : AuthM α} : SimE SameEffect (ExceptRel Eq) p.run p.run := simE_xrefl effect_all

theorem effect_step {β : Type} {p : AuthM α} {g g' : α → AuthM β}
    (hg : ∀ a, SimE SameEffect (ExceptRel Eq) (g a).run (g' a).run) :
    SimE SameEffect (ExceptRel Eq) (p >>= g).run (p >>= g').run := simE_xsame effect_all hg

theorem effect_then {β : Type} {p p' : AuthM α} {g g' : α → AuthM β} (h : SimE SameEffect (ExceptRel Eq) p.run p'.run)
    (hg : ∀ a, SimE SameEffect (ExceptRel Eq) (g a).run (g' a).run) :
    SimE SameEffect (ExceptRel Eq) (p >>= g).run (p' >>= g').run :=
  simE_xbind h fun a b hab => by
    have hab : a = b := hab
    subst hab
    exact hg a

theorem effect_callback (hp : r'.path = r.path) {mode uri state n} : SimE SameEffect (ExceptRel Eq)
    (AuthzEndpoint.callbackFailed lib r mode uri state n : AuthM α).run
    (AuthzEndpoint.callbackFailed lib r' mode uri state n : AuthM α).run := by
  unfold AuthzEndpoint.callbackFailed
  rw [front_alog hp]
  exact effect_step fun _ => effect_errorTo

/-- The same calls in both programs, up to what is written. -/
macro "effects" hp:term : tactic => `(tactic| ((try dsimp only); repeat' first
    | exact effect_errorTo | exact effect_callback $hp | exact effect_xself
    | exact ⟨_, rfl, rfl⟩
    | (refine effect_step fun _ => ?_) | split))

theorem effect_build {c : Client} (h : SameQuestion r r') : SimE SameEffect (ExceptRel Eq)
    (buildRequest policy lib r c).run (buildRequest policy lib r' c).run := by
  have hp := h.path
  have hk := h.values
  simp only [authorizationParamNames, List.forall_mem_cons] at hk
  obtain ⟨k1, k2, k3, k4, k5, k6, k7, k8, k9, k10, k11, k12, k13, k14, -⟩ := hk
  have al : ∀ {lv ev ps}, AuthzEndpoint.alog lv r' ev ps = AuthzEndpoint.alog lv r ev ps := front_alog hp
  unfold buildRequest
  simp only [k1, k2, k4, k5, k13, k14]
  refine effect_then ?_ fun f => effect_then ?_ fun m0 => effect_then ?_ fun m => effect_then ?_ fun _ => effect_then ?_ fun d =>
    effect_then ?_ fun ma => effect_then ?_ fun pr => effect_then ?_ fun sc => effect_then ?_ fun _ => effect_then ?_ fun n =>
    effect_then ?_ fun v => effect_then ?_ fun l => effect_xself
  · unfold judgeFlow; simp only [k3, al]; effects hp
  · unfold pickMode; simp only [al]; effects hp
  · unfold checkModeLevel; simp only [k3, al]; effects hp
  · unfold checkFlow; simp only [k3, al]; effects hp
  · unfold checkDisplay; simp only [k6, al]; effects hp
  · unfold checkMaxAge; simp only [k7, al]; effects hp
  · unfold checkPrompt; simp only [k8, al]; effects hp
  · unfold offlineScope; simp only [k9, al]; effects hp
  · unfold checkScope; simp only [k3, al]; effects hp
  · unfold checkNonce; simp only [k3, k10, al]; effects hp
  · unfold checkVerifier; simp only [k11, al]; effects hp
  · unfold chooseLocale
    have : ∀ {α : Type} {k : Option GoStr → AuthM α}, (aask (.chooseLocale (r'.formValue b!"ui_locales")) >>= k) =
        (aask (.chooseLocale (r.formValue b!"ui_locales")) >>= k) := by intro α k; rw [k12]
    rw [this]
    refine effect_step fun l => ?_
    cases l
    · exact effect_callback hp
    · exact effect_xself

/-! ## What `HandleRequest` does with the request -/

theorem effect_fail {rh} {q : Request} : SimE SameEffect Eq (completeFail lib r rh q) (completeFail lib r' rh q) :=
  simE_bind effect_success fun _ _ _ => ⟨_, rfl, rfl⟩

theorem effect_callbackFail (hp : r'.path = r.path) {rh n} {q : Request} :
    SimE SameEffect Eq (completeCallbackFail lib r rh q n) (completeCallbackFail lib r' rh q n) := by
  unfold completeCallbackFail
  rw [front_plog hp]
  exact simE_same effect_all fun _ => effect_fail

theorem effect_succeed {mode uri ps} : SimE SameEffect Eq (AuthResponse.success lib r mode uri ps >>= fun _ => pure true)
    (AuthResponse.success lib r' mode uri ps >>= fun _ => pure true) := simE_bind effect_success fun _ _ _ => ⟨_, rfl, rfl⟩

/-- The same inside `complete`. -/
macro "effectsC" hp:term : tactic => `(tactic| ((try dsimp only); repeat' first
    | exact effect_fail | exact effect_callbackFail $hp | exact effect_succeed
    | exact effect_self
    | (refine simE_same effect_all fun _ => ?_) | split))

theorem effect_complete (hp : r'.path = r.path) {rh info} {q : Request} :
    SimE SameEffect Eq (complete policy lib r rh info q) (complete policy lib r' rh info q) := by
  unfold complete completeCode completeImplicit completeHybrid
  effectsC hp

theorem effect_finish (hp : r'.path = r.path) {info} {q : Request} : SimE SameEffect (ExceptRel Eq)
    (finish policy lib r info q : AuthM α).run (finish policy lib r' info q : AuthM α).run :=
  effect_then (effect_lift (effect_complete hp)) fun _ => effect_xself

theorem effect_none (hp : r'.path = r.path) {q : Request} : SimE SameEffect (ExceptRel Eq)
    (noneComplete policy lib r q : AuthM α).run (noneComplete policy lib r' q : AuthM α).run := by
  unfold noneComplete
  repeat' first
    | exact effect_finish hp | exact effect_errorTo | exact effect_callback hp
    | (refine effect_step fun _ => ?_) | split

theorem effect_login (hp : r'.path = r.path) {q : Request} : SimE SameEffect (ExceptRel Eq)
    (requireLogin lib r q).run (requireLogin lib r' q).run := by
  unfold requireLogin
  effects hp

theorem effect_match (hp : r'.path = r.path) {q : Request} {sub desc} : SimE SameEffect (ExceptRel Eq)
    (requireMatch lib r q sub desc).run (requireMatch lib r' q sub desc).run := by
  unfold requireMatch
  effects hp

theorem effect_hint (hp : r'.path = r.path) {c : Client} {q : Request} : SimE SameEffect (ExceptRel Eq)
    (checkIdTokenHint lib r c q).run (checkIdTokenHint lib r' c q).run := by
  unfold checkIdTokenHint
  effects hp

theorem effect_promptNone (hp : r'.path = r.path) {c : Client} {q : Request} : SimE SameEffect (ExceptRel Eq)
    (promptNone policy lib r c q).run (promptNone policy lib r' c q).run := by
  unfold promptNone
  cases c.nonePromptPolicy with
  | forbidden =>
    dsimp only
    rw [front_alog hp]
    exact effect_step fun _ => effect_errorTo
  | allowWithLoginSession => exact effect_then (effect_login hp) fun _ => effect_none hp
  | allowIfLoginHintMatched =>
    dsimp only
    split
    · exact effect_errorTo
    · exact effect_then (effect_login hp) fun _ => effect_then (effect_match hp) fun _ => effect_none hp
  | allowIfIdTokenHintMatched =>
    exact effect_then (effect_hint hp) fun _ => effect_then (effect_match hp) fun _ => effect_none hp
  | other => exact effect_xself

theorem effect_decide (h : SameQuestion r r') {c : Client} {q : Request} : SimE SameEffect (ExceptRel Eq)
    (decideRequest policy lib r c q).run (decideRequest policy lib r' c q).run := by
  have hp := h.path
  have al : ∀ {lv ev ps}, AuthzEndpoint.alog lv r' ev ps = AuthzEndpoint.alog lv r ev ps := front_alog hp
  have k7 : r'.formValue b!"max_age" = r.formValue b!"max_age" := h.values _ (by decide +kernel)
  have rest : SimE SameEffect (ExceptRel Eq)
      (promptLogin lib r q >>= fun _ => checkAuthAge lib r q >>= fun _ => omitConsent policy lib r c q >>= fun _ =>
        showConsent lib r c q).run
      (promptLogin lib r' q >>= fun _ => checkAuthAge lib r' q >>= fun _ => omitConsent policy lib r' c q >>= fun _ =>
        showConsent lib r' c q).run := by
    refine effect_then ?_ fun _ => effect_then ?_ fun _ => effect_then ?_ fun _ => ?_
    · unfold promptLogin; simp only [al]; effects hp
    · unfold checkAuthAge; simp only [al, k7]; effects hp
    · unfold omitConsent
      repeat' first
        | exact effect_finish hp | exact effect_errorTo | exact effect_callback hp | exact effect_xself
        | (refine effect_step fun _ => ?_) | split
    · unfold showConsent; effects hp
  unfold decideRequest
  split
  · exact effect_then (effect_promptNone hp) fun _ => rest
  · refine effect_then ?_ fun _ => rest
    unfold confirmLogin; simp only [al]; effects hp

theorem effect_handle (h : SameQuestion r r') :
    SimE SameEffect Eq (handleRequest policy lib r) (handleRequest policy lib r') := by
  have key : SimE SameEffect (ExceptRel Eq) (handleRequestM policy lib r).run (handleRequestM policy lib r').run := by
    have e1 : ∀ r, handleRequestM policy lib r = (identify r >>= fun clnt =>
        buildRequest policy lib r clnt >>= fun req => decideRequest policy lib r clnt req) := fun _ => rfl
    have ei : identify r' = identify r :=
      front_identify h.path (h.values _ (by decide +kernel)) (h.values _ (by decide +kernel))
    rw [e1, e1, ei]
    exact effect_step fun c => effect_then (effect_build h) fun q => effect_decide h
  unfold handleRequest
  refine simE_bind key fun a b hab => ?_
  rw [exceptRel_eq] at hab
  subst hab
  exact effect_self

/-- C115, `HandleRequest`: whatever can happen on an authorization request can happen on any other request with the same
path and parameter values, whatever the methods and wherever the parameters are: the same calls with the same answers in
the same order, the same log lines, the same result, and redirects to the same places.  (The roles can be
exchanged.) -/
theorem C115_handle (h : SameQuestion r r') (hr : Runs (handleRequest policy lib r) t o) :
    ∃ t', Alongside SameEffect t t' ∧ Runs (handleRequest policy lib r') t' o := simE_runs_eq (effect_handle h) hr

/-- C115, `CompleteRequest` and `CancelRequest`: the same for any two requests with the same path. -/
theorem C115_decision (hp : r'.path = r.path) :
    (Runs (completeRequest policy lib r) t o → ∃ t', Alongside SameEffect t t' ∧ Runs (completeRequest policy lib r') t' o) ∧
    (Runs (cancelRequest lib r) t o → ∃ t', Alongside SameEffect t t' ∧ Runs (cancelRequest lib r') t' o) := by
  constructor
  · refine simE_runs_eq ?_
    unfold completeRequest
    rw [front_plog hp]
    repeat' first
      | exact effect_complete hp | exact effect_fail | exact effect_callbackFail hp | exact effect_self
      | (refine simE_same effect_all fun _ => ?_) | split
  · refine simE_runs_eq ?_
    unfold cancelRequest
    rw [front_plog hp]
    repeat' first
      | exact effect_self | exact effect_succeed
      | (refine simE_same effect_all fun _ => ?_) | split

/-- The parameters in the URL of a GET request and the same text as the form body of a POST request. -/
theorem sameQuestion_wire {wl : WireLib} {w w' : Wire} (hp : w'.path = w.path) (hg : w.method = b!"GET")
    (hm : ∀ ct, ContentType w.headers ct → wl.media ct ≠ .multipart)
    (hg' : w'.method = b!"POST") (hq : w'.rawQuery = []) (hb : w'.payload = w.rawQuery)
    (hl : w'.payload.length ≤ 10 * 1024 * 1024) (hf : ∀ ct, ContentType w'.headers ct → wl.media ct = .form) :
    SameQuestion (w.toReq wl) (w'.toReq wl) := by
  refine ⟨hp, fun n _ => ?_⟩
  have hs := (C109_seen (wl := wl) (w := w)).1 rfl
  have hs' := (C109_seen (wl := wl) (w := w')).1 rfl
  have hc := contentType_iff (wl := wl) (w := w) (ct := (w.toReq wl).header b!"Content-Type") |>.2 rfl
  have hc' := contentType_iff (wl := wl) (w := w') (ct := (w'.toReq wl).header b!"Content-Type") |>.2 rfl
  have m1 : (w.toReq wl).multipart = false := by
    cases h : (w.toReq wl).multipart
    · rfl
    · exact absurd ((hs.multipart _ hc).1 h) (hm _ hc)
  have m2 : (w'.toReq wl).multipart = false := by
    cases h : (w'.toReq wl).multipart
    · rfl
    · have := (hs'.multipart _ hc').1 h
      rw [hf _ hc'] at this
      cases this
  have q1 := C109_form_text.2 hs.query
  have q2 : (w'.toReq wl).query = [] := by
    rw [← C109_form_text.2 hs'.query, hq]
    decide +kernel
  have b2 := C109_form_text.2 (hs'.form _ hc' (hf _ hc') hl)
  have e1 : (w.toReq wl).formParams = parseQuery w.rawQuery := by
    unfold Req.formParams Req.bodyParams
    rw [m1, hs.method, hg, ← q1]
    have : ¬ ((false = true) ∨ b!"GET" = b!"POST" ∨ b!"GET" = b!"PUT" ∨ b!"GET" = b!"PATCH") := by decide +kernel
    rw [if_neg this]
    rfl
  have e2 : (w'.toReq wl).formParams = parseQuery w.rawQuery := by
    unfold Req.formParams Req.bodyParams
    rw [m2, hs'.method, hg', q2, ← b2, hb]
    simp
  unfold Req.formValue
  rw [e1, e2]

/-- C115, on the wire: an authorization request by GET with its parameters in the URL and one by POST with the same text as
its form body have the same effects. -/
theorem C115_get_post {wl : WireLib} {w w' : Wire} (hp : w'.path = w.path) (hg : w.method = b!"GET")
    (hm : ∀ ct, ContentType w.headers ct → wl.media ct ≠ .multipart)
    (hg' : w'.method = b!"POST") (hq : w'.rawQuery = []) (hb : w'.payload = w.rawQuery)
    (hl : w'.payload.length ≤ 10 * 1024 * 1024) (hf : ∀ ct, ContentType w'.headers ct → wl.media ct = .form) :
    (∀ t o, Runs (handleRequest policy lib (w.toReq wl)) t o →
      ∃ t', Alongside SameEffect t t' ∧ Runs (handleRequest policy lib (w'.toReq wl)) t' o) ∧
    (∀ t o, Runs (handleRequest policy lib (w'.toReq wl)) t o →
      ∃ t', Alongside SameEffect t t' ∧ Runs (handleRequest policy lib (w.toReq wl)) t' o) := by
  have h := sameQuestion_wire (wl := wl) hp hg hm hg' hq hb hl hf
  exact ⟨fun _ _ hr => C115_handle h hr,
    fun _ _ hr => C115_handle ⟨h.path.symm, fun n hn => (h.values n hn).symm⟩ hr⟩

/-- An authorization request on the wire, by GET. -/
def getWire : Wire :=
  { method := b!"GET", path := b!"/authorize", headers := [], payload := [],
    rawQuery := b!"client_id=client&redirect_uri=https%3A%2F%2Fapp%2Fcb&response_type=code&scope=openid" }

/-- The same by POST. -/
def postWire : Wire :=
  { method := b!"POST", path := b!"/authorize", rawQuery := [], payload := getWire.rawQuery,
    headers := [(b!"content-type", b!"application/x-www-form-urlencoded")] }

/-- Both are answered with a redirect, with a text for the GET request and without one for the POST request; without
an earlier consent both lead to the consent screen. -/
example : (∀ ct, ContentType getWire.headers ct → sampleWireLib.media ct ≠ .multipart) ∧
    (∀ ct, ContentType postWire.headers ct → sampleWireLib.media ct = .form) ∧ postWire.payload.length ≤ 10 * 1024 * 1024 ∧
    consentedWorld.status (handleRequest .default Sample.lib (getWire.toReq sampleWireLib)) = some 302 ∧
    consentedWorld.status (handleRequest .default Sample.lib (postWire.toReq sampleWireLib)) = some 302 ∧
    (consentedWorld.run (handleRequest .default Sample.lib (getWire.toReq sampleWireLib))).1.any
      (fun e => match e.q with | .write resp => resp.body ≠ [] | _ => false) = true ∧
    (consentedWorld.run (handleRequest .default Sample.lib (postWire.toReq sampleWireLib))).1.any
      (fun e => match e.q with | .write resp => resp.body = [] | _ => false) = true ∧
    (({} : Sample.World).run (handleRequest .default Sample.lib (postWire.toReq sampleWireLib))).1.any
      (fun e => match e.q with | .showConsentScreen _ _ => true | _ => false) = true := by
  refine ⟨fun ct h => ?_, fun ct h => ?_, by decide +kernel, by decide +kernel, by decide +kernel, by decide +kernel, by decide +kernel,
    by decide +kernel⟩
  · rw [contentType_iff (wl := sampleWireLib)] at h
    subst h
    decide +kernel
  · rw [contentType_iff (wl := sampleWireLib)] at h
    subst h
    decide +kernel

/-- A redirect to another place, or with another header, is not the same effect. -/
example : ¬ SameEffect (wrote (AuthResponse.redirectResp (authGet []) b!"https://app/cb?code=a"))
    (wrote (AuthResponse.redirectResp (authGet []) b!"https://app/cb?code=b")) := by
  rintro (h | ⟨p, a, b, h1, h2, ⟨-, h3⟩, -, h4⟩)
  · injection h with h
    injection h with h
    exact absurd h (by decide +kernel)
  · injection h1 with h1
    injection h1 with h1
    injection h2 with h2
    injection h2 with h2
    subst h1 h2
    have := h3.trans h4.symm
    exact absurd this (by decide +kernel)

end Goidc.Props
