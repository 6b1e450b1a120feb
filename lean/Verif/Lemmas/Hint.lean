import Verif.Lemmas.AuthFacts
import Verif.Lemmas.TokenEndpoint

/-! # What happens after an `id_token_hint` was read -/

namespace Goidc

open Spec AuthzEndpoint

/-- The JWT library read the wall clock. -/
def Query.isWall : Query → Bool
  | .wallNow => true
  | _ => false

/-- Not that. -/
abbrev NoWall (q : Query) : Prop := q.isWall = false

variable {policy : Policy} {lib : Lib} {r : Req} {clnt : Client} {req : Request} {α : Type}

theorem nwl_redirectTo {ty uri ps} : AllQ NoWall (AuthResponse.redirectTo lib r ty uri ps) := by
  unfold AuthResponse.redirectTo AuthResponse.connector
  refine allQ_bind' ?_ fun _ => allQ_ask rfl
  split
  · trivial
  · split <;> trivial

theorem nwl_success {mode uri ps} : AllQ NoWall (AuthResponse.success lib r mode uri ps) := by
  unfold AuthResponse.success
  split
  · exact nwl_redirectTo
  · split
    · exact nwl_redirectTo
    · split
      · exact allQ_bind' (allQ_ask rfl) fun _ => allQ_ask rfl
      · exact nwl_redirectTo

theorem nwl_aask {q : Query} (h : NoWall q) : AllQ NoWall (aask q).run := allQ_xlift (allQ_ask h)
theorem nwl_alog {lv ev ps} : AllQ NoWall (alog lv r ev ps).run := allQ_xlift (allQ_ask rfl)
theorem nwl_showError {n} : AllQ NoWall (showError n : AuthM α).run := allQ_xbind (nwl_aask rfl) fun _ => trivial
theorem nwl_errorTo {mode ruri typ desc state} : AllQ NoWall (errorTo lib r mode ruri typ desc state : AuthM α).run :=
  allQ_xbind (allQ_xlift nwl_success) fun _ => trivial
theorem nwl_callbackFailed {mode ruri state m} : AllQ NoWall (callbackFailed lib r mode ruri state m : AuthM α).run :=
  allQ_xbind nwl_alog fun _ => nwl_errorTo

/-- Close goals about programs that never ask it. -/
macro "nwl" : tactic => `(tactic| repeat' first
  | with_reducible exact nwl_errorTo | with_reducible exact nwl_callbackFailed
  | with_reducible exact nwl_showError | with_reducible exact nwl_alog | with_reducible exact allQ_xpure
  | with_reducible exact allQ_xthrow | with_reducible exact nwl_aask rfl
  | (with_reducible refine allQ_xbind ?_ fun _ => ?_) | split | dsimp only | exact allQ_panic)

theorem nwl_identify : AllQ NoWall (identify r).run := by
  have hf : AllQ NoWall (findClient r (r.formValue b!"client_id")).run := by
    unfold findClient
    refine allQ_xbind (nwl_aask rfl) fun x => ?_
    rcases x with ⟨_ | c, _ | _ | _ | _ | n⟩ <;> dsimp only <;> nwl
  unfold identify
  dsimp only
  split
  · nwl
  · split
    · nwl
    · refine allQ_xbind hf fun _ => ?_
      nwl

theorem nwl_buildRequest : AllQ NoWall (buildRequest policy lib r clnt).run := by
  unfold buildRequest
  dsimp only
  refine allQ_xbind (by unfold judgeFlow; nwl) fun _ => ?_
  refine allQ_xbind (by unfold pickMode; nwl) fun _ => ?_
  refine allQ_xbind (by unfold checkModeLevel; nwl) fun _ => ?_
  refine allQ_xbind (by unfold checkFlow; nwl) fun _ => ?_
  refine allQ_xbind (by unfold checkDisplay; nwl) fun _ => ?_
  refine allQ_xbind (by unfold checkMaxAge; nwl) fun _ => ?_
  refine allQ_xbind (by unfold checkPrompt; nwl) fun _ => ?_
  refine allQ_xbind (by unfold offlineScope; nwl) fun _ => ?_
  refine allQ_xbind (by unfold checkScope; nwl) fun _ => ?_
  refine allQ_xbind (by unfold checkNonce; nwl) fun _ => ?_
  refine allQ_xbind (by unfold checkVerifier; nwl) fun _ => ?_
  refine allQ_xbind (by unfold chooseLocale; nwl) fun _ => ?_
  nwl

theorem nwl_complete {rh info} : AllQ NoWall (complete policy lib r rh info req) := by
  refine allQ_of_runs fun t o h e he => ?_
  have hw : ∀ {t}, Work t → ∀ e ∈ t, NoWall e.q := by
    intro t hw e he
    have := hw e he
    cases e with | mk q r => cases q <;> first | rfl | simp [Query.isWork] at this
  have hs : ∀ {t resp}, SentTrace t resp → ∀ e ∈ t, NoWall e.q := by
    rintro t resp (rfl | ⟨m, l, rfl⟩) e he
    · obtain rfl : e = wrote resp := by simpa using he
      rfl
    · rcases List.mem_cons.1 he with rfl | he
      · rfl
      · obtain rfl : e = wrote resp := by simpa using he
        rfl
  rcases complete_runs h with ⟨_, h1, _⟩ | ⟨_, rfl, _⟩ | ⟨_, t1, t2, resp, rfl, h1, h2, _⟩ | ⟨_, f, t1, t2, ps, resp, _, rfl, h1, _, h2, _⟩
  · exact hw h1 e he
  · simp at he
  · rcases List.mem_append.1 he with he | he
    · exact hw h1 e he
    · exact hs h2 e he
  · rcases List.mem_append.1 he with he | he
    · exact hw h1 e he
    · exact hs h2 e he

theorem nwl_finish {info} : AllQ NoWall (finish policy lib r info req : AuthM α).run :=
  allQ_xbind (allQ_xlift nwl_complete) fun _ => trivial

theorem nwl_consentCovers {info} : AllQ NoWall (consentCovers policy info req).run := by
  unfold consentCovers; nwl

theorem nwl_noneComplete : AllQ NoWall (noneComplete policy lib r req : AuthM α).run := by
  unfold noneComplete
  refine allQ_xbind (nwl_aask rfl) fun x => ?_
  cases x with
  | none => nwl
  | some uid =>
    refine allQ_xbind (nwl_aask rfl) fun x => ?_
    rcases x with ⟨_ | info, _ | _ | _ | _ | n⟩ <;> dsimp only
    case some.none =>
      refine allQ_xbind nwl_consentCovers fun b => ?_
      cases b
      · exact nwl_errorTo
      · exact nwl_finish
    all_goals nwl

theorem nwl_checkAuthAge : AllQ NoWall (checkAuthAge lib r req).run := by unfold checkAuthAge; nwl

theorem nwl_confirmLogin : AllQ NoWall (confirmLogin lib r req).run := by unfold confirmLogin; nwl

theorem nwl_omitConsent : AllQ NoWall (omitConsent policy lib r clnt req).run := by
  unfold omitConsent
  split
  · trivial
  · split
    · refine allQ_xbind (nwl_aask rfl) fun x => ?_
      cases x with
      | none => nwl
      | some uid =>
        refine allQ_xbind (nwl_aask rfl) fun x => ?_
        rcases x with ⟨_ | info, _ | _ | _ | _ | n⟩ <;> dsimp only
        case some.none =>
          refine allQ_xbind nwl_consentCovers fun b => ?_
          cases b
          · trivial
          · exact nwl_finish
        all_goals nwl
    · trivial
    · trivial

theorem nwl_showConsent : AllQ NoWall (showConsent lib r clnt req).run := by unfold showConsent; nwl

theorem nwl_promptLogin : AllQ NoWall (promptLogin lib r req).run := by unfold promptLogin; nwl
theorem nwl_requireLogin : AllQ NoWall (requireLogin lib r req).run := by unfold requireLogin; nwl
theorem nwl_requireMatch {s d} : AllQ NoWall (requireMatch lib r req s d).run := by unfold requireMatch; nwl

/-- In a run that read the clock within `W`, the application was asked about `sub`. -/
def HintFollows (W : Int64 → Prop) (sub : GoStr) (t : List Event) : Prop :=
  ∀ w, W w → ⟨.wallNow, w⟩ ∈ t → ∃ x, ⟨.loginUserIsMatchedToSubject sub, x⟩ ∈ t

variable {W : Int64 → Prop} {sub : GoStr}

theorem hintFollows_append {s t : List Event} (h1 : HintFollows W sub s) (h2 : HintFollows W sub t) :
    HintFollows W sub (s ++ t) := by
  intro w hw hm
  rcases List.mem_append.1 hm with h | h
  · obtain ⟨x, hx⟩ := h1 w hw h; exact ⟨x, List.mem_append_left _ hx⟩
  · obtain ⟨x, hx⟩ := h2 w hw h; exact ⟨x, List.mem_append_right _ hx⟩

theorem hintFollows_of_nwl {t : List Event} (h : ∀ e ∈ t, NoWall e.q) : HintFollows W sub t := by
  intro w _ hm
  have := h _ hm
  simp [NoWall, Query.isWall] at this

theorem ah_of_nwl {p : AuthM α} (h : AllQ NoWall p.run) :
    AH p (fun t _ => HintFollows W sub t) (fun t _ => HintFollows W sub t) :=
  ⟨fun h' => hintFollows_of_nwl (allQ_runs h h'), fun h' => hintFollows_of_nwl (allQ_runs h h'),
    fun h' => hintFollows_of_nwl (allQ_runs h h')⟩

theorem ah_follows_bind {β : Type} {p : AuthM α} {f : α → AuthM β}
    (hp : AH p (fun t _ => HintFollows W sub t) (fun t _ => HintFollows W sub t))
    (hf : ∀ a, AH (f a) (fun t _ => HintFollows W sub t) (fun t _ => HintFollows W sub t)) :
    AH (p >>= f) (fun t _ => HintFollows W sub t) (fun t _ => HintFollows W sub t) :=
  ah_bind hp fun _ a h1 => ah_conseq (hf a) (fun _ _ h2 => hintFollows_append h1 h2)
    (fun _ _ h2 => hintFollows_append h1 h2)

/-- What the JWT library makes of the hint: it decodes to a token with a registered algorithm, the wanted
subject and an expiry, and at any time in `W` verifies under the client's key. -/
structure GoodHint (lib : Lib) (clnt : Client) (hint : GoStr) (W : Int64 → Prop) (sub : GoStr) : Prop where
  decodes : ∃ tk, lib.jwtDecode hint = some tk ∧ (tk.alg.bind Jwt.family).isSome = true ∧
    (Assertion.numClaim (tk.claim b!"exp")).isSome = true ∧ tk.claimStr b!"sub" = some sub ∧
    Jwt.verifies lib (tk.alg.getD []) hint (clnt.idTokenKey.getD (.other [])) = true ∧
    ∀ w, W w → Jwt.expOk w (tk.claim b!"exp") = true ∧ Jwt.notBeforeOk w (tk.claim b!"iat") = true ∧
      Jwt.notBeforeOk w (tk.claim b!"nbf") = true

theorem hintParse_good {hint : GoStr} (hg : GoodHint lib clnt hint W sub) {t o}
    (h : Runs (Jwt.parse lib hint () (hintKeyFunc clnt)) t o) :
    ∃ w, t = [⟨.wallNow, w⟩] ∧ (W w → ∃ tk n, o = .ok (some tk, none, ()) ∧
      Assertion.numClaim (tk.claim b!"exp") = some n ∧ tk.claimStr b!"sub" = some sub) := by
  obtain ⟨tk, hd, hfam, hexp, hsub, hver, hwin⟩ := hg.decodes
  obtain ⟨fam, hfam⟩ := Option.isSome_iff_exists.1 hfam
  obtain ⟨n, hexp⟩ := Option.isSome_iff_exists.1 hexp
  unfold Jwt.parse at h
  rw [hd] at h
  dsimp only at h
  rw [hfam] at h
  dsimp only at h
  unfold hintKeyFunc at h
  replace h : Runs ((ask .wallNow).bind _) t o := h
  replace h := runs_bind_ask.1 h
  obtain ⟨now, t1, rfl, h⟩ := h
  dsimp only at h
  obtain ⟨rfl, rfl⟩ := h
  refine ⟨now, rfl, fun hw => ⟨tk, n, ?_, hexp, hsub⟩⟩
  obtain ⟨h1, h2, h3⟩ := hwin now hw
  simp [Jwt.VErr.none?, hver, h1, h2, h3]

theorem ah_hint_good (hg : GoodHint lib clnt req.idTokenHint W sub) :
    AH (checkIdTokenHint lib r clnt req) (fun t s => (∃ w, ⟨.wallNow, w⟩ ∈ t ∧ W w) → s = sub)
      (fun t _ => ∀ w, ⟨.wallNow, w⟩ ∈ t → ¬ W w) := by
  unfold checkIdTokenHint
  dsimp only
  have hbad : ∀ {α : Type} {desc : GoStr} {Ok : List Event → α → Prop} {t1 : List Event},
      (∀ w, ⟨.wallNow, w⟩ ∈ t1 → ¬ W w) → AH (errorTo lib r req.responseMode req.redirectURI b!"invalid_request" desc req.state : AuthM α)
      Ok (fun t _ => ∀ w, ⟨.wallNow, w⟩ ∈ t1 ++ t → ¬ W w) := by
    intro α desc Ok t1 ht1
    have hn : ∀ {t o}, Runs (errorTo lib r req.responseMode req.redirectURI b!"invalid_request" desc req.state : AuthM α).run t o →
        ∀ w, ⟨.wallNow, w⟩ ∈ t1 ++ t → ¬ W w := by
      intro t o h w hm
      rcases List.mem_append.1 hm with hm | hm
      · exact ht1 w hm
      · have := allQ_runs (nwl_errorTo (lib := lib) (r := r)) h _ hm
        simp [NoWall, Query.isWall] at this
    refine ⟨fun h => ?_, fun h => hn h, fun h => hn h⟩
    exact ((ah_errorTo (Ok := fun _ _ => False) (types := [b!"invalid_request"]) (by simp)).ok h).elim
  split
  · exact hbad (t1 := []) (by simp)
  · refine ah_bind (Ok := fun t (x : Option JwtToken × Option Jwt.VErr × Unit) => ∃ w, t = [⟨.wallNow, w⟩] ∧
      (W w → ∃ tk n, x = (some tk, none, ()) ∧ Assertion.numClaim (tk.claim b!"exp") = some n ∧
        tk.claimStr b!"sub" = some sub)) (ah_lift ?_ ?_) ?_
    · intro t a h
      obtain ⟨w, rfl, h2⟩ := hintParse_good hg h
      refine ⟨w, rfl, fun hw => ?_⟩
      obtain ⟨tk, n, h3, h4⟩ := h2 hw
      injection h3 with h3
      exact ⟨tk, n, h3, h4⟩
    · intro t h w hm hw
      obtain ⟨w', rfl, h2⟩ := hintParse_good hg h
      obtain rfl : w = w' := by simpa using hm
      obtain ⟨_, _, h3, _⟩ := h2 hw
      cases h3
    · rintro t1 x ⟨w, rfl, hx⟩
      rcases Classical.em (W w) with hw | hw
      · obtain ⟨tk, n, rfl, h1, h2⟩ := hx hw
        dsimp only
        rw [h1, h2]
        exact ah_pure fun _ => rfl
      · have hno : ∀ w', (⟨.wallNow, w'⟩ : Event) ∈ [(⟨.wallNow, w⟩ : Event)] → ¬ W w' := by
          intro w' hm
          obtain rfl : w' = w := by simpa using hm
          exact hw
        have hp : ∀ s : GoStr, AH (pure s : AuthM GoStr)
            (fun t s => (∃ w', ⟨.wallNow, w'⟩ ∈ [(⟨.wallNow, w⟩ : Event)] ++ t ∧ W w') → s = sub)
            (fun t _ => ∀ w', ⟨.wallNow, w'⟩ ∈ [(⟨.wallNow, w⟩ : Event)] ++ t → ¬ W w') := by
          intro s
          refine ah_pure ?_
          rintro ⟨w', hm, hw'⟩
          exact absurd hw' (hno w' (by simpa using hm))
        split
        · exact hbad hno
        · exact ah_apanic (by simpa using hno)
        · split
          · exact hbad hno
          · split
            · exact hbad hno
            · exact hp _

theorem ah_hint_match {d : GoStr} (hg : GoodHint lib clnt req.idTokenHint W sub) :
    AH (do let s ← checkIdTokenHint lib r clnt req
           requireMatch lib r req s d
           noneComplete policy lib r req : AuthM α)
      (fun t _ => HintFollows W sub t) (fun t _ => HintFollows W sub t) := by
  refine ah_bind (ah_conseq (ah_hint_good hg) (fun _ _ h => h) (fun t o h w hw hm => absurd hw (h w hm))) ?_
  intro t1 s hs
  have hrest : AH (do requireMatch lib r req s d
                      noneComplete policy lib r req : AuthM α)
      (fun t _ => (∃ x, ⟨.loginUserIsMatchedToSubject s, x⟩ ∈ t) ∧ ∀ w, ⟨.wallNow, w⟩ ∉ t)
      (fun t _ => (∃ x, ⟨.loginUserIsMatchedToSubject s, x⟩ ∈ t) ∧ ∀ w, ⟨.wallNow, w⟩ ∉ t) := by
    have hn : AllQ NoWall (do requireMatch lib r req s d
                              noneComplete policy lib r req : AuthM α).run :=
      allQ_xbind nwl_requireMatch fun _ => nwl_noneComplete
    have hm : AH (do requireMatch lib r req s d
                     noneComplete policy lib r req : AuthM α)
        (fun t _ => ∃ x, ⟨.loginUserIsMatchedToSubject s, x⟩ ∈ t)
        (fun t _ => ∃ x, ⟨.loginUserIsMatchedToSubject s, x⟩ ∈ t) := by
      have hany : ∀ {β : Type} (p : AuthM β) (x : Option Bool),
          AH p (fun t _ => ∃ y, ⟨.loginUserIsMatchedToSubject s, y⟩ ∈ (⟨.loginUserIsMatchedToSubject s, x⟩ : Event) :: t)
            (fun t _ => ∃ y, ⟨.loginUserIsMatchedToSubject s, y⟩ ∈ (⟨.loginUserIsMatchedToSubject s, x⟩ : Event) :: t) :=
        fun p x => ⟨fun _ => ⟨x, by simp⟩, fun _ => ⟨x, by simp⟩, fun _ => ⟨x, by simp⟩⟩
      refine ah_bind (Ok := fun t _ => ∃ x, ⟨.loginUserIsMatchedToSubject s, x⟩ ∈ t) ?_ ?_
      · unfold requireMatch
        exact ah_ask_bind fun x => hany _ x
      · rintro t1 _ ⟨x, hx⟩
        exact ⟨fun _ => ⟨x, by simp [hx]⟩, fun _ => ⟨x, by simp [hx]⟩, fun _ => ⟨x, by simp [hx]⟩⟩
    have hw : ∀ {t o}, Runs (do requireMatch lib r req s d
                                noneComplete policy lib r req : AuthM α).run t o → ∀ w, ⟨.wallNow, w⟩ ∉ t := by
      intro t o h w hm
      have := allQ_runs hn h _ hm
      simp [NoWall, Query.isWall] at this
    exact ⟨fun h => ⟨hm.ok h, hw h⟩, fun h => ⟨hm.err h, hw h⟩, fun h => ⟨hm.panic h, hw h⟩⟩
  have hcomb : ∀ t2, ((∃ x, ⟨.loginUserIsMatchedToSubject s, x⟩ ∈ t2) ∧ ∀ w, ⟨.wallNow, w⟩ ∉ t2) →
      HintFollows W sub (t1 ++ t2) := by
    rintro t2 ⟨⟨x, hx⟩, hn⟩ w hw hm
    rcases List.mem_append.1 hm with hm | hm
    · obtain rfl := hs ⟨w, hm, hw⟩
      exact ⟨x, by simp [hx]⟩
    · exact absurd hm (hn w)
  exact ah_conseq hrest (fun t _ h => hcomb t h) (fun t _ h => hcomb t h)

theorem ah_handleRequestM_hint : AH (handleRequestM policy lib r)
    (fun t _ => (∀ c e, ⟨.findClientById (r.formValue b!"client_id"), (some c, e)⟩ ∈ t →
      GoodHint lib c (r.formValue b!"id_token_hint") W sub) → HintFollows W sub t)
    (fun t _ => (∀ c e, ⟨.findClientById (r.formValue b!"client_id"), (some c, e)⟩ ∈ t →
      GoodHint lib c (r.formValue b!"id_token_hint") W sub) → HintFollows W sub t) := by
  unfold handleRequestM
  have hid : AH (identify r) (fun t c => Identified r c t ∧ HintFollows W sub t) (fun t _ => HintFollows W sub t) :=
    have h1 := ah_identify r
    have h2 := ah_of_nwl (W := W) (sub := sub) (nwl_identify (r := r))
    ⟨fun h => ⟨h1.ok h, h2.ok h⟩, fun h => h2.err h, fun h => h2.panic h⟩
  refine ah_bind (ah_conseq hid (fun _ _ h => h) (fun _ _ h _ => h)) ?_
  rintro t1 clnt ⟨hi, hf1⟩
  have hmem : ∃ e, ⟨.findClientById (r.formValue b!"client_id"), (some clnt, e)⟩ ∈ t1 := by
    obtain ⟨_, _, _, rfl | ⟨n, rfl⟩⟩ := hi
    · exact ⟨none, by simp⟩
    · exact ⟨some (.other n), by simp⟩
  obtain ⟨e, hmem⟩ := hmem
  rcases Classical.em (GoodHint lib clnt (r.formValue b!"id_token_hint") W sub) with hg | hg
  · have hbr : AH (buildRequest policy lib r clnt) (fun t q => q.idTokenHint = r.formValue b!"id_token_hint" ∧ HintFollows W sub t)
        (fun t _ => HintFollows W sub t) :=
      have h1 := ah_buildRequest (policy := policy) (lib := lib) (r := r) (clnt := clnt)
      have h2 := ah_of_nwl (W := W) (sub := sub) (nwl_buildRequest (policy := policy) (lib := lib) (r := r) (clnt := clnt))
      ⟨fun h => ⟨by obtain ⟨_, f, hb⟩ := h1.ok h; exact hb.idTokenHint, h2.ok h⟩, fun h => h2.err h, fun h => h2.panic h⟩
    refine ah_conseq (Ok := fun t _ => HintFollows W sub t) (Bad := fun t _ => HintFollows W sub t) ?_
      (fun _ _ h _ => hintFollows_append hf1 h) (fun _ _ h _ => hintFollows_append hf1 h)
    refine ah_bind hbr ?_
    rintro t2 req ⟨hreq, hf2⟩
    refine ah_conseq (Ok := fun t _ => HintFollows W sub t) (Bad := fun t _ => HintFollows W sub t) ?_
      (fun _ _ h => hintFollows_append hf2 h) (fun _ _ h => hintFollows_append hf2 h)
    have tail : AH (do promptLogin lib r req
                       checkAuthAge lib r req
                       omitConsent policy lib r clnt req
                       showConsent lib r clnt req) (fun t _ => HintFollows W sub t) (fun t _ => HintFollows W sub t) :=
      ah_follows_bind (ah_of_nwl nwl_promptLogin) fun _ => ah_follows_bind (ah_of_nwl nwl_checkAuthAge) fun _ =>
        ah_follows_bind (ah_of_nwl nwl_omitConsent) fun _ => ah_of_nwl nwl_showConsent
    dsimp only
    split
    · refine ah_follows_bind ?_ fun _ => tail
      unfold promptNone
      split
      · exact ah_of_nwl (by nwl)
      · exact ah_of_nwl (allQ_xbind nwl_requireLogin fun _ => nwl_noneComplete)
      · split
        · exact ah_of_nwl (by nwl)
        · exact ah_of_nwl (allQ_xbind nwl_requireLogin fun _ => allQ_xbind nwl_requireMatch fun _ => nwl_noneComplete)
      · exact ah_hint_match (hreq ▸ hg)
      · exact ah_of_nwl allQ_xpure
    · exact ah_follows_bind (ah_of_nwl nwl_confirmLogin) fun _ => tail
  · have hno : ∀ t : List Event, ¬ ∀ c e, ⟨.findClientById (r.formValue b!"client_id"), (some c, e)⟩ ∈ t1 ++ t →
        GoodHint lib c (r.formValue b!"id_token_hint") W sub :=
      fun t h => hg (h clnt e (by simp [hmem]))
    exact ⟨fun _ h => absurd h (hno _), fun _ h => absurd h (hno _), fun _ h => absurd h (hno _)⟩

theorem handleRequest_hint {t o} (h : Runs (handleRequest policy lib r) t o)
    (hg : ∀ c e, ⟨.findClientById (r.formValue b!"client_id"), (some c, e)⟩ ∈ t →
      GoodHint lib c (r.formValue b!"id_token_hint") W sub) : HintFollows W sub t := by
  unfold handleRequest at h
  rw [Prog.bind_eq] at h
  rcases runs_bind.1 h with ⟨x, t1, t2, rfl, h1, h2⟩ | ⟨h1, rfl⟩
  · cases x with
    | ok b =>
      obtain ⟨rfl, rfl⟩ := h2
      rw [List.append_nil] at hg ⊢
      exact ah_handleRequestM_hint.ok h1 hg
    | error b =>
      obtain ⟨rfl, rfl⟩ := h2
      rw [List.append_nil] at hg ⊢
      exact ah_handleRequestM_hint.err h1 hg
  · exact ah_handleRequestM_hint.panic h1 hg

end Goidc
