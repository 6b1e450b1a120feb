import Verif.Lemmas.AuthFacts
import Verif.Lemmas.TokenEndpoint

/-! # `RequestIsFromLogin` answered no: the login screen follows -/

namespace Goidc

open Spec AuthzEndpoint

/-- The callback that tells whether the user just logged in. -/
def Query.isFromLogin : Query → Bool
  | .requestIsFromLogin => true
  | _ => false

/-- Not that callback. -/
abbrev NFL (q : Query) : Prop := q.isFromLogin = false

variable {policy : Policy} {lib : Lib} {r : Req} {clnt : Client} {req : Request} {α : Type}

theorem nfl_redirectTo {ty uri ps} : AllQ NFL (AuthResponse.redirectTo lib r ty uri ps) := by
  unfold AuthResponse.redirectTo AuthResponse.connector
  refine allQ_bind' ?_ fun _ => allQ_ask rfl
  split
  · trivial
  · split <;> trivial

theorem nfl_success {mode uri ps} : AllQ NFL (AuthResponse.success lib r mode uri ps) := by
  unfold AuthResponse.success
  split
  · exact nfl_redirectTo
  · split
    · exact nfl_redirectTo
    · split
      · exact allQ_bind' (allQ_ask rfl) fun _ => allQ_ask rfl
      · exact nfl_redirectTo

theorem nfl_aask {q : Query} (h : NFL q) : AllQ NFL (aask q).run := allQ_xlift (allQ_ask h)
theorem nfl_alog {lv ev ps} : AllQ NFL (alog lv r ev ps).run := allQ_xlift (allQ_ask rfl)
theorem nfl_showError {n} : AllQ NFL (showError n : AuthM α).run := allQ_xbind (nfl_aask rfl) fun _ => trivial
theorem nfl_errorTo {mode ruri typ desc state} : AllQ NFL (errorTo lib r mode ruri typ desc state : AuthM α).run :=
  allQ_xbind (allQ_xlift nfl_success) fun _ => trivial
theorem nfl_callbackFailed {mode ruri state m} : AllQ NFL (callbackFailed lib r mode ruri state m : AuthM α).run :=
  allQ_xbind nfl_alog fun _ => nfl_errorTo

/-- Close goals about programs that never ask it. -/
macro "nfl" : tactic => `(tactic| repeat' first
  | with_reducible exact nfl_errorTo | with_reducible exact nfl_callbackFailed
  | with_reducible exact nfl_showError | with_reducible exact nfl_alog | with_reducible exact allQ_xpure
  | with_reducible exact allQ_xthrow | with_reducible exact nfl_aask rfl
  | (with_reducible refine allQ_xbind ?_ fun _ => ?_) | split | dsimp only | exact allQ_panic)

theorem nfl_identify : AllQ NFL (identify r).run := by
  have hf : AllQ NFL (findClient r (r.formValue b!"client_id")).run := by
    unfold findClient
    refine allQ_xbind (nfl_aask rfl) fun x => ?_
    rcases x with ⟨_ | c, _ | _ | _ | _ | n⟩ <;> dsimp only <;> nfl
  unfold identify
  dsimp only
  split
  · nfl
  · split
    · nfl
    · refine allQ_xbind hf fun _ => ?_
      nfl

theorem nfl_buildRequest : AllQ NFL (buildRequest policy lib r clnt).run := by
  unfold buildRequest
  dsimp only
  refine allQ_xbind (by unfold judgeFlow; nfl) fun _ => ?_
  refine allQ_xbind (by unfold pickMode; nfl) fun _ => ?_
  refine allQ_xbind (by unfold checkModeLevel; nfl) fun _ => ?_
  refine allQ_xbind (by unfold checkFlow; nfl) fun _ => ?_
  refine allQ_xbind (by unfold checkDisplay; nfl) fun _ => ?_
  refine allQ_xbind (by unfold checkMaxAge; nfl) fun _ => ?_
  refine allQ_xbind (by unfold checkPrompt; nfl) fun _ => ?_
  refine allQ_xbind (by unfold offlineScope; nfl) fun _ => ?_
  refine allQ_xbind (by unfold checkScope; nfl) fun _ => ?_
  refine allQ_xbind (by unfold checkNonce; nfl) fun _ => ?_
  refine allQ_xbind (by unfold checkVerifier; nfl) fun _ => ?_
  refine allQ_xbind (by unfold chooseLocale; nfl) fun _ => ?_
  nfl

theorem nfl_complete {rh info} : AllQ NFL (complete policy lib r rh info req) := by
  refine allQ_of_runs fun t o h e he => ?_
  have hw : ∀ {t}, Work t → ∀ e ∈ t, NFL e.q := by
    intro t hw e he
    have := hw e he
    cases e with | mk q r => cases q <;> first | rfl | simp [Query.isWork] at this
  have hs : ∀ {t resp}, SentTrace t resp → ∀ e ∈ t, NFL e.q := by
    rintro t resp (rfl | ⟨m, l, rfl⟩) e he
    · obtain rfl : e = wrote resp := by simpa using he
      rfl
    · rcases List.mem_cons.1 he with rfl | he
      · rfl
      · obtain rfl : e = wrote resp := by simpa using he
        rfl
  rcases complete_runs h with ⟨_, h1, _⟩ | ⟨_, rfl, _⟩ | ⟨_, t1, t2, resp, rfl, h1, h2, _⟩ | ⟨_, f, t1, t2, ps, resp, _, rfl, h1, _, h2, _⟩
  · exact hw h1 e he
  · simp at he
  · rcases List.mem_append.1 he with he | he
    · exact hw h1 e he
    · exact hs h2 e he
  · rcases List.mem_append.1 he with he | he
    · exact hw h1 e he
    · exact hs h2 e he

theorem nfl_finish {info} : AllQ NFL (finish policy lib r info req : AuthM α).run :=
  allQ_xbind (allQ_xlift nfl_complete) fun _ => trivial

theorem nfl_consentCovers {info} : AllQ NFL (consentCovers policy info req).run := by
  unfold consentCovers; nfl

theorem nfl_noneComplete : AllQ NFL (noneComplete policy lib r req : AuthM α).run := by
  unfold noneComplete
  refine allQ_xbind (nfl_aask rfl) fun x => ?_
  cases x with
  | none => nfl
  | some uid =>
    refine allQ_xbind (nfl_aask rfl) fun x => ?_
    rcases x with ⟨_ | info, _ | _ | _ | _ | n⟩ <;> dsimp only
    case some.none =>
      refine allQ_xbind nfl_consentCovers fun b => ?_
      cases b
      · exact nfl_errorTo
      · exact nfl_finish
    all_goals nfl

theorem nfl_promptNone : AllQ NFL (promptNone policy lib r clnt req).run := by
  have h1 : AllQ NFL (requireLogin lib r req).run := by unfold requireLogin; nfl
  have h2 : ∀ {s d}, AllQ NFL (requireMatch lib r req s d).run := by intro s d; unfold requireMatch; nfl
  unfold promptNone
  split
  · nfl
  · exact allQ_xbind h1 fun _ => nfl_noneComplete
  · split
    · nfl
    · exact allQ_xbind h1 fun _ => allQ_xbind h2 fun _ => nfl_noneComplete
  · refine allQ_xbind ?_ fun _ => allQ_xbind h2 fun _ => nfl_noneComplete
    unfold checkIdTokenHint
    dsimp only
    split
    · nfl
    · refine allQ_xbind (allQ_xlift (allQ_parse (P := NFL) rfl fun t => (by unfold hintKeyFunc; exact allQ_ret))) fun x => ?_
      nfl
  · trivial

theorem nfl_checkAuthAge : AllQ NFL (checkAuthAge lib r req).run := by unfold checkAuthAge; nfl

theorem nfl_confirmLogin : AllQ NFL (confirmLogin lib r req).run := by unfold confirmLogin; nfl

theorem nfl_omitConsent : AllQ NFL (omitConsent policy lib r clnt req).run := by
  unfold omitConsent
  split
  · trivial
  · split
    · refine allQ_xbind (nfl_aask rfl) fun x => ?_
      cases x with
      | none => nfl
      | some uid =>
        refine allQ_xbind (nfl_aask rfl) fun x => ?_
        rcases x with ⟨_ | info, _ | _ | _ | _ | n⟩ <;> dsimp only
        case some.none =>
          refine allQ_xbind nfl_consentCovers fun b => ?_
          cases b
          · trivial
          · exact nfl_finish
        all_goals nfl
    · trivial
    · trivial

theorem nfl_showConsent : AllQ NFL (showConsent lib r clnt req).run := by unfold showConsent; nfl

/-- The user did not just log in. -/
def Denied (t : List Event) : Prop := ⟨.requestIsFromLogin, some false⟩ ∈ t

/-- If so, the run ends with the login screen and returns false. -/
def LoginFollows (t : List Event) (o : Outcome Bool) : Prop :=
  Denied t → o = .ok false ∧ ∃ pre req b, t = pre ++ [⟨.showLoginScreen req, b⟩]

theorem denied_append {s t : List Event} : Denied (s ++ t) ↔ Denied s ∨ Denied t := by simp [Denied]

theorem not_denied_of_nfl {t : List Event} (h : ∀ e ∈ t, NFL e.q) : ¬ Denied t := by
  intro hd
  have := h _ hd
  simp [NFL, Query.isFromLogin] at this

theorem ah_of_nfl {p : AuthM α} (h : AllQ NFL p.run) : AH p (fun t _ => ¬ Denied t) LoginFollows := by
  refine ⟨fun h' => ?_, fun h' hd => ?_, fun h' hd => ?_⟩
  · exact not_denied_of_nfl (allQ_runs h h')
  · exact absurd hd (not_denied_of_nfl (allQ_runs h h'))
  · exact absurd hd (not_denied_of_nfl (allQ_runs h h'))

theorem ah_denied_bind {β : Type} {p : AuthM α} {f : α → AuthM β} (hp : AH p (fun t _ => ¬ Denied t) LoginFollows)
    (hf : ∀ a, AH (f a) (fun t _ => ¬ Denied t) LoginFollows) :
    AH (p >>= f) (fun t _ => ¬ Denied t) LoginFollows := by
  refine ah_bind hp fun t1 a h1 => ah_conseq (hf a) ?_ ?_
  · intro t2 b h2 hd
    rcases denied_append.1 hd with h | h
    · exact h1 h
    · exact h2 h
  · intro t2 o h2 hd
    rcases denied_append.1 hd with h | h
    · exact absurd h h1
    · obtain ⟨ho, pre, req, b, rfl⟩ := h2 h
      exact ⟨ho, t1 ++ pre, req, b, by simp⟩

theorem ah_promptLogin_follows : AH (promptLogin lib r req) (fun t _ => ¬ Denied t) LoginFollows := by
  unfold promptLogin
  split
  · refine ah_ask_bind fun x => ?_
    rcases x with _ | _ | _
    · refine ah_conseq (ah_of_nfl (nfl_callbackFailed (lib := lib))) ?_ ?_
      · intro t _ h hd
        rcases List.mem_cons.1 hd with h' | h'
        · cases h'
        · exact h h'
      · intro t o h hd
        rcases List.mem_cons.1 hd with h' | h'
        · cases h'
        · obtain ⟨ho, pre, q, b, rfl⟩ := h h'
          exact ⟨ho, _ :: pre, q, b, rfl⟩
    · refine ah_alog_bind ?_
      refine ah_ask_bind fun b => ?_
      exact ah_throw fun _ => ⟨rfl, [_, _], req, b, rfl⟩
    · refine ah_pure fun hd => ?_
      rcases List.mem_cons.1 hd with h' | h'
      · cases h'
      · simp at h'
  · exact ah_pure (by simp [Denied])

theorem ah_handleRequestM_follows : AH (handleRequestM policy lib r) (fun t _ => ¬ Denied t) LoginFollows := by
  unfold handleRequestM
  refine ah_denied_bind (ah_of_nfl nfl_identify) fun clnt => ?_
  refine ah_denied_bind (ah_of_nfl nfl_buildRequest) fun req => ?_
  have tail : AH (do promptLogin lib r req
                     checkAuthAge lib r req
                     omitConsent policy lib r clnt req
                     showConsent lib r clnt req) (fun t _ => ¬ Denied t) LoginFollows :=
    ah_denied_bind ah_promptLogin_follows fun _ => ah_denied_bind (ah_of_nfl nfl_checkAuthAge) fun _ =>
      ah_denied_bind (ah_of_nfl nfl_omitConsent) fun _ => ah_of_nfl nfl_showConsent
  dsimp only
  split
  · exact ah_denied_bind (ah_of_nfl nfl_promptNone) fun _ => tail
  · exact ah_denied_bind (ah_of_nfl nfl_confirmLogin) fun _ => tail

theorem handleRequest_denied {t o} (h : Runs (handleRequest policy lib r) t o) : LoginFollows t o := by
  unfold handleRequest at h
  rw [Prog.bind_eq] at h
  rcases runs_bind.1 h with ⟨x, t1, t2, rfl, h1, h2⟩ | ⟨h1, rfl⟩
  · cases x with
    | ok b =>
      obtain ⟨rfl, rfl⟩ := h2
      rw [List.append_nil]
      exact fun hd => absurd hd (ah_handleRequestM_follows.ok h1)
    | error b =>
      obtain ⟨rfl, rfl⟩ := h2
      rw [List.append_nil]
      exact ah_handleRequestM_follows.err h1
  · exact ah_handleRequestM_follows.panic h1

end Goidc
