import Verif.Lemmas.TokenPhases

/-! # When a token has been created although the grant failed -/

namespace Goidc

open Spec TokenEndpoint

variable {α β : Type}

/-- Not a token-creating call. -/
def NoIssue : Query → Prop
  | .createOAuthToken _ _ | .refreshAccessToken _ _ => False
  | _ => True

theorem not_issued_of {e : Event} (h : NoIssue e.q) : ¬ Issued e := by
  intro hi
  unfold Issued at hi
  split at hi
  · exact h
  · exact h
  · exact hi

/-- If the program fails it has created no token. -/
def CleanErr (p : GrantM α) : Prop := ∀ t e, XErr p t e → ∀ x ∈ t, ¬ Issued x

theorem cleanErr_of_allQ {p : GrantM α} (h : AllQ NoIssue p.run) : CleanErr p :=
  fun _ _ hx x hm => not_issued_of (allQ_runs h hx x hm)

theorem cleanErr_bind {p : GrantM α} {f : α → GrantM β} (hp : AllQ NoIssue p.run) (hf : ∀ a, CleanErr (f a)) :
    CleanErr (p >>= f) := by
  intro t e hx x hm
  rcases xerr_bind.1 hx with h1 | ⟨a, t1, t2, rfl, h1, h2⟩
  · exact not_issued_of (allQ_runs hp h1 x hm)
  · rcases List.mem_append.1 hm with hm | hm
    · exact not_issued_of (allQ_runs hp h1 x hm)
    · exact hf a _ _ h2 x hm

theorem cleanErr_ite {c : Prop} [Decidable c] {p q : GrantM α} (h1 : c → CleanErr p) (h2 : ¬ c → CleanErr q) :
    CleanErr (if c then p else q) := by
  by_cases h : c <;> simp only [h, if_true, if_false]
  · exact h1 h
  · exact h2 h

theorem xerr_gask {q : Query} {t} {e : OAuthError} : XErr (gask q) t e ↔ False := by
  unfold gask; exact xerr_lift

/-- The trace of a failing check consists of log lines and the value was not good. -/
theorem xerr_checkVal {gt s t} {v : Option α × Option ErrType} {e : OAuthError}
    (h : XErr (checkVal gt s v) t e) : (∀ x ∈ t, x.q.isLog = true) ∧ Answer.ofPair v ≠ .good := by
  have hl : AllQ (fun q => q.isLog = true) (checkVal gt s v).run := allQ_checkVal (by intros; rfl)
  refine ⟨allQ_runs hl h, ?_⟩
  rcases v with ⟨_ | a, _ | e'⟩
  · simp [Answer.ofPair]
  · simp [Answer.ofPair]
  · simp [checkVal] at h
  · simp [Answer.ofPair]

theorem xerr_checkErr {gt s t} {v : Option ErrType} {e : OAuthError}
    (h : XErr (checkErr gt s v) t e) : (∀ x ∈ t, x.q.isLog = true) ∧ v ≠ none := by
  have hl : AllQ (fun q => q.isLog = true) (checkErr gt s v).run := allQ_checkErr (by intros; rfl)
  refine ⟨allQ_runs hl h, ?_⟩
  rintro rfl
  simp [checkErr] at h

theorem not_issued_log {x : Event} (h : x.q.isLog = true) : ¬ Issued x := by
  intro hi
  unfold Issued at hi
  split at hi
  · cases h
  · cases h
  · exact hi

theorem cleanErr_create {gt s i b} {g : OAuthToken → Response} :
    CleanErr (gask (.createOAuthToken i b) >>= fun v => checkVal gt s v >>= fun tk => pure (g tk)) := by
  intro t e hx x hm
  rcases xerr_bind.1 hx with h | ⟨v, _, t2, rfl, hv, h⟩
  · exact (xerr_gask.1 h).elim
  obtain rfl := xok_gask.1 hv
  rcases xerr_bind.1 h with h' | ⟨_, _, _, _, _, h'⟩
  case inr => simp at h'
  obtain ⟨h1, h2⟩ := xerr_checkVal h'
  simp only [List.singleton_append, List.mem_cons] at hm
  rcases hm with rfl | hm
  · rcases v with ⟨_ | a, _ | e'⟩ <;> simp_all [Issued, Answer.ofPair]
  · exact not_issued_log (h1 x hm)

theorem cleanErr_refresh {gt s i o} {g : OAuthToken → Response} :
    CleanErr (gask (.refreshAccessToken i o) >>= fun v => checkVal gt s v >>= fun tk => pure (g tk)) := by
  intro t e hx x hm
  rcases xerr_bind.1 hx with h | ⟨v, _, t2, rfl, hv, h⟩
  · exact (xerr_gask.1 h).elim
  obtain rfl := xok_gask.1 hv
  rcases xerr_bind.1 h with h' | ⟨_, _, _, _, _, h'⟩
  case inr => simp at h'
  obtain ⟨h1, h2⟩ := xerr_checkVal h'
  simp only [List.singleton_append, List.mem_cons] at hm
  rcases hm with rfl | hm
  · rcases v with ⟨_ | a, _ | e'⟩ <;> simp_all [Issued, Answer.ofPair]
  · exact not_issued_log (h1 x hm)

theorem noIssue_log : ∀ l, NoIssue (.log l) := fun _ => trivial

theorem cleanErr_issue {gt c uid scp} : CleanErr (Grant.issue gt c uid scp) :=
  cleanErr_bind (allQ_gask trivial) fun _ => cleanErr_bind (allQ_checkVal noIssue_log) fun _ => cleanErr_create

theorem cleanErr_refreshToken {r c now} : CleanErr (Grant.refreshToken r c now) :=
  cleanErr_bind (allQ_needParam noIssue_log) fun _ => cleanErr_bind (allQ_gask trivial) fun _ =>
  cleanErr_bind (allQ_checkVal noIssue_log) fun _ =>
  cleanErr_ite (fun _ => cleanErr_of_allQ (allQ_log_throw noIssue_log)) fun _ =>
  cleanErr_bind (allQ_gask trivial) fun _ => cleanErr_bind (allQ_checkVal noIssue_log) fun _ =>
  cleanErr_ite (fun _ => cleanErr_of_allQ (allQ_log_throw noIssue_log)) fun _ =>
  cleanErr_ite (fun _ => cleanErr_of_allQ (allQ_log_throw noIssue_log)) fun _ => cleanErr_refresh

theorem cleanErr_password {r c now} : CleanErr (Grant.password r c now) :=
  cleanErr_bind (allQ_needParam noIssue_log) fun _ => cleanErr_bind (allQ_needParam noIssue_log) fun _ =>
  cleanErr_bind (allQ_checkScope noIssue_log) fun _ => cleanErr_bind (allQ_gask trivial) fun _ =>
  cleanErr_bind (allQ_checkErr noIssue_log) fun _ => cleanErr_issue

theorem cleanErr_clientCredentials {r c now} : CleanErr (Grant.clientCredentials r c now) :=
  cleanErr_ite (fun _ => cleanErr_of_allQ (allQ_log_throw noIssue_log)) fun _ =>
  cleanErr_bind (allQ_checkScope noIssue_log) fun _ => cleanErr_issue

theorem cleanErr_jwt {lib r c now} : CleanErr (Grant.jwt lib r c now) := by
  refine cleanErr_bind (allQ_needParam noIssue_log) fun _ =>
    cleanErr_bind (allQ_xlift (allQ_parse trivial fun t => ?_)) fun p =>
    cleanErr_bind (allQ_handle noIssue_log trivial fun _ _ _ _ _ => trivial) fun _ => ?_
  · unfold Grant.jwtKeyFunc; split <;> trivial
  · split
    · exact cleanErr_of_allQ trivial
    · split
      · exact cleanErr_of_allQ (allQ_log_throw noIssue_log)
      · exact cleanErr_bind (allQ_gask trivial) fun _ => cleanErr_bind (allQ_checkErr noIssue_log) fun _ =>
          cleanErr_bind (allQ_checkScope noIssue_log) fun _ => cleanErr_issue

/-- A code exchange that fails after the token was created: the session could not be disabled, or
signing the ID token failed. -/
theorem code_issued_err {lib r c now t e} (hx : XErr (Grant.authorizationCode lib r c now) t e) {x}
    (hm : x ∈ t) (hi : Issued x) :
    (∃ sess err, ⟨.disableSession sess, some err⟩ ∈ t) ∨
    (∃ (sess : AuthSession) (info : AuthInfo) (iss : GoStr), ⟨.findActiveAuthInfoById sess.authId, (some info, none)⟩ ∈ t ∧ ⟨.issuer, iss⟩ ∈ t ∧
      Scope.includeOpenID info.scope = true ∧
      IdToken.gen lib c.idTokenAlg c.idTokenKey c.idTokenKeyId iss info.clientId info.subject
        sess.nonce sess.idTokenExpiresIn sess.authTime now = none) := by
  have key : ∀ {α β : Type} {p : GrantM α} {f : α → GrantM β} {t e x}, AllQ NoIssue p.run →
      XErr (p >>= f) t e → x ∈ t → Issued x → ∃ a t1 t2, t = t1 ++ t2 ∧ XOk p t1 a ∧ XErr (f a) t2 e ∧ x ∈ t2 := by
    intro α β p f t e x hp hx hm hi
    rcases xerr_bind.1 hx with h1 | ⟨a, t1, t2, rfl, h1, h2⟩
    · exact absurd hi (not_issued_of (allQ_runs hp h1 x hm))
    · rcases List.mem_append.1 hm with hm | hm
      · exact absurd hi (not_issued_of (allQ_runs hp h1 x hm))
      · exact ⟨a, t1, t2, rfl, h1, h2, hm⟩
  have hlt : ∀ {lv gt ev ps} {err : OAuthError} {t e x},
      XErr (do glog lv gt ev ps; throw err : GrantM Response) t e → x ∈ t → Issued x → False :=
    fun hx hm hi => cleanErr_of_allQ (allQ_log_throw noIssue_log) _ _ hx _ hm hi
  unfold Grant.authorizationCode at hx
  obtain ⟨_, _, _, rfl, h0, hx1, hm1⟩ := key (allQ_needParam noIssue_log) hx hm hi
  obtain ⟨rfl, _⟩ := xok_needParam.1 h0
  obtain ⟨_, _, _, rfl, h0', hx2, hm2⟩ := key (allQ_needParam noIssue_log) hx1 hm1 hi
  obtain ⟨rfl, _⟩ := xok_needParam.1 h0'
  obtain ⟨s, _, _, rfl, h1, hx3, hm3⟩ := key (allQ_gask (by trivial)) hx2 hm2 hi
  obtain rfl := xok_gask.1 h1
  obtain ⟨sess, _, _, rfl, h2, hx4, hm4⟩ := key (allQ_checkVal noIssue_log) hx3 hm3 hi
  obtain ⟨rfl, rfl⟩ := xok_checkVal.1 h2
  obtain ⟨i, _, _, rfl, h3, hx5, hm5⟩ := key (allQ_gask (by trivial)) hx4 hm4 hi
  obtain rfl := xok_gask.1 h3
  obtain ⟨info, _, _, rfl, h4, hx6, hm6⟩ := key (allQ_checkVal noIssue_log) hx5 hm5 hi
  obtain ⟨rfl, rfl⟩ := xok_checkVal.1 h4
  split at hx6
  · exact (hlt hx6 hm6 hi).elim
  · split at hx6
    · exact (hlt hx6 hm6 hi).elim
    · obtain ⟨_, _, _, rfl, h5, hx7, hm7⟩ := key (allQ_checkPkce noIssue_log) hx6 hm6 hi
      obtain ⟨rfl, _⟩ := xok_checkPkce.1 h5
      rcases xerr_bind.1 hx7 with hx8 | ⟨tk, _, _, rfl, h6, hx8⟩
      · exact (xerr_gask.1 hx8).elim
      · obtain rfl := xok_gask.1 h6
        rcases xerr_bind.1 hx8 with hx9 | ⟨token, _, _, rfl, h7, hx9⟩
        · obtain ⟨hl, hg⟩ := xerr_checkVal hx9
          simp only [List.singleton_append, List.mem_cons] at hm7
          rcases hm7 with rfl | hm8
          · rcases tk with ⟨_ | a, _ | e'⟩ <;> simp_all [Issued, Answer.ofPair]
          · exact absurd hi (not_issued_log (hl _ hm8))
        · obtain ⟨rfl, rfl⟩ := xok_checkVal.1 h7
          rcases xerr_bind.1 hx9 with hx10 | ⟨d, _, _, rfl, h8, hx10⟩
          · exact (xerr_gask.1 hx10).elim
          · obtain rfl := xok_gask.1 h8
            cases d with
            | some err => exact .inl ⟨sess, err, by simp⟩
            | none =>
              right
              rcases xerr_bind.1 hx10 with hx11 | ⟨_, _, _, rfl, h9, hx11⟩
              · exact absurd rfl (xerr_checkErr hx11).2
              · obtain ⟨rfl, _⟩ := xok_checkErr.1 h9
                unfold Grant.attachIdToken at hx11
                dsimp only at hx11
                split at hx11
                · rename_i ho
                  rcases xerr_bind.1 hx11 with hx12 | ⟨_, _, _, rfl, h10, hx12⟩
                  · exact (xerr_lift.1 hx12).elim
                  · rcases xerr_bind.1 hx12 with hx13 | ⟨iss, _, _, rfl, h11, hx13⟩
                    · exact (xerr_gask.1 hx13).elim
                    · obtain rfl := xok_gask.1 h11
                      split at hx13
                      · rename_i hg
                        exact ⟨sess, info, iss, by simp, by simp, ho, hg⟩
                      · simp at hx13
                · simp at hx11

end Goidc
