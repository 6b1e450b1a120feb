import Verif.Props.AuditFront
import Verif.Props.Secrets
import Verif.Lemmas.TokenPhases

/-! # How general the defects of C58 and C86 are -/

namespace Goidc.Props

open Spec

/-! ## C58: every refused password is written to the log -/

section
open TokenEndpoint

variable {cfg : TokenCfg} {lib : Lib} {r : Req}

/-- The application refused the password, or failed, other than by not supporting the call. -/
def UserRefused (q : Query) (x : q.Resp) : Prop :=
  match q, x with
  | .findUserId _ _, (_, some e) => e ≠ .unsupported
  | _, _ => False

/-- The line shows the password of the call. -/
def ShowsPassword (q : Query) (_ : q.Resp) (l : LogLine) : Prop :=
  ∀ u p, q = .findUserId u p → (b!"password", p) ∈ l.params

/-- Calls that ask for no user. -/
theorem not_refused {q : Query} (h : ∀ u p, q ≠ .findUserId u p) : ∀ x, ¬ UserRefused q x := by
  intro x hx
  unfold UserRefused at hx
  cases q <;> first | exact hx | exact h _ _ rfl

theorem onErr_password {c : Client} {u p : GoStr} {e : ErrType} (he : e ≠ .unsupported) :
    ∃ l k', (onErr Grant.typePassword (Grant.userSite c u p) e : GrantM Unit).run = .call (.log l) k' ∧
      (b!"password", p) ∈ l.params := by
  cases e
  · exact absurd rfl he
  all_goals exact ⟨_, _, rfl, by simp [Grant.userSite]⟩

theorem foll_password {c : Client} {now : Int64} :
    Foll UserRefused ShowsPassword (Grant.password r c now).run := by
  have hl : ∀ l : LogLine, ∀ x, ¬ UserRefused (.log l) x := fun l _ h => h
  unfold Grant.password
  refine foll_xbind (foll_safe (allQ_needParam hl)) fun u => foll_xbind (foll_safe (allQ_needParam hl)) fun p =>
    foll_xbind (foll_safe (allQ_checkScope hl)) fun _ => ?_
  rw [xrun_bind]
  intro x
  obtain ⟨uid, e⟩ := x
  refine ⟨fun hx => ?_, ?_⟩
  · cases e with
    | none => exact hx.elim
    | some e =>
      obtain ⟨l, k', h1, h2⟩ := onErr_password (c := c) (u := u) (p := p) hx
      obtain ⟨k, hk⟩ := bind_call (f := fun _ => Grant.issue Grant.typePassword c uid (r.formValue b!"scope"))
        (p := checkErr Grant.typePassword (Grant.userSite c u p) (some e)) h1
      exact ⟨l, k, hk, fun u' p' h => by cases h; exact h2⟩
  · exact foll_xbind (foll_safe (allQ_checkErr hl)) fun _ => foll_safe (allQ_issue hl (fun _ h => h) fun _ _ h => h)

theorem foll_grant {h : GrantFunc} (hb : BuiltIn lib h) {c : Client} {now : Int64} :
    Foll UserRefused ShowsPassword (h r c now).run := by
  have hl : ∀ l : LogLine, ∀ x, ¬ UserRefused (.log l) x := fun l _ h => h
  cases hb with
  | password => exact foll_password
  | authorizationCode => exact foll_safe (Grant.allQ_authorizationCode hl (fun _ h => h) (fun _ _ h => h) (fun _ _ h => h)
      (fun _ _ h => h) fun _ _ h => h)
  | refreshToken => exact foll_safe (Grant.allQ_refreshToken hl (fun _ _ h => h) (fun _ _ h => h) fun _ _ _ h => h)
  | clientCredentials => exact foll_safe (Grant.allQ_clientCredentials hl (fun _ _ _ _ h => h) fun _ _ h => h)
  | jwt => exact foll_safe (Grant.allQ_jwt hl (fun _ h => h) (fun _ h => h) (fun _ _ h => h) (fun _ _ _ _ h => h)
      (fun _ _ _ _ h => h) fun _ _ h => h)

theorem phaseOne_safe {q : Query} (h : PhaseOne q) : ∀ x, ¬ UserRefused q x := by
  refine not_refused fun u p hq => ?_
  subst hq
  rcases h with h | h | h | h
  · simp [IsAuthCall] at h
  · cases h
  · cases h
  · cases h

theorem foll_handler (hb : AllBuiltIn lib cfg) : Foll UserRefused ShowsPassword (handler cfg lib r) := by
  have hlw : ∀ {lv gt ev ps} {resp : HttpResp},
      Foll UserRefused ShowsPassword (tlog lv gt ev ps >>= fun _ => respond resp) :=
    foll_safe (allQ_bind (allQ_tlog fun l _ h => h) fun _ => allQ_ask fun _ h => h)
  have hex : ∀ {c gt hd}, BuiltIn lib hd → Foll UserRefused ShowsPassword (executeGrantHandler cfg r c gt hd) := by
    intro c gt hd hbi
    unfold executeGrantHandler
    refine foll_bind (foll_safe (allQ_ask fun _ h => h)) fun now => foll_bind (foll_grant hbi) fun res => ?_
    cases res with
    | error e => exact foll_safe (allQ_ask fun _ h => h)
    | ok a => exact hlw
  unfold handler
  split
  · exact hlw
  · dsimp only
    split
    · exact hlw
    · split
      · exact hlw
      · rename_i hh
        have hbi := hb _ _ hh
        split
        · refine foll_bind (foll_safe (allQ_mono (fun q => phaseOne_safe) phaseOne_bySecret)) fun c => ?_
          cases c with
          | none => trivial
          | some c => exact hex hbi
        · split
          · refine foll_bind (foll_safe (allQ_mono (fun q => phaseOne_safe) phaseOne_byAssertion)) fun c => ?_
            cases c with
            | none => trivial
            | some c => exact hex hbi
          · exact hlw

/-- How general the defect of C58 is: in every run, whenever the application refuses a user name and
password (or fails on them), the very next thing that happens is that the password is passed to the
logger. -/
theorem C58_always_logged (hb : AllBuiltIn lib cfg) {pre post : List Event} {u p : GoStr} {uid : Int64} {e : ErrType}
    (h : Steps (handler cfg lib r) (pre ++ ⟨.findUserId u p, (uid, some e)⟩ :: post)) (he : e ≠ .unsupported) :
    post = [] ∨ ∃ l post', post = logged l :: post' ∧ (b!"password", p) ∈ l.params := by
  rcases foll_steps (foll_handler hb) h he with h | ⟨l, post', h1, h2⟩
  · exact .inl h
  · exact .inr ⟨l, post', h1, h2 _ _ rfl⟩

/-- The user of an event. -/
def refusedUser : Event → Bool
  | ⟨.findUserId _ _, (_, some .failed)⟩ => true
  | _ => false

example : ∃ pre post u p uid, Steps (handler Sample.tokenCfg Sample.lib (Sample.post Sample.passwordBody))
    (pre ++ ⟨.findUserId u p, (uid, some .failed)⟩ :: post) := by
  let w : Sample.World := { user := (0, some .failed) }
  let p := handler Sample.tokenCfg Sample.lib (Sample.post Sample.passwordBody)
  have hd : (w.run p).1.any refusedUser = true := by decide +kernel
  obtain ⟨e, he, hr⟩ := List.any_eq_true.1 hd
  obtain ⟨pre, post, hpp⟩ := List.append_of_mem he
  have hs : Steps p (w.run p).1 := runs_steps (w.runs p)
  rw [hpp] at hs
  obtain ⟨q, x⟩ := e
  unfold refusedUser at hr
  split at hr
  · rename_i heq
    cases heq
    exact ⟨pre, post, _, _, _, hs⟩
  · cases hr

end

/-! ## C86: no `insufficient_scope` refusal leaves a line -/

section
open ResourceProtector

variable {cfg : ProtectorCfg} {lib : Lib} {r : Req}

/-- How general the defect of C86 is: no refusal for want of a scope is ever preceded by a line of the log. -/
theorem C86_scope_silent {m : List (GoStr × List GoStr)} {t : List Event} {o : Outcome (Bool × Req)} {resp : HttpResp}
    (h : Runs (validateWithScopes cfg lib r m) t o) (hw : wrote resp ∈ t) (hs : resp.status = 403) :
    ∀ l, logged l ∉ t := by
  have hno : ∀ {t o}, Runs (validate cfg lib r) t o → wrote resp ∉ t := by
    intro t o h hw
    obtain ⟨pre, post, rfl⟩ := List.append_of_mem hw
    obtain ⟨_, l, _, he⟩ := C86_validate (runs_steps h)
    rw [hs] at he
    have := he.event
    simp [refusalReasons] at this
  rcases validateWithScopes_runs.1 h with ⟨r', h1, _⟩ | ⟨h1, _⟩ | ⟨t1, t2, r', rfl, h1, h2⟩
  · exact absurd hw (hno h1)
  · exact absurd hw (hno h1)
  · obtain ⟨tok, atk, now, info, _, rfl, _⟩ := C25_live h1
    intro l hl
    rcases h2 with ⟨_, rfl, _⟩ | ⟨_, rfl, _⟩ <;> simp at hl

example : ∃ m t o resp, Runs (validateWithScopes sampleProtector Sample.lib sampleBearer m) t o ∧ wrote resp ∈ t ∧
    resp.status = 403 := by
  obtain ⟨m, pre, resp, h1, h2, _⟩ := C86_scope_false
  obtain ⟨t', o, hr⟩ := steps_complete h1
  exact ⟨m, _, o, resp, hr, by simp, h2⟩

end
end Goidc.Props
