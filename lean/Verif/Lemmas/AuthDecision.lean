import Verif.Spec.AuthDecision
import Verif.Lemmas.AuthHoare
import Verif.Lemmas.Contents
import Verif.Lemmas.Decimal
import Verif.Props.PureStrings

/-! # Proof of the decision table of the authorization endpoint -/

namespace Goidc

open Spec AuthzEndpoint Props

variable {α β : Type} {lib : Lib} {uri state : GoStr}

/-! ## Calls that count -/

theorem interactions_append (s t : List Event) : interactions (s ++ t) = interactions s ++ interactions t := by
  simp [interactions]

theorem interactions_sent {t resp} (h : SentTrace t resp) : interactions t = [wrote resp] := by
  rcases h with rfl | ⟨m, l, rfl⟩ <;> rfl

theorem ends_prepend {t o c e} (t0 : List Event) (h : Ends lib uri state t o c e) :
    Ends lib uri state (t0 ++ t) o (interactions t0 ++ c) e := by
  cases e with
  | stop b => exact ⟨by rw [interactions_append, h.1], h.2⟩
  | crash => exact ⟨by rw [interactions_append, h.1], h.2⟩
  | error m x d =>
    rcases h with ⟨resp, h1, h2⟩ | ⟨h1, h2⟩
    · exact .inl ⟨resp, by rw [interactions_append, h1, List.append_assoc], h2⟩
    · exact .inr ⟨by rw [interactions_append, h1], h2⟩
  | success m ps =>
    rcases h with ⟨resp, h1, h2⟩ | ⟨h1, h2⟩
    · exact .inl ⟨resp, by rw [interactions_append, h1, List.append_assoc], h2⟩
    · exact .inr ⟨by rw [interactions_append, h1], h2⟩

/-! ## Programs that meet a stage -/

/-- After the calls `c0`, `p` follows the stage `R`. -/
def MF (lib : Lib) (uri state : GoStr) (c0 : List Event) (p : AuthM α) (R : Stage α) : Prop :=
  AH p (fun t a => R (c0 ++ interactions t) (.inl a))
    (fun t o => ∃ c e, R (c0 ++ c) (.inr e) ∧ Ends lib uri state t o c e)

variable {c0 : List Event} {R : Stage α}

theorem interactions_cons {q : Query} {r : q.Resp} {t : List Event} (h : counts q = true) :
    interactions (⟨q, r⟩ :: t) = ⟨q, r⟩ :: interactions t := by
  unfold interactions
  exact List.filter_cons_of_pos (p := fun e : Event => counts e.q) h

theorem mf_pure {a : α} (h : R c0 (.inl a)) : MF lib uri state c0 (pure a) R :=
  ah_pure (by simpa [interactions] using h)

theorem mf_throw {b : Bool} (h : R c0 (.inr (.stop b))) : MF lib uri state c0 (throw b) R :=
  ah_throw ⟨[], .stop b, by simpa using h, rfl, rfl⟩

theorem mf_panic (h : R c0 (.inr .crash)) : MF lib uri state c0 apanic R :=
  ah_apanic ⟨[], .crash, by simpa using h, rfl, rfl⟩

theorem mf_ask {q : Query} {f : q.Resp → AuthM α} (hq : counts q = true)
    (h : ∀ r, MF lib uri state (c0 ++ [⟨q, r⟩]) (f r) R) : MF lib uri state c0 (aask q >>= f) R := by
  refine ah_ask_bind fun r => ah_conseq (h r) ?_ ?_
  · intro t a h
    rw [interactions_cons hq]
    simpa using h
  · rintro t o ⟨c, e, h1, h2⟩
    refine ⟨⟨q, r⟩ :: c, e, by simpa using h1, ?_⟩
    have := ends_prepend [⟨q, r⟩] h2
    rwa [interactions_cons hq] at this

theorem mf_log {lv r ev ps} {f : Unit → AuthM α} (h : MF lib uri state c0 (f ()) R) :
    MF lib uri state c0 (alog lv r ev ps >>= f) R := by
  refine ah_alog_bind (ah_conseq h ?_ ?_)
  · intro t a h; exact h
  · rintro t o ⟨c, e, h1, h2⟩
    exact ⟨c, e, h1, ends_prepend [_] h2⟩

theorem error_ends {r mode typ desc t o} (h : Runs (AuthResponse.error lib r mode uri typ desc state) t o) :
    (o = .panic ∧ Ends lib uri state t .panic [] (.error mode typ desc)) ∨
    (o = .ok () ∧ Ends lib uri state t (.ok false) [] (.error mode typ desc)) := by
  unfold AuthResponse.error at h
  rw [errorParams_eq] at h
  rcases success_runs h with ⟨h1, rfl, h3⟩ | ⟨h1, _, resp, h2, h3⟩
  · exact .inl ⟨h1, .inr ⟨rfl, rfl, h3⟩⟩
  · exact .inr ⟨h1, .inl ⟨resp, by rw [interactions_sent h2]; rfl, rfl, h3⟩⟩

theorem mf_errorTo {r mode typ desc} (h : R c0 (.inr (.error mode typ desc))) :
    MF lib uri state c0 (errorTo lib r mode uri typ desc state) R := by
  unfold errorTo
  refine ah_bind (Ok := fun t (_ : Unit) => Ends lib uri state t (.ok false) [] (.error mode typ desc)) (ah_lift ?_ ?_) ?_
  · intro t a h
    rcases error_ends h with ⟨h1, _⟩ | ⟨_, h⟩
    · cases h1
    · exact h
  · intro t h'
    rcases error_ends h' with ⟨_, h1⟩ | ⟨h1, _⟩
    · exact ⟨[], _, by simpa using h, h1⟩
    · cases h1
  · intro t _ h1
    exact ah_throw ⟨[], _, by simpa using h, by simpa using h1⟩

theorem mf_callbackFailed {r mode m} (h : R c0 (.inr (.error mode b!"server_error" []))) :
    MF lib uri state c0 (callbackFailed lib r mode uri state m) R := mf_log (mf_errorTo h)

theorem mf_bind {p : AuthM α} {f : α → AuthM β} {S : α → Stage β} (h : MF lib uri state [] p R)
    (hf : ∀ c a, R c (.inl a) → MF lib uri state [] (f a) (S a)) : MF lib uri state [] (p >>= f) (R.andThen S) := by
  have h' : AH p (fun t a => R (interactions t) (.inl a))
      (fun t o => ∃ c e, (R.andThen S) ([] ++ c) (.inr e) ∧ Ends lib uri state t o c e) :=
    ah_conseq h (fun _ _ h => h) (fun t o ⟨c, e, h1, h2⟩ => ⟨c, e, .inl ⟨e, rfl, h1⟩, h2⟩)
  refine ah_bind h' fun t1 a h1 => ah_conseq (hf _ a h1) ?_ ?_
  · intro t2 b h2
    rw [interactions_append]
    exact .inr ⟨interactions t1, _, a, rfl, h1, h2⟩
  · rintro t2 o ⟨c, e, h2, h3⟩
    exact ⟨interactions t1 ++ c, e, .inr ⟨interactions t1, _, a, rfl, h1, h2⟩, ends_prepend t1 h3⟩

/-- A stage may be replaced by a weaker one. -/
theorem mf_mono {p : AuthM α} {R' : Stage α} (h : MF lib uri state c0 p R)
    (hs : ∀ c res, R (c0 ++ c) res → R' (c0 ++ c) res) : MF lib uri state c0 p R' :=
  ah_conseq h (fun _ _ h => hs _ _ h) (fun _ _ ⟨c, e, h1, h2⟩ => ⟨c, e, hs _ _ h1, h2⟩)

/-- Change of calls made before. -/
theorem mf_shift {p : AuthM α} {R' : Stage α} {c0' : List Event} (h : MF lib uri state c0 p R)
    (hs : ∀ c res, R (c0 ++ c) res → R' (c0' ++ c) res) : MF lib uri state c0' p R' :=
  ah_conseq h (fun _ _ h => hs _ _ h) (fun _ _ ⟨c, e, h1, h2⟩ => ⟨c, e, hs _ _ h1, h2⟩)

/-- The second stage, once the first is done. -/
theorem mf_then {a : Stage α} {b : α → Stage β} {p : AuthM β} {x : α} (h1 : a c0 (.inl x))
    (h : MF lib uri state [] p (b x)) : MF lib uri state c0 p (a.andThen b) :=
  mf_shift h fun _ _ h => .inr ⟨_, _, x, rfl, h1, h⟩

/-- The first stage ended. -/
theorem andThen_end {a : Stage α} {b : α → Stage β} {e} (h : a c0 (.inr e)) : (a.andThen b) c0 (.inr e) :=
  .inl ⟨e, rfl, h⟩

theorem andThen_next {a : Stage α} {b : α → Stage β} {x c c' res} (h : a c (.inl x)) (h' : b x c' res) :
    (a.andThen b) (c ++ c') res := .inr ⟨_, _, x, rfl, h, h'⟩

/-! ## The same for functions that do not return early -/

/-- After the calls `c0`, `p` follows the stage `R`. -/
def PM (lib : Lib) (uri state : GoStr) (c0 : List Event) (p : Prog Bool) (R : Stage Empty) : Prop :=
  ∀ t o, Runs p t o → ∃ c e, R (c0 ++ c) (.inr e) ∧ Ends lib uri state t o c e

variable {T : Stage Empty}

theorem pm_ret {b : Bool} (h : T c0 (.inr (.stop b))) : PM lib uri state c0 (pure b) T := by
  rintro t o ⟨rfl, rfl⟩
  exact ⟨[], .stop b, by simpa using h, rfl, rfl⟩

theorem pm_panic (h : T c0 (.inr .crash)) : PM lib uri state c0 .panic T := by
  rintro t o ⟨rfl, rfl⟩
  exact ⟨[], .crash, by simpa using h, rfl, rfl⟩

theorem pm_bind {p : Prog α} {k : α → Prog Bool}
    (h1 : ∀ t a, Runs p t (.ok a) → PM lib uri state (c0 ++ interactions t) (k a) T)
    (h2 : ∀ t, Runs p t .panic → T (c0 ++ interactions t) (.inr .crash)) : PM lib uri state c0 (p.bind k) T := by
  intro t o h
  rcases runs_bind.1 h with ⟨a, t1, t2, rfl, h3, h4⟩ | ⟨h3, rfl⟩
  · obtain ⟨c, e, h5, h6⟩ := h1 _ _ h3 _ _ h4
    exact ⟨interactions t1 ++ c, e, by simpa using h5, ends_prepend t1 h6⟩
  · exact ⟨interactions t, .crash, h2 _ h3, rfl, rfl⟩

theorem pm_ask {q : Query} {k : q.Resp → Prog Bool} (hq : counts q = true)
    (h : ∀ r, PM lib uri state (c0 ++ [⟨q, r⟩]) (k r) T) : PM lib uri state c0 ((ask q).bind k) T := by
  refine pm_bind ?_ ?_
  · intro t a h'
    obtain ⟨r, rfl, h''⟩ := runs_ask.1 h'
    injection h'' with h''
    subst h''
    rw [interactions_cons hq]
    exact h a
  · intro t h'
    obtain ⟨r, _, h'⟩ := runs_ask.1 h'
    cases h'

theorem pm_then {a : Stage α} {b : α → Stage Empty} {p : Prog Bool} {x : α} (h1 : a c0 (.inl x))
    (h : PM lib uri state [] p (b x)) : PM lib uri state c0 p (a.andThen b) := by
  intro t o h'
  obtain ⟨c, e, h2, h3⟩ := h _ _ h'
  exact ⟨c, e, .inr ⟨_, _, x, rfl, h1, h2⟩, h3⟩

theorem pm_fail {r rh} {req : Request} (h : T c0 (.inr (.error rh b!"server_error" []))) :
    PM lib req.redirectURI req.state c0 (completeFail lib r rh req) T := by
  intro t o h'
  refine ⟨[], _, by simpa using h, ?_⟩
  rcases runs_bind.1 h' with ⟨a, t1, t2, rfl, h3, rfl, rfl⟩ | ⟨h3, rfl⟩
  · rcases error_ends h3 with ⟨h1, _⟩ | ⟨_, h1⟩
    · cases h1
    · simpa using h1
  · rcases error_ends h3 with ⟨_, h1⟩ | ⟨h1, _⟩
    · exact h1
    · cases h1

theorem pm_callbackFail {r rh m} {req : Request} (h : T c0 (.inr (.error rh b!"server_error" []))) :
    PM lib req.redirectURI req.state c0 (completeCallbackFail lib r rh req m) T := by
  refine pm_bind ?_ ?_
  · intro t a h'
    obtain ⟨x, rfl, _⟩ := runs_ask.1 h'
    rw [show interactions [_] = [] from rfl, List.append_nil]
    exact pm_fail h
  · intro t h'
    obtain ⟨r, _, h'⟩ := runs_ask.1 h'
    cases h'

theorem pm_success {r rh ps ps'} (hp : ps = ps') (h : T c0 (.inr (.success rh ps))) :
    PM lib uri state c0 (do AuthResponse.success lib r rh uri ps'; pure true) T := by
  subst hp
  intro t o h'
  refine ⟨[], _, by simpa using h, ?_⟩
  rcases runs_bind.1 h' with ⟨a, t1, t2, rfl, h3, rfl, rfl⟩ | ⟨h3, rfl⟩
  · rcases success_runs h3 with ⟨h1, _⟩ | ⟨_, _, resp, h2, h3⟩
    · cases h1
    · exact .inl ⟨resp, by rw [List.append_nil, interactions_sent h2]; rfl, rfl, h3⟩
  · rcases success_runs h3 with ⟨_, rfl, h1⟩ | ⟨h1, _⟩
    · exact .inr ⟨rfl, rfl, h1⟩
    · cases h1

/-! ## Which client -/

theorem mf_identify (r : Req) : MF lib uri state [] (identify r) (Identification r) := by
  unfold identify
  dsimp only
  split
  · rename_i h
    exact mf_log (mf_ask rfl fun _ => mf_throw (.noClientId h))
  · rename_i hc
    split
    · rename_i h
      exact mf_log (mf_ask rfl fun _ => mf_throw (.noRedirectURI hc h))
    · rename_i hu
      refine mf_mono (R := Stage.andThen (fun c res => (∃ e, res = .inr e ∧ Identification r c (.inr e)) ∨
          ∃ x e, res = .inl x ∧ (e = none ∨ ∃ n, e = some (.other n)) ∧
            c = [⟨.findClientById (r.formValue b!"client_id"), (some x, e)⟩])
        (fun x c res =>
          (x.canUseRedirectURI (r.formValue b!"redirect_uri") = false ∧ c = [⟨.showErrorScreen 2, ()⟩] ∧ res = .inr (.stop false)) ∨
          (x.canUseRedirectURI (r.formValue b!"redirect_uri") = true ∧ c = [] ∧ res = .inl x)))
        (mf_bind ?_ ?_) ?_
      · unfold findClient
        refine mf_ask rfl fun ans => ?_
        rcases ans with ⟨_ | c, _ | _ | _ | _ | n⟩ <;> dsimp only
        · exact mf_log (mf_ask rfl fun _ => mf_throw (.inl ⟨_, rfl, .lookupBroke hc hu (by simp)⟩))
        · exact mf_log (mf_ask rfl fun _ => mf_throw (.inl ⟨_, rfl, .lookupBroke hc hu (by simp)⟩))
        · exact mf_log (mf_ask rfl fun _ => mf_throw (.inl ⟨_, rfl, .lookupBroke hc hu (by simp)⟩))
        · exact mf_log (mf_ask rfl fun _ => mf_throw (.inl ⟨_, rfl, .unknownClient hc hu⟩))
        · exact mf_panic (.inl ⟨_, rfl, .nilClient hc hu⟩)
        · exact mf_pure (.inr ⟨c, none, rfl, .inl rfl, rfl⟩)
        · exact mf_log (mf_ask rfl fun _ => mf_throw (.inl ⟨_, rfl, .lookupBroke hc hu (by simp)⟩))
        · exact mf_log (mf_ask rfl fun _ => mf_throw (.inl ⟨_, rfl, .lookupBroke hc hu (by simp)⟩))
        · exact mf_log (mf_ask rfl fun _ => mf_throw (.inl ⟨_, rfl, .unknownClient hc hu⟩))
        · exact mf_pure (.inr ⟨c, _, rfl, .inr ⟨n, rfl⟩, rfl⟩)
      · intro c a _
        split
        · rename_i h
          exact mf_log (mf_ask rfl fun _ => mf_throw (.inl ⟨h, rfl, rfl⟩))
        · rename_i h
          exact mf_pure (.inr ⟨by simpa using h, rfl, rfl⟩)
      · rintro c res (⟨e, rfl, ⟨e', h1, h2⟩ | ⟨_, _, h1, _⟩⟩ | ⟨c1, c2, x, hcc, ⟨_, h1, _⟩ | ⟨y, e, h1, he, rfl⟩, h2⟩)
        · cases h1; exact h2
        · cases h1
        · cases h1
        · cases h1
          rw [hcc]
          rcases h2 with ⟨h2, rfl, rfl⟩ | ⟨h2, rfl, rfl⟩
          · exact .notAllowed hc hu he h2
          · exact .known hc hu he h2

/-! ## The parameters -/

/-- A step without calls: a value with `A`, or the end of the stage `R`. -/
def Quiet (A : α → Prop) (R : Stage β) : Stage α := fun c res =>
  (∃ a, res = .inl a ∧ c = [] ∧ A a) ∨ ∃ e, res = .inr e ∧ R c (.inr e)

theorem mf_quiet {p : AuthM α} {f : α → AuthM β} {A : α → Prop} {R : Stage β} (h : MF lib uri state [] p (Quiet A R))
    (hf : ∀ a, A a → MF lib uri state [] (f a) R) : MF lib uri state [] (p >>= f) R := by
  refine mf_mono (mf_bind (S := fun a c res => A a → R c res) h ?_) ?_
  · rintro c a (⟨a', h1, _, h2⟩ | ⟨_, h1, _⟩)
    · cases h1
      exact mf_mono (hf a h2) fun _ _ h _ => h
    · cases h1
  · rintro c res (⟨e, rfl, ⟨_, h1, _⟩ | ⟨e', h1, h2⟩⟩ | ⟨c1, c2, x, hc, ⟨a, h1, rfl, h2⟩ | ⟨_, h1, _⟩, h3⟩)
    · cases h1
    · cases h1; exact h2
    · cases h1
      rw [show [] ++ c = c2 from hc]
      exact h3 h2
    · cases h1

theorem quiet_ok {A : α → Prop} {R : Stage β} {a : α} (h : A a) : Quiet A R [] (.inl a) := .inl ⟨a, rfl, rfl, h⟩
theorem quiet_end {A : α → Prop} {R : Stage β} {e} (h : R [] (.inr e)) : Quiet A R [] (.inr e) := .inr ⟨e, rfl, h⟩

section checks
variable {policy : Policy} {r : Req} {clnt : Client} {f : Flow} {R : Stage β} {m : GoStr}

theorem mf_judgeFlow {mode : GoStr}
    (hR0 : r.formValue b!"response_type" = [] →
      R [] (.inr (.error mode b!"invalid_request" b!"missing 'response_type'")))
    (hR : r.formValue b!"response_type" ≠ [] → (∀ f, ¬ Asks (r.formValue b!"response_type") f) →
      R [] (.inr (.error mode b!"invalid_request" (b!"invalid 'response_type:" ++ r.formValue b!"response_type" ++ b!"'")))) :
    MF lib uri state [] (judgeFlow lib r uri mode state) (Quiet (Asks (r.formValue b!"response_type")) R) := by
  unfold judgeFlow
  dsimp only
  split
  · rename_i h
    exact mf_log (mf_errorTo (quiet_end (hR0 h)))
  · rename_i hne
    split
    · rename_i h
      refine mf_log (mf_errorTo (quiet_end (hR hne fun f hf => ?_)))
      rw [asks_iff, h] at hf
      cases hf
    · rename_i f hf
      exact mf_pure (quiet_ok (asks_iff.2 hf))

theorem defaultMode_eq : defaultMode policy f = modeOfFlow policy f := by
  unfold defaultMode modeOfFlow
  cases f.type <;> rfl

theorem validate_iff {x : GoStr} : ResponseMode.validate x = true ↔ x ∈ knownModes := by
  simp [ResponseMode.validate, knownModes, ResponseMode.query, ResponseMode.fragment, ResponseMode.formPost, or_assoc]

theorem compare_iff {x d : GoStr} (hx : x ∈ knownModes) : ResponseMode.compareSecurityLevel x d = false ↔
    (d ∈ knownModes ∧ strength (channel x) < strength (channel d)) := by
  by_cases hd : d ∈ knownModes
  · have key : ∀ x ∈ knownModes, ∀ d ∈ knownModes, ResponseMode.compareSecurityLevel x d = false ↔
        strength (channel x) < strength (channel d) := by decide
    rw [key x hx d hd]
    simp [hd]
  · have : ResponseMode.securityLevelForMode d = -1 := by
      unfold knownModes at hd
      simp only [List.mem_cons, List.not_mem_nil, or_false, not_or] at hd
      unfold ResponseMode.securityLevelForMode ResponseMode.query ResponseMode.fragment ResponseMode.formPost
      rw [if_neg hd.1, if_neg hd.2.1, if_neg hd.2.2]
    have hx' : 0 ≤ ResponseMode.securityLevelForMode x := by
      have key : ∀ x ∈ knownModes, 0 ≤ ResponseMode.securityLevelForMode x := by decide
      exact key x hx
    simp only [ResponseMode.compareSecurityLevel, this, hd, false_and, iff_false]
    simp
    omega

theorem mf_pickMode {rm : GoStr}
    (hR : rm ≠ [] → rm ∉ knownModes → policy.ignoreInvalidResponseMode = false →
      R [] (.inr (.error (modeOfFlow policy f) b!"invalid_request" (b!"unknown 'response_mode': '" ++ rm ++ b!"'")))) :
    MF lib uri state [] (pickMode policy lib r f uri rm state)
      (Quiet (fun m => (m = rm ∧ rm ∈ knownModes) ∨ (rm ∉ knownModes ∧ m = modeOfFlow policy f ∧
        ¬ (rm ≠ [] ∧ rm ∉ knownModes ∧ policy.ignoreInvalidResponseMode = false))) R) := by
  unfold pickMode
  dsimp only
  rw [defaultMode_eq]
  split
  · rename_i h
    refine mf_log (mf_pure (quiet_ok (.inr ⟨?_, rfl, fun h' => h'.1 h⟩)))
    rw [h]; decide
  · rename_i hne
    split
    · rename_i hv
      have hv' : rm ∉ knownModes := fun h => by rw [validate_iff.2 h] at hv; cases hv
      split
      · rename_i hi
        exact mf_log (mf_pure (quiet_ok (.inr ⟨hv', rfl, fun h => by rw [h.2.2] at hi; cases hi⟩)))
      · rename_i hi
        exact mf_log (mf_errorTo (quiet_end (hR hne hv' (by simpa using hi))))
    · rename_i hv
      exact mf_pure (quiet_ok (.inl ⟨rfl, validate_iff.1 (by simpa using hv)⟩))

theorem mf_checkModeLevel {m0 rm : GoStr} (h0 : (m0 = rm ∧ rm ∈ knownModes) ∨ (rm ∉ knownModes ∧ m0 = modeOfFlow policy f))
    (hR : rm ∈ knownModes → TooWeak policy f rm → policy.ignoreInvalidResponseMode = false →
      R [] (.inr (.error (modeOfFlow policy f) b!"invalid_request" (b!"'response_mode:" ++ rm ++
        b!"' isn't allowed for 'response_type:" ++ r.formValue b!"response_type" ++ b!"'")))) :
    MF lib uri state [] (checkModeLevel policy lib r f uri m0 state)
      (Quiet (fun m => m = modeUsed policy f rm ∧
        ¬ (rm ∈ knownModes ∧ TooWeak policy f rm ∧ policy.ignoreInvalidResponseMode = false)) R) := by
  unfold checkModeLevel
  dsimp only
  rw [defaultMode_eq]
  split
  · rename_i h
    rcases h0 with ⟨rfl, hk⟩ | ⟨hk, rfl⟩
    · have hw : TooWeak policy f m0 := ⟨h.1, (compare_iff hk).1 h.2⟩
      split
      · rename_i hi
        refine mf_log (mf_pure (quiet_ok ⟨?_, fun h => by rw [h.2.2] at hi; cases hi⟩))
        unfold modeUsed
        rw [if_neg (fun h => h.2 hw)]
      · rename_i hi
        exact mf_log (mf_errorTo (quiet_end (hR hk hw (by simpa using hi))))
    · rw [compareSecurityLevel_refl] at h
      cases h.2
  · rename_i h
    rcases h0 with ⟨rfl, hk⟩ | ⟨hk, rfl⟩
    · have hw : ¬ TooWeak policy f m0 := fun hw => h ⟨hw.1, (compare_iff hk).2 hw.2⟩
      refine mf_pure (quiet_ok ⟨?_, fun h => hw h.2.1⟩)
      unfold modeUsed
      rw [if_pos ⟨hk, hw⟩]
    · refine mf_pure (quiet_ok ⟨?_, fun h => hk h.1⟩)
      unfold modeUsed
      rw [if_neg (fun h => hk h.1)]

theorem mf_checkFlow (hR : clnt.canUseFlow f.type = false → R [] (.inr (.error m b!"unauthorized_client" []))) :
    MF lib uri state [] (checkFlow lib r clnt f m uri state) (Quiet (fun _ => clnt.canUseFlow f.type ≠ false) R) := by
  unfold checkFlow
  split
  · rename_i h
    exact mf_log (mf_errorTo (quiet_end (hR h)))
  · rename_i h
    exact mf_pure (quiet_ok h)

theorem mf_checkDisplay (hR : r.formValue b!"display" ∉ [[], b!"page", b!"popup", b!"wap", b!"touch"] →
      R [] (.inr (.error m b!"invalid_request" (b!"unknown 'display': '" ++ r.formValue b!"display" ++ b!"'")))) :
    MF lib uri state [] (checkDisplay lib r m uri state)
      (Quiet (fun d => d = (if r.formValue b!"display" = [] then b!"page" else r.formValue b!"display") ∧
        ¬ r.formValue b!"display" ∉ [[], b!"page", b!"popup", b!"wap", b!"touch"]) R) := by
  unfold checkDisplay
  dsimp only
  split
  · rename_i h
    refine mf_pure (quiet_ok ⟨rfl, ?_⟩)
    rw [h]; decide
  · rename_i hne
    split
    · rename_i h
      refine mf_pure (quiet_ok ⟨rfl, fun h' => h' ?_⟩)
      simp only [List.mem_cons, List.not_mem_nil, or_false]
      exact .inr h
    · rename_i h
      refine mf_log (mf_errorTo (quiet_end (hR fun h' => ?_)))
      simp only [List.mem_cons, List.not_mem_nil, or_false] at h'
      exact h'.elim hne h

/-- Why a `max_age` is refused. -/
def BadAge1 (r : Req) : Prop := r.formValue b!"max_age" ≠ [] ∧
  (∀ m : Int64, ¬ SignedDecimal (r.formValue b!"max_age") m.toInt)
@[inherit_doc BadAge1]
def BadAge2 (policy : Policy) (r : Req) : Prop := r.formValue b!"max_age" ≠ [] ∧
  (∃ m, SignedDecimal (r.formValue b!"max_age") m ∧ m < policy.minMaxAge.toInt)
@[inherit_doc BadAge1]
def BadAge3 (policy : Policy) (r : Req) : Prop := r.formValue b!"max_age" ≠ [] ∧
  (∃ m, SignedDecimal (r.formValue b!"max_age") m ∧ policy.maxMaxAge.toInt < m)

theorem mf_checkMaxAge
    (hR1 : BadAge1 r → R [] (.inr (.error m b!"invalid_request"
      (b!"'max_age' should be integer: '" ++ r.formValue b!"max_age" ++ b!"'"))))
    (hR2 : ¬ BadAge1 r → BadAge2 policy r → R [] (.inr (.error m b!"invalid_request"
      (b!"'max_age' should be greater than " ++ itoa (policy.minMaxAge - 1)))))
    (hR3 : ¬ BadAge1 r → ¬ BadAge2 policy r → BadAge3 policy r → R [] (.inr (.error m b!"invalid_request"
      (b!"'max_age' should be less than " ++ itoa (policy.maxMaxAge + 1))))) :
    MF lib uri state [] (checkMaxAge policy lib r m uri state)
      (Quiet (fun a => (r.formValue b!"max_age" = [] ∧ a.toInt = 0 ∨
          r.formValue b!"max_age" ≠ [] ∧ SignedDecimal (r.formValue b!"max_age") a.toInt) ∧
        ¬ BadAge1 r ∧ ¬ BadAge2 policy r ∧ ¬ BadAge3 policy r) R) := by
  unfold checkMaxAge
  dsimp only
  split
  · rename_i h
    exact mf_pure (quiet_ok ⟨.inl ⟨h, rfl⟩, fun h' => h'.1 h, fun h' => h'.1 h, fun h' => h'.1 h⟩)
  · rename_i hne
    split
    · rename_i h
      refine mf_log (mf_errorTo (quiet_end (hR1 ⟨hne, fun a ha => ?_⟩)))
      rw [(atoi_iff _ _).2 ha] at h
      cases h
    · rename_i a ha
      replace ha := (atoi_iff _ _).1 ha
      have n1 : ¬ BadAge1 r := fun h => h.2 a ha
      have h2 : a < policy.minMaxAge ↔ BadAge2 policy r := by
        rw [Int64.lt_iff_toInt_lt]
        constructor
        · exact fun h => ⟨hne, _, ha, h⟩
        · rintro ⟨_, b, hb, h⟩; rwa [signedDecimal_unique hb ha] at h
      have h3 : a > policy.maxMaxAge ↔ BadAge3 policy r := by
        rw [GT.gt, Int64.lt_iff_toInt_lt]
        constructor
        · exact fun h => ⟨hne, _, ha, h⟩
        · rintro ⟨_, b, hb, h⟩; rwa [signedDecimal_unique hb ha] at h
      split
      · rename_i h
        exact mf_log (mf_errorTo (quiet_end (hR2 n1 (h2.1 h))))
      · rename_i n2
        replace n2 := fun h => n2 (h2.2 h)
        split
        · rename_i h
          exact mf_log (mf_errorTo (quiet_end (hR3 n1 n2 (h3.1 h))))
        · rename_i n3
          exact mf_pure (quiet_ok ⟨.inr ⟨hne, ha⟩, n1, n2, fun h => n3 (h3.2 h)⟩)

theorem hasWord_iff {s w : GoStr} : HasWord s w ↔ w ∈ split 32 s := by
  constructor
  · rintro ⟨ws, h, hw⟩; rwa [fields_iff.1 h]
  · intro h; exact ⟨_, fields_iff.2 rfl, h⟩

theorem prompt_hasWord {p w : GoStr} : Prompt.includes p w = true ↔ HasWord p w := by
  rw [hasWord_iff]; exact C48_prompt_include_iff (fields_iff.2 rfl)

theorem scope_hasWord {p w : GoStr} : Scope.includes p w = true ↔ HasWord p w := by
  rw [hasWord_iff]; exact C46_include (fields_iff.2 rfl)

/-- A prompt that is refused. -/
def BadPrompt (p : GoStr) : Prop := p ≠ [] ∧ ∀ ws, Words p ws →
  ¬ ((∀ w ∈ ws, w ∈ [b!"none", b!"login", b!"consent", b!"select_account"]) ∧ (b!"none" ∈ ws → ∀ w ∈ ws, w = b!"none"))

theorem mf_checkPrompt (hR : BadPrompt (r.formValue b!"prompt") → R [] (.inr (.error m b!"invalid_request"
      (b!"invalid 'prompt': '" ++ r.formValue b!"prompt" ++ b!"'")))) :
    MF lib uri state [] (checkPrompt lib r m uri state)
      (Quiet (fun p => p = r.formValue b!"prompt" ∧ ¬ BadPrompt (r.formValue b!"prompt")) R) := by
  unfold checkPrompt
  dsimp only
  split
  · rename_i h
    exact mf_log (mf_pure (quiet_ok ⟨h.symm, fun h' => h'.1 h⟩))
  · rename_i hne
    split
    · rename_i h
      exact mf_pure (quiet_ok ⟨rfl, fun h' => h'.2 _ (fields_iff.2 rfl) ((C48_prompt_validate_iff (fields_iff.2 rfl)).1 h)⟩)
    · rename_i h
      exact mf_log (mf_errorTo (quiet_end (hR ⟨hne, fun ws hw h' => h ((C48_prompt_validate_iff hw).2 h')⟩)))

theorem remove_nil {s t : GoStr} {ws : List GoStr} (h : Words s ws) :
    Scope.remove s t = [] ↔ ws.filter (fun w => decide (w ≠ t)) ∈ [[], [[]]] := by
  by_cases hne : ∃ w ∈ ws, w ≠ t
  · have hw := C46_remove h hne
    have h1 : ws.filter (fun w => decide (w ≠ t)) ≠ [] := hw.1
    constructor
    · intro h0
      rw [h0] at hw
      have := fields_iff.1 hw
      rw [← this]; decide
    · intro h0
      simp only [List.mem_cons, List.not_mem_nil, or_false, h1, false_or] at h0
      rw [h0] at hw
      exact (hw.2.2).symm.trans (by rfl)
  · have hall : ∀ w ∈ ws, w = t := fun w hw => Decidable.byContradiction fun h => hne ⟨w, hw, h⟩
    rw [C46_remove_all h hall]
    have : ws.filter (fun w => decide (w ≠ t)) = [] := by
      rw [List.filter_eq_nil_iff]; intro a ha; simp [hall a ha]
    rw [this]; simp

theorem removed_nil {s : GoStr} {ws : List GoStr} (h : Words s ws) (ho : b!"offline_access" ∈ ws) :
    Scope.removeOfflineAccess (Scope.removeOpenID s) = [] ↔
      ws.filter (fun w => decide (w ≠ b!"openid" ∧ w ≠ b!"offline_access")) ∈ [[], [[]]] := by
  have hw : Words (Scope.removeOpenID s) (ws.filter fun w => decide (w ≠ b!"openid")) :=
    C46_remove h ⟨_, ho, by decide⟩
  rw [show Scope.removeOfflineAccess (Scope.removeOpenID s) = [] ↔ _ from remove_nil hw, List.filter_filter]
  have : (ws.filter fun w => decide (w ≠ b!"offline_access") && decide (w ≠ b!"openid")) =
      ws.filter (fun w => decide (w ≠ b!"openid" ∧ w ≠ b!"offline_access")) := by
    congr 1; funext w
    rw [Bool.and_comm, Bool.decide_and]
  rw [← this]
  rfl

/-- `offline_access` with nothing to access. -/
def NothingOffline (policy : Policy) (r : Req) (f : Flow) : Prop :=
  HasWord (r.formValue b!"scope") b!"offline_access" ∧ f.type ≠ .implicit ∧
      HasWord (r.formValue b!"prompt") b!"consent" ∧ policy.allowEmptyScope = false ∧
      (∀ ws, Words (r.formValue b!"scope") ws →
        ws.filter (fun w => decide (w ≠ b!"openid" ∧ w ≠ b!"offline_access")) ∈ [[], [[]]])

/-- The effective scope. -/
def effScope (r : Req) (f : Flow) : GoStr :=
  if Scope.includeOfflineAccess (r.formValue b!"scope") = true ∧
      (f.type = .implicit ∨ Prompt.includeConsent (r.formValue b!"prompt") = false) then
    Scope.removeOfflineAccess (r.formValue b!"scope") else r.formValue b!"scope"

theorem effScope_spec : EffectiveScope f.type (r.formValue b!"prompt") (r.formValue b!"scope") (effScope r f) := by
  intro ws ps hw hp
  have h1 : Scope.includeOfflineAccess (r.formValue b!"scope") = true ↔ b!"offline_access" ∈ ws := C46_include hw
  have h2 : Prompt.includeConsent (r.formValue b!"prompt") = false ↔ b!"consent" ∉ ps := by
    rw [← Bool.not_eq_true]; exact not_congr (C48_prompt_include_iff hp)
  unfold effScope
  by_cases h : b!"offline_access" ∈ ws ∧ (f.type = .implicit ∨ b!"consent" ∉ ps)
  · rw [if_pos h, if_pos ⟨h1.2 h.1, h.2.imp id h2.2⟩]
    dsimp only
    by_cases hne : ∃ w ∈ ws, w ≠ b!"offline_access"
    · exact .inl ⟨(C46_remove hw hne).1, C46_remove hw hne⟩
    · have hall : ∀ w ∈ ws, w = b!"offline_access" := fun w hw => Decidable.byContradiction fun h => hne ⟨w, hw, h⟩
      refine .inr ⟨?_, C46_remove_all hw hall⟩
      rw [List.filter_eq_nil_iff]; intro a ha; simp [hall a ha]
  · rw [if_neg h, if_neg (fun h' => h ⟨h1.1 h'.1, h'.2.imp id h2.1⟩)]

theorem mf_offlineScope (hR : NothingOffline policy r f → R [] (.inr (.error m b!"invalid_request"
      b!"when you request 'offline_access' scope, you should set other scope except for 'openid'"))) :
    MF lib uri state [] (offlineScope policy lib r f (r.formValue b!"prompt") m uri state)
      (Quiet (fun s => s = effScope r f ∧ ¬ NothingOffline policy r f) R) := by
  unfold offlineScope
  dsimp only
  split
  · rename_i ho
    have ho' : HasWord (r.formValue b!"scope") b!"offline_access" := scope_hasWord.1 ho
    split
    · rename_i h
      refine mf_log (mf_pure (quiet_ok ⟨by unfold effScope; rw [if_pos ⟨ho, h⟩], fun h' => ?_⟩))
      rcases h with h | h
      · exact h'.2.1 h
      · have h2 : Prompt.includeConsent (r.formValue b!"prompt") = true := prompt_hasWord.2 h'.2.2.1
        rw [h2] at h
        cases h
    · rename_i h
      have hc : HasWord (r.formValue b!"prompt") b!"consent" := by
        apply prompt_hasWord.1
        cases hp : Prompt.includes (r.formValue b!"prompt") b!"consent" with
        | true => rfl
        | false => exact absurd (.inr hp) h
      have he : effScope r f = r.formValue b!"scope" := by unfold effScope; rw [if_neg (fun h' => h h'.2)]
      have hr : (Scope.removeOfflineAccess (Scope.removeOpenID (r.formValue b!"scope"))).length = 0 ↔
          ∀ ws, Words (r.formValue b!"scope") ws →
            ws.filter (fun w => decide (w ≠ b!"openid" ∧ w ≠ b!"offline_access")) ∈ [[], [[]]] := by
        rw [List.length_eq_zero_iff]
        constructor
        · intro h0 ws hw
          obtain ⟨ws', hw', hm⟩ := ho'
          rw [← fields_iff.1 hw] 
          rw [← fields_iff.1 hw'] at hm
          exact (removed_nil (fields_iff.2 rfl) hm).1 h0
        · intro h0
          exact (removed_nil (fields_iff.2 rfl) (hasWord_iff.1 ho')).2 (h0 _ (fields_iff.2 rfl))
      split
      · rename_i h2
        exact mf_log (mf_errorTo (quiet_end (hR ⟨ho', fun h' => h (.inl h'), hc, h2.1, hr.1 h2.2⟩)))
      · rename_i h2
        exact mf_pure (quiet_ok ⟨he.symm, fun h' => h2 ⟨h'.2.2.2.1, hr.2 h'.2.2.2.2⟩⟩)
  · rename_i ho
    refine mf_pure (quiet_ok ⟨?_, fun h' => ho (scope_hasWord.2 h'.1)⟩)
    unfold effScope
    rw [if_neg (fun h' => ho h'.1)]

theorem asks_idToken (hf : Asks (r.formValue b!"response_type") f) :
    f.requireIdToken = true ↔ HasWord (r.formValue b!"response_type") b!"id_token" := by
  rw [hasWord_iff]
  exact (C47_accepted_tokens (fields_iff.2 rfl) (asks_iff.1 hf)).2.2.2.2.1.symm

theorem asks_notCode (hf : Asks (r.formValue b!"response_type") f) (hi : f.requireIdToken = true) :
    f.type ≠ .authorizationCode := by
  obtain ⟨ws, e, _, he, _, rfl⟩ := hf
  have key : ∀ e ∈ responseTypes, e.2.requireIdToken = true → e.2.type ≠ .authorizationCode := by decide
  exact key e he hi

theorem mf_checkScope {cid s : GoStr} (hf : Asks (r.formValue b!"response_type") f)
    (hR1 : s = [] ∧ policy.allowEmptyScope = false → R [] (.inr (.error m b!"invalid_request" b!"missing 'scope'")))
    (hR2 : ¬ (s = [] ∧ policy.allowEmptyScope = false) →
      HasWord (r.formValue b!"response_type") b!"id_token" ∧ ¬ HasWord s b!"openid" →
      R [] (.inr (.error m b!"invalid_request" (b!"'response_type:" ++ r.formValue b!"response_type" ++
        b!"' requires id_token, but 'scope' doesn't include 'openid'"))))
    (hR3 : ¬ (s = [] ∧ policy.allowEmptyScope = false) →
      ¬ (HasWord (r.formValue b!"response_type") b!"id_token" ∧ ¬ HasWord s b!"openid") →
      clnt.canUseScope f.type s = false → R [] (.inr (.error m b!"invalid_scope" []))) :
    MF lib uri state [] (checkScope policy lib r clnt f cid s m uri state)
      (Quiet (fun _ => ¬ (s = [] ∧ policy.allowEmptyScope = false) ∧
        ¬ (HasWord (r.formValue b!"response_type") b!"id_token" ∧ ¬ HasWord s b!"openid") ∧
        clnt.canUseScope f.type s ≠ false) R) := by
  unfold checkScope
  dsimp only
  split
  · rename_i h
    exact mf_log (mf_errorTo (quiet_end (hR1 h)))
  · rename_i h1
    have ho : Scope.includeOpenID s = false ↔ ¬ HasWord s b!"openid" := by
      rw [← Bool.not_eq_true]; exact not_congr scope_hasWord
    split
    · rename_i h
      exact mf_log (mf_errorTo (quiet_end (hR2 h1 ⟨(asks_idToken hf).1 h.1, ho.1 h.2⟩)))
    · rename_i h2
      replace h2 : ¬ (HasWord (r.formValue b!"response_type") b!"id_token" ∧ ¬ HasWord s b!"openid") :=
        fun h => h2 ⟨(asks_idToken hf).2 h.1, ho.2 h.2⟩
      split
      · rename_i h
        exact mf_log (mf_errorTo (quiet_end (hR3 h1 h2 h)))
      · rename_i h3
        exact mf_pure (quiet_ok ⟨h1, h2, h3⟩)

theorem mf_checkNonce {s : GoStr} (hf : Asks (r.formValue b!"response_type") f)
    (hs : ¬ (HasWord (r.formValue b!"response_type") b!"id_token" ∧ ¬ HasWord s b!"openid"))
    (hR1 : HasWord (r.formValue b!"response_type") b!"id_token" ∧ r.formValue b!"nonce" = [] →
      R [] (.inr (.error m b!"invalid_request" (b!"'response_type:" ++ r.formValue b!"response_type" ++
        b!"' requires 'nonce' parameter"))))
    (hR2 : ¬ (HasWord (r.formValue b!"response_type") b!"id_token" ∧ r.formValue b!"nonce" = []) →
      r.formValue b!"nonce" ≠ [] ∧ policy.maxNonceLength.toInt < ((r.formValue b!"nonce").length : Int) →
      R [] (.inr (.error m b!"invalid_request"
        (b!"length of 'nonce' should be less than " ++ itoa (policy.maxNonceLength + 1))))) :
    MF lib uri state [] (checkNonce policy lib r f s m uri state)
      (Quiet (fun n => n = r.formValue b!"nonce" ∧
        ¬ (HasWord (r.formValue b!"response_type") b!"id_token" ∧ r.formValue b!"nonce" = []) ∧
        ¬ (r.formValue b!"nonce" ≠ [] ∧ policy.maxNonceLength.toInt < ((r.formValue b!"nonce").length : Int))) R) := by
  unfold checkNonce
  dsimp only
  split
  · rename_i h
    exact mf_log (mf_errorTo (quiet_end (hR1 ⟨(asks_idToken hf).1 h.2.2.1, h.2.2.2⟩)))
  · rename_i h
    have h1 : ¬ (HasWord (r.formValue b!"response_type") b!"id_token" ∧ r.formValue b!"nonce" = []) := by
      rintro ⟨h1, h2⟩
      have hi := (asks_idToken hf).2 h1
      refine h ⟨asks_notCode hf hi, ?_, hi, h2⟩
      apply scope_hasWord.2
      exact Classical.byContradiction fun h3 => hs ⟨h1, h3⟩
    split
    · rename_i h
      exact mf_log (mf_errorTo (quiet_end (hR2 h1 h)))
    · rename_i h2
      exact mf_pure (quiet_ok ⟨rfl, h1, h2⟩)

theorem mf_checkVerifier (hR : r.formValue b!"code_verifier" ≠ [] ∧
      policy.maxCodeVerifierLength.toInt < ((r.formValue b!"code_verifier").length : Int) →
      R [] (.inr (.error m b!"invalid_request"
        (b!"length of 'code_verifier' should be less than " ++ itoa (policy.maxCodeVerifierLength + 1))))) :
    MF lib uri state [] (checkVerifier policy lib r m uri state)
      (Quiet (fun n => n = r.formValue b!"code_verifier" ∧ ¬ (r.formValue b!"code_verifier" ≠ [] ∧
        policy.maxCodeVerifierLength.toInt < ((r.formValue b!"code_verifier").length : Int))) R) := by
  unfold checkVerifier
  dsimp only
  split
  · rename_i h
    exact mf_log (mf_errorTo (quiet_end (hR h)))
  · rename_i h
    exact mf_pure (quiet_ok ⟨rfl, h⟩)

theorem ff_here {p : Prop} {c d : GoStr} {l : List (Prop × GoStr × GoStr)} (h : p) : FirstFault ((p, c, d) :: l) c d :=
  ⟨[], p, l, rfl, by simp, h⟩

theorem ff_next {p : Prop} {c d c' d' : GoStr} {l : List (Prop × GoStr × GoStr)} (hn : ¬ p) (h : FirstFault l c' d') :
    FirstFault ((p, c, d) :: l) c' d' := by
  obtain ⟨pre, q, post, rfl, h1, h2⟩ := h
  refine ⟨(p, c, d) :: pre, q, post, rfl, fun x hx => ?_, h2⟩
  rcases List.mem_cons.1 hx with rfl | hx
  · exact hn
  · exact h1 x hx

theorem fa_nil : ∀ x ∈ ([] : List (Prop × GoStr × GoStr)), ¬ x.1 := by simp

theorem fa_next {p : Prop} {c d : GoStr} {l : List (Prop × GoStr × GoStr)} (hn : ¬ p) (h : ∀ x ∈ l, ¬ x.1) :
    ∀ x ∈ (p, c, d) :: l, ¬ x.1 := by
  intro x hx
  rcases List.mem_cons.1 hx with rfl | hx
  · exact hn
  · exact h x hx

theorem mf_buildRequest : MF lib (r.formValue b!"redirect_uri") (r.formValue b!"state") []
    (buildRequest policy lib r clnt) (Checked policy r clnt) := by
  unfold buildRequest
  dsimp only
  refine mf_quiet (mf_judgeFlow .noResponseType .responseType) fun f hf => ?_
  have hm1 : r.formValue b!"response_mode" ∉ knownModes →
      modeOfFlow policy f = modeUsed policy f (r.formValue b!"response_mode") := by
    intro h; unfold modeUsed; rw [if_neg (fun h' => h h'.1)]
  have hm2 : TooWeak policy f (r.formValue b!"response_mode") →
      modeOfFlow policy f = modeUsed policy f (r.formValue b!"response_mode") := by
    intro h; unfold modeUsed; rw [if_neg (fun h' => h'.2 h)]
  have bad : ∀ {code desc m}, m = modeUsed policy f (r.formValue b!"response_mode") →
      FirstFault (faults policy clnt r f (effScope r f)) code desc →
      Checked policy r clnt [] (.inr (.error m code desc)) := by
    rintro code desc m rfl h; exact .fault hf effScope_spec h
  refine mf_quiet (mf_pickMode fun h1 h2 h3 => bad (hm1 h2) (ff_here ⟨h1, h2, h3⟩)) fun m0 h0 => ?_
  have n1 : ¬ (r.formValue b!"response_mode" ≠ [] ∧ r.formValue b!"response_mode" ∉ knownModes ∧
      policy.ignoreInvalidResponseMode = false) := by
    rcases h0 with ⟨_, h⟩ | ⟨_, _, h⟩
    · exact fun h' => h'.2.1 h
    · exact h
  refine mf_quiet (mf_checkModeLevel (rm := r.formValue b!"response_mode") (h0.imp id fun h => ⟨h.1, h.2.1⟩)
    fun h1 h2 h3 => bad (hm2 h2) (ff_next n1 (ff_here ⟨h1, h2, h3⟩))) fun m hm => ?_
  obtain ⟨hm, n2⟩ := hm
  refine mf_quiet (mf_checkFlow fun h => bad hm (ff_next n1 (ff_next n2 (ff_here h)))) fun _ n3 => ?_
  refine mf_quiet (mf_checkDisplay fun h => bad hm (ff_next n1 (ff_next n2 (ff_next n3 (ff_here h))))) fun d hd => ?_
  obtain ⟨hd, n4⟩ := hd
  have b5 : ∀ {code desc}, FirstFault ((faults policy clnt r f (effScope r f)).drop 4) code desc →
      Checked policy r clnt [] (.inr (.error m code desc)) := fun h => bad hm
    (ff_next n1 (ff_next n2 (ff_next n3 (ff_next n4 h))))
  refine mf_quiet (mf_checkMaxAge (policy := policy) (fun h => b5 (ff_here h)) (fun h1 h => b5 (ff_next h1 (ff_here h)))
    (fun h1 h2 h => b5 (ff_next h1 (ff_next h2 (ff_here h))))) fun ma hma => ?_
  obtain ⟨hma, n5, n5', n5''⟩ := hma
  have b6 : ∀ {code desc}, FirstFault ((faults policy clnt r f (effScope r f)).drop 7) code desc →
      Checked policy r clnt [] (.inr (.error m code desc)) := fun h => b5 (ff_next n5 (ff_next n5' (ff_next n5'' h)))
  refine mf_quiet (mf_checkPrompt fun h => b6 (ff_here h)) fun p hp => ?_
  obtain ⟨rfl, n6⟩ := hp
  refine mf_quiet (mf_offlineScope fun h => b6 (ff_next n6 (ff_here h))) fun s hs => ?_
  obtain ⟨rfl, n7⟩ := hs
  have b8 : ∀ {code desc}, FirstFault ((faults policy clnt r f (effScope r f)).drop 9) code desc →
      Checked policy r clnt [] (.inr (.error m code desc)) := fun h => b6 (ff_next n6 (ff_next n7 h))
  refine mf_quiet (mf_checkScope hf (fun h => b8 (ff_here h)) (fun h1 h => b8 (ff_next h1 (ff_here h)))
    (fun h1 h2 h => b8 (ff_next h1 (ff_next h2 (ff_here h))))) fun _ hs => ?_
  obtain ⟨n8, n9, n10⟩ := hs
  have b11 : ∀ {code desc}, FirstFault ((faults policy clnt r f (effScope r f)).drop 12) code desc →
      Checked policy r clnt [] (.inr (.error m code desc)) := fun h => b8 (ff_next n8 (ff_next n9 (ff_next n10 h)))
  refine mf_quiet (mf_checkNonce hf n9 (fun h => b11 (ff_here h)) (fun h1 h => b11 (ff_next h1 (ff_here h)))) fun n hn => ?_
  obtain ⟨rfl, n11, n12⟩ := hn
  refine mf_quiet (mf_checkVerifier (fun h => b11 (ff_next n11 (ff_next n12 (ff_here h))))) fun v hv => ?_
  obtain ⟨rfl, n13⟩ := hv
  have none : ∀ x ∈ faults policy clnt r f (effScope r f), ¬ x.1 :=
    fa_next n1 (fa_next n2 (fa_next n3 (fa_next n4 (fa_next n5 (fa_next n5' (fa_next n5'' (fa_next n6 (fa_next n7
      (fa_next n8 (fa_next n9 (fa_next n10 (fa_next n11 (fa_next n12 (fa_next n13 fa_nil))))))))))))))
  subst hm hd
  refine mf_mono (mf_bind (R := fun c res => (∃ l, res = .inl l ∧
      c = [⟨.chooseLocale (r.formValue b!"ui_locales"), some l⟩]) ∨ ∃ e, res = .inr e ∧ Checked policy r clnt c (.inr e))
    (S := fun l c res => c = [] ∧ res = .inl (requestFrom policy r f (effScope r f) l ma)) ?_ ?_) ?_
  · unfold chooseLocale
    refine mf_ask rfl fun ans => ?_
    cases ans with
    | none => exact mf_callbackFailed (.inr ⟨_, rfl, Checked.noLocale hf effScope_spec none⟩)
    | some l => exact mf_pure (.inl ⟨l, rfl, rfl⟩)
  · intro _ l _
    exact mf_pure ⟨rfl, rfl⟩
  · rintro c res (⟨e, rfl, ⟨_, h1, _⟩ | ⟨e', h1, h2⟩⟩ | ⟨c1, c2, x, hc, ⟨a, h1, rfl⟩ | ⟨_, h1, _⟩, rfl, rfl⟩)
    · cases h1
    · cases h1; exact h2
    · cases h1
      rw [hc]
      exact Checked.ok hf effScope_spec none hma
    · cases h1

end checks

end Goidc
