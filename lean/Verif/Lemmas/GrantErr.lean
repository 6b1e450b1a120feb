import Verif.Lemmas.TokenHandler
import Verif.Lemmas.History

/-! # Failures of the grants: no panics, which errors, and what backend errors become -/

namespace Goidc

variable {α β ε : Type}

/-- The error types the built-in grants return. -/
def grantErrors : List OAuthErrorType :=
  [.invalidGrant, .invalidRequest, .invalidScope, .invalidClient, .serverError]

/-- The errors the built-in grants return: one of these types, without URI. -/
def PlainErr (e : OAuthError) : Prop := e.type ∈ grantErrors ∧ e.uri = []

instance : DecidablePred PlainErr := fun e => inferInstanceAs (Decidable (_ ∧ _))

/-- What a failed backend call must become. -/
def Matches (e : Event) (err : OAuthError) : Prop :=
  match e.answer with
  | .err .failed => err.type = e.q.refusalCode
  | _ => err = OAuthError.simple .serverError

/-- The program only logs and then fails as the answer `a` demands. -/
def FailsAs (a : Event) (p : GrantM α) : Prop :=
  ∀ t o, Runs p.run t o → (∀ x ∈ t, x.q.isLog = true) ∧ ∃ err, o = .ok (.error err) ∧ Matches a err

/-- Never panics, returns only the listed errors, and stops at the first failed backend call. -/
structure Good (p : GrantM α) : Prop where
  noPanic : NoPanic p.run
  errs : ∀ t e, XErr p t e → PlainErr e
  bad : ∀ t1 e t2 o, Runs p.run (t1 ++ e :: t2) o → e.answer ≠ .good →
    (∀ x ∈ t2, x.q.isLog = true) ∧ ∃ err, o = .ok (.error err) ∧ Matches e err

theorem good_pure {a : α} : Good (pure a : GrantM α) :=
  ⟨noPanic_xpure, fun _ _ h => by simp at h, fun t1 e t2 o h => by
    have := (show _ ∧ _ from h).1; simp at this⟩

theorem good_throw {e : OAuthError} (h : PlainErr e) : Good (throw e : GrantM α) :=
  ⟨noPanic_xthrow, fun _ _ h' => by rw [xerr_throw] at h'; rw [h'.2]; exact h, fun t1 e t2 o h => by
    have := (show _ ∧ _ from h).1; simp at this⟩

theorem split_append {β} {t1 t2 s1 s2 : List β} {e : β} (h : t1 ++ e :: t2 = s1 ++ s2) :
    (∃ s, s1 = t1 ++ e :: s ∧ t2 = s ++ s2) ∨ (∃ s, t1 = s1 ++ s ∧ s2 = s ++ e :: t2) := by
  rcases List.append_eq_append_iff.1 h with ⟨a, h1, h2⟩ | ⟨a, h1, h2⟩
  · cases a with
    | nil =>
      right
      exact ⟨[], by simpa using h1.symm, by simpa using h2.symm⟩
    | cons x a =>
      simp only [List.cons_append, List.cons.injEq] at h2
      obtain ⟨rfl, rfl⟩ := h2
      exact .inl ⟨a, h1, rfl⟩
  · exact .inr ⟨a, h1, h2⟩

theorem good_bind {p : GrantM α} {f : α → GrantM β} (hp : Good p) (hf : ∀ a t, XOk p t a → Good (f a)) :
    Good (p >>= f) where
  noPanic := noPanic_xbind hp.noPanic fun a t h => (hf a t h).noPanic
  errs t e h := by
    rcases xerr_bind.1 h with h1 | ⟨a, t1, t2, rfl, h1, h2⟩
    · exact hp.errs _ _ h1
    · exact (hf a t1 h1).errs _ _ h2
  bad t1 e t2 o h hb := by
    rw [xrun_bind] at h
    rcases runs_bind.1 h with ⟨r, s1, s2, hs, h1, h2⟩ | ⟨h0, rfl⟩
    · rcases split_append hs with ⟨s, rfl, rfl⟩ | ⟨s, rfl, rfl⟩
      · obtain ⟨hl, err, he, hm⟩ := hp.bad _ _ _ _ h1 hb
        cases he
        obtain ⟨rfl, rfl⟩ := (show _ ∧ _ from h2)
        exact ⟨by simpa using hl, err, rfl, hm⟩
      · cases r with
        | ok a => exact (hf a s1 h1).bad _ _ _ _ h2 hb
        | error e' => exact absurd (show _ ∧ _ from h2).1 (by simp)
    · exact absurd h0 (hp.noPanic _)

/-- A call outside the data operations. -/
theorem good_lift_ask {q : Query} (hq : ∀ r, (⟨q, r⟩ : Event).answer = .good) : Good (gask q) where
  noPanic := noPanic_xlift noPanic_ask
  errs t e h := by
    have h' : XErr (ExceptT.lift (ask q) : GrantM q.Resp) t e := h
    unfold XErr at h'
    rw [xrun_lift] at h'
    rcases runs_bind.1 h' with ⟨_, _, _, _, _, h⟩ | ⟨_, h⟩
    · cases h.2
    · cases h
  bad t1 e t2 o h hb := by
    have h' : Runs (ExceptT.lift (ask q) : GrantM q.Resp).run (t1 ++ e :: t2) o := h
    rw [xrun_lift] at h'
    rcases runs_bind.1 h' with ⟨r, s1, s2, hs, h1, h2⟩ | ⟨h1, _⟩
    · obtain ⟨r', rfl, _⟩ := runs_ask.1 h1
      obtain ⟨rfl, _⟩ := (show _ ∧ _ from h2)
      cases t1 with
      | nil =>
        simp only [List.nil_append, List.append_nil, List.cons.injEq] at hs
        obtain ⟨rfl, _⟩ := hs
        exact absurd (hq _) hb
      | cons x t1 => simp at hs
    · exact absurd h1 (noPanic_ask _)

theorem good_glog {lv gt ev ps} : Good (glog lv gt ev ps) :=
  good_lift_ask (q := .log ⟨lv, b!"token_endpoint", gt, ev, ps⟩) fun _ => rfl

theorem good_log_throw {lv gt ev ps} {e : OAuthError} (h : PlainErr e) :
    Good (do glog lv gt ev ps; throw e : GrantM α) :=
  good_bind good_glog fun _ _ _ => good_throw h

theorem failsAs_log_throw {a lv gt ev ps} {e : OAuthError} (h : Matches a e) :
    FailsAs a (do glog lv gt ev ps; throw e : GrantM α) := by
  intro t o hr
  rw [xrun_bind] at hr
  have hg : ∀ t o, Runs (glog lv gt ev ps).run t o →
      t = [logged ⟨lv, b!"token_endpoint", gt, ev, ps⟩] ∧ o = .ok (.ok ()) := by
    intro t o h
    have h' : Runs (ExceptT.lift (tlog lv gt ev ps) : GrantM Unit).run t o := h
    rw [xrun_lift] at h'
    rcases runs_bind.1 h' with ⟨r, s1, s2, rfl, h1, h2⟩ | ⟨h1, _⟩
    · obtain ⟨r', rfl, _⟩ := runs_ask.1 h1
      obtain ⟨rfl, rfl⟩ := (show _ ∧ _ from h2)
      exact ⟨rfl, rfl⟩
    · exact absurd h1 (noPanic_ask _)
  rcases runs_bind.1 hr with ⟨r, s1, s2, rfl, h1, h2⟩ | ⟨h1, _⟩
  · obtain ⟨rfl, hr'⟩ := hg _ _ h1
    cases hr'
    obtain ⟨rfl, rfl⟩ := (show _ ∧ _ from h2)
    exact ⟨by simp [Query.isLog], e, rfl, h⟩
  · cases (hg _ _ h1).2

theorem failsAs_bind {a} {p : GrantM α} {f : α → GrantM β} (hp : FailsAs a p) : FailsAs a (p >>= f) := by
  intro t o h
  rw [xrun_bind] at h
  rcases runs_bind.1 h with ⟨r, s1, s2, rfl, h1, h2⟩ | ⟨h1, _⟩
  · obtain ⟨hl, err, he, hm⟩ := hp _ _ h1
    cases he
    obtain ⟨rfl, rfl⟩ := (show _ ∧ _ from h2)
    exact ⟨by simpa using hl, err, rfl, hm⟩
  · obtain ⟨_, err, he, _⟩ := hp _ _ h1
    cases he

/-- The fixed error of a site is one of the listed ones and has the code of the call. -/
def SiteOk (q : Query) (s : Site) : Prop := PlainErr (s.failError) ∧ s.failError.type = q.refusalCode

theorem good_onErr {gt s e} (h : PlainErr s.failError) : Good (onErr gt s e : GrantM α) := by
  cases e
  · exact good_log_throw (by decide)
  · exact good_log_throw (by decide)
  · exact good_log_throw h
  · exact good_log_throw (by decide)

theorem failsAs_onErr {gt s e} {ev : Event} (ha : ev.answer = .err e) (h : SiteOk ev.q s) :
    FailsAs ev (onErr gt s e : GrantM α) := by
  cases e
  · exact failsAs_log_throw (by unfold Matches; rw [ha])
  · exact failsAs_log_throw (by unfold Matches; rw [ha])
  · exact failsAs_log_throw (by unfold Matches; rw [ha]; exact h.2)
  · exact failsAs_log_throw (by unfold Matches; rw [ha])

theorem good_checkVal {gt s} {v : Option α × Option ErrType} (h : PlainErr s.failError) : Good (checkVal gt s v) := by
  rcases v with ⟨_ | x, _ | e⟩
  · exact good_log_throw (by decide)
  · exact good_onErr h
  · exact good_pure
  · exact good_onErr h

theorem failsAs_checkVal {gt s} {v : Option α × Option ErrType} {ev : Event}
    (ha : ev.answer = Answer.ofPair v) (h : SiteOk ev.q s)
    (hb : ev.answer ≠ .good) : FailsAs ev (checkVal gt s v) := by
  rcases v with ⟨_ | x, _ | e⟩
  · exact failsAs_log_throw (by unfold Matches; rw [ha]; rfl)
  · exact failsAs_onErr ha h
  · exact absurd ha hb
  · exact failsAs_onErr ha h

theorem good_checkErr {gt s v} (h : PlainErr s.failError) : Good (checkErr gt s v) := by
  cases v
  · exact good_pure
  · exact good_onErr h

theorem failsAs_checkErr {gt s} {v : Option ErrType} {ev : Event} (ha : ev.answer = Answer.ofErr v)
    (h : SiteOk ev.q s) (hb : ev.answer ≠ .good) : FailsAs ev (checkErr gt s v) := by
  cases v
  · exact absurd ha hb
  · exact failsAs_onErr ha h

theorem good_ask_bind {q : Query} {f : q.Resp → GrantM β} (h1 : ∀ r, Good (f r))
    (h2 : ∀ r, (⟨q, r⟩ : Event).answer ≠ .good → FailsAs ⟨q, r⟩ (f r)) :
    Good (gask q >>= f) := by
  have key : ∀ t o, Runs (gask q >>= f).run t o → ∃ r t', t = ⟨q, r⟩ :: t' ∧ Runs (f r).run t' o := by
    intro t o h
    have h' : Runs (ExceptT.lift (ask q) >>= f : GrantM β).run t o := h
    rw [xrun_bind, xrun_lift] at h'
    rcases runs_bind.1 h' with ⟨r, s1, s2, rfl, h1, h2⟩ | ⟨h1, _⟩
    · rcases runs_bind.1 h1 with ⟨r', u1, u2, rfl, h3, h4⟩ | ⟨_, h3⟩
      · obtain ⟨r'', rfl, hr⟩ := runs_ask.1 h3
        cases hr
        obtain ⟨rfl, hr⟩ := (show _ ∧ _ from h4)
        cases hr
        exact ⟨r', s2, rfl, h2⟩
      · cases h3
    · rcases runs_bind.1 h1 with ⟨r', u1, u2, rfl, h3, h4⟩ | ⟨h3, _⟩
      · cases (show _ ∧ _ from h4).2
      · exact absurd h3 (noPanic_ask _)
  constructor
  · intro t h
    obtain ⟨r, t', _, h⟩ := key _ _ h
    exact (h1 r).noPanic _ h
  · intro t e h
    obtain ⟨r, t', _, h⟩ := key _ _ h
    exact (h1 r).errs _ _ h
  · intro t1 e t2 o h hb
    obtain ⟨r, t', ht, h⟩ := key _ _ h
    cases t1 with
    | nil =>
      simp only [List.nil_append, List.cons.injEq] at ht
      obtain ⟨rfl, rfl⟩ := ht
      exact h2 r hb _ _ h
    | cons x t1 =>
      simp only [List.cons_append, List.cons.injEq] at ht
      obtain ⟨rfl, rfl⟩ := ht
      exact (h1 r).bad _ _ _ _ h hb

/-- The site's error is one of the listed ones. -/
macro "plainok" : tactic => `(tactic| exact ⟨List.contains_iff_mem.1 rfl, rfl⟩)

/-- The site's error is fixed and has the right code. -/
macro "siteok" : tactic => `(tactic| exact ⟨⟨List.contains_iff_mem.1 rfl, rfl⟩, rfl⟩)

/-- A data call answering `(value, error)`, checked at once. -/
macro "gcall" : tactic => `(tactic|
  refine good_ask_bind (fun _ => good_bind (good_checkVal (by plainok)) fun _ _ _ => ?_)
    (fun _ hb => failsAs_bind (failsAs_checkVal rfl (by siteok) hb)))

/-- A data call answering an error only, checked at once. -/
macro "gcallErr" : tactic => `(tactic|
  refine good_ask_bind (fun _ => good_bind (good_checkErr (by plainok)) fun _ _ _ => ?_)
    (fun _ hb => failsAs_bind (failsAs_checkErr rfl (by siteok) hb)))

theorem good_ite {c : Prop} [Decidable c] {p q : GrantM α} (h1 : c → Good p) (h2 : ¬ c → Good q) :
    Good (if c then p else q) := by
  by_cases h : c <;> simp only [h, if_true, if_false]
  · exact h1 h
  · exact h2 h

/-! ## The grants -/

namespace Grant

theorem good_needParam {gt c r n} : Good (needParam gt c r n) :=
  good_ite (fun _ => good_log_throw (by simp [PlainErr, OAuthError.new, grantErrors])) fun _ => good_pure

theorem good_checkScope {gt c s} : Good (checkScope gt c s) :=
  good_ite (fun _ => good_log_throw (by decide)) fun _ => good_pure

theorem good_issue {gt c u s} : Good (issue gt c u s) := by
  unfold issue
  gcall
  gcall
  exact good_pure

theorem good_checkPkce {lib r c s} : Good (checkPkce lib r c s) := by
  unfold checkPkce
  refine good_ite (fun _ => good_pure) fun _ => good_bind good_needParam fun _ _ _ =>
    good_bind good_needParam fun _ _ _ => ?_
  split
  · exact good_log_throw (by simp [PlainErr, OAuthError.new, grantErrors])
  · exact good_ite (fun _ => good_pure) fun _ => good_log_throw (by simp [PlainErr, OAuthError.new, grantErrors])

theorem good_attachIdToken {lib c i s now r} : Good (attachIdToken lib c i s now r) := by
  unfold attachIdToken
  refine good_ite (fun _ => good_bind good_glog fun _ _ _ => good_ask_bind (fun iss => ?_)
    (fun _ h => absurd rfl h)) fun _ => good_pure
  split
  · exact good_log_throw (by decide)
  · exact good_pure

theorem good_authorizationCode {lib r c now} : Good (authorizationCode lib r c now) := by
  unfold authorizationCode
  refine good_bind good_needParam fun _ _ _ => good_bind good_needParam fun _ _ _ => ?_
  gcall
  gcall
  refine good_ite (fun _ => good_log_throw (by decide)) fun _ =>
    good_ite (fun _ => good_log_throw (by simp [PlainErr, OAuthError.new, grantErrors])) fun _ => ?_
  refine good_bind good_checkPkce fun _ _ _ => ?_
  gcall
  gcallErr
  exact good_attachIdToken

theorem good_refreshToken {r c now} : Good (refreshToken r c now) := by
  unfold refreshToken
  refine good_bind good_needParam fun _ _ _ => ?_
  gcall
  refine good_ite (fun _ => good_log_throw (by decide)) fun _ => ?_
  gcall
  refine good_ite (fun _ => good_log_throw (by decide)) fun _ =>
    good_ite (fun _ => good_log_throw (by decide)) fun _ => ?_
  gcall
  exact good_pure

theorem good_password {r c now} : Good (password r c now) := by
  unfold password
  refine good_bind good_needParam fun _ _ _ => good_bind good_needParam fun _ _ _ =>
    good_bind good_checkScope fun _ _ _ => ?_
  gcallErr
  exact good_issue

theorem good_clientCredentials {r c now} : Good (clientCredentials r c now) :=
  good_ite (fun _ => good_log_throw (by decide)) fun _ =>
    good_bind good_checkScope fun _ _ _ => good_issue

end Grant

/-! ## Assertions -/

theorem parse_noPanic {σ : Type} {lib : Lib} {s : GoStr} {s0 : σ} {kf} (hk : ∀ t, NoPanic (kf t)) :
    NoPanic (Jwt.parse lib s s0 kf) := by
  unfold Jwt.parse
  split
  · exact noPanic_ret
  · split
    · exact noPanic_ret
    · refine noPanic_bind (hk _) fun ⟨kr, s1⟩ t h => ?_
      cases kr
      · exact noPanic_bind noPanic_ask fun _ _ _ => noPanic_ret
      · exact noPanic_ret
      · exact noPanic_ret

namespace Assertion

theorem good_alog {lv gt a c} : Good (alog lv gt a (some c)) :=
  good_bind good_pure fun _ _ _ => good_glog

theorem good_onJwtErr {a gt c ve} (hi : ∀ e, ve.inner = some e → PlainErr e)
    (hc : ve.unverifiable = false → c ≠ none) : Good (onJwtErr a gt c ve : GrantM α) := by
  unfold onJwtErr
  refine good_ite (fun hu => ?_) fun hu => ?_
  · split
    · rename_i e he
      exact good_log_throw (hi e he)
    · exact good_log_throw (by decide)
  · obtain ⟨c, rfl⟩ := Option.ne_none_iff_exists'.1 (hc (by simpa using hu))
    exact good_ite (fun _ => good_bind good_alog fun _ _ _ => good_throw (by decide)) fun _ =>
      good_ite (fun _ => good_bind good_alog fun _ _ _ => good_throw (by decide)) fun _ =>
      good_ite (fun _ => good_bind good_alog fun _ _ _ => good_throw (by decide)) fun _ =>
      good_ite (fun _ => good_bind good_alog fun _ _ _ => good_throw (by decide)) fun _ =>
      good_bind good_alog fun _ _ _ => good_throw (by decide)

theorem good_checkClaims {a gt c t} : Good (checkClaims a gt (some c) t) := by
  unfold checkClaims
  split
  · exact good_bind good_pure fun _ _ _ => good_log_throw (by decide)
  · refine good_bind good_pure fun _ _ _ => ?_
    gcallErr
    split
    · exact good_log_throw (by decide)
    · refine good_ask_bind (fun svc => ?_) fun _ h => absurd rfl h
      refine good_ite (fun _ => good_log_throw (by decide)) fun _ => good_ite (fun _ => ?_) fun _ => good_pure
      exact good_bind good_alog fun _ _ _ => good_throw (by simp [PlainErr, OAuthError.new, grantErrors])

theorem good_handle {a gt c t e} (hi : ∀ ve, e = some ve → ∀ x, ve.inner = some x → PlainErr x)
    (hc : (∀ ve, e = some ve → ve.unverifiable = false) → c ≠ none) (ht : e = none → t ≠ none) :
    Good (handle a gt c t e) := by
  unfold handle
  split
  · rename_i ve
    refine good_onJwtErr (hi ve rfl) fun hu => hc ?_
    intro ve' h
    cases h
    exact hu
  · obtain ⟨c, rfl⟩ := Option.ne_none_iff_exists'.1 (hc (by simp))
    split
    · exact absurd rfl (ht rfl)
    · exact good_checkClaims

end Assertion

theorem good_lift {p : Prog α} (hp : NoPanic p)
    (hq : AllQ (fun q => ∀ r, (⟨q, r⟩ : Event).answer = .good) p) : Good (ExceptT.lift p : GrantM α) where
  noPanic := noPanic_xlift hp
  errs t e h := by
    unfold XErr at h
    rw [xrun_lift] at h
    rcases runs_bind.1 h with ⟨_, _, _, _, _, h⟩ | ⟨_, h⟩
    · cases h.2
    · cases h
  bad t1 e t2 o h hb := by
    have h' := allQ_runs (allQ_xlift (ε := OAuthError) hq) h e (by simp) e.r
    exact absurd h' hb

theorem Grant.good_jwt {lib r c now} : Good (Grant.jwt lib r c now) := by
  unfold Grant.jwt
  have hk : ∀ t, ∃ kr, jwtKeyFunc c t = .ret (kr, ()) ∧ ∀ e, kr ≠ .oauthErr e := by
    intro t
    unfold jwtKeyFunc
    split
    · exact ⟨_, rfl, by simp⟩
    · exact ⟨_, rfl, by simp⟩
  refine good_bind Grant.good_needParam fun a _ _ => good_bind (good_lift (parse_noPanic ?_)
    (allQ_parse (fun _ => rfl) ?_)) fun p t hp => ?_
  · intro t
    obtain ⟨_, h, _⟩ := hk t
    rw [h]
    exact noPanic_ret
  · intro t
    obtain ⟨_, h, _⟩ := hk t
    rw [h]
    trivial
  · obtain ⟨hin, htok⟩ : (∀ ve, p.2.1 = some ve → ve.inner = none) ∧ (p.2.1 = none → p.1 ≠ none) := by
      replace hp := xok_lift.1 hp
      constructor
      · unfold Jwt.parse at hp
        split at hp
        · obtain ⟨_, hp⟩ := hp
          cases hp
          intro ve h; cases h; rfl
        · rename_i tk _
          split at hp
          · obtain ⟨_, hp⟩ := hp
            cases hp
            intro ve h; cases h; rfl
          · obtain ⟨kr, h, hne⟩ := hk tk
            rw [h] at hp
            simp only [Prog.bind_eq, Prog.bind] at hp
            cases kr with
            | oauthErr e => exact absurd rfl (hne e)
            | err =>
              obtain ⟨_, hp⟩ := (show _ ∧ _ from hp)
              cases hp
              intro ve h; cases h; rfl
            | key k =>
              obtain ⟨_, _, _, _, hp⟩ := (show ∃ _, _ from hp)
              cases hp
              intro ve h
              dsimp only at h
              split at h
              · cases h
              · cases h; rfl
      · intro h
        obtain ⟨tok, ve, u⟩ := p
        simp only at h
        subst h
        obtain ⟨tk, _, _, _, _, rfl, _⟩ := parse_ok hp
        simp
    refine good_bind (Assertion.good_handle (fun ve h x hx => ?_) (fun _ => by simp) htok) fun _ t hh => ?_
    · rw [hin ve h] at hx; cases hx
    · obtain ⟨_, tk, htk, _⟩ := handle_ok hh
      rw [htk]
      dsimp only
      split
      · exact good_log_throw (by decide)
      · gcallErr
        exact good_bind Grant.good_checkScope fun _ _ _ => Grant.good_issue

/-- Every built-in grant is good. -/
theorem builtIn_good {lib h} (hb : Spec.BuiltIn lib h) (r c now) : Good (h r c now) := by
  cases hb
  · exact Grant.good_authorizationCode
  · exact Grant.good_refreshToken
  · exact Grant.good_password
  · exact Grant.good_clientCredentials
  · exact Grant.good_jwt

end Goidc
