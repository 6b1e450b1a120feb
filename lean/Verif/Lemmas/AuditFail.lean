import Verif.Lemmas.Audit

/-! # Failures of the application are reported -/

namespace Goidc

open Spec TokenEndpoint

variable {α β : Type} {N : Query → LogLine → Prop}

/-- Every failure is followed by its report. -/
def Rep (N : Query → LogLine → Prop) : Prog α → Prop
  | .ret _ => True
  | .panic => True
  | .call q k => ∀ x, (∀ f, failure q x = some f → ∃ l k', k x = .call (.log l) k' ∧ Reports q f l ∧ N q l) ∧ Rep N (k x)

theorem rep_bind {p : Prog α} {f : α → Prog β} (hp : Rep N p) (hf : ∀ a, Rep N (f a)) : Rep N (p.bind f) := by
  induction p with
  | ret a => exact hf a
  | panic => exact trivial
  | call q k ih =>
    intro x
    refine ⟨fun f' hf' => ?_, ih x (hp x).2⟩
    obtain ⟨l, k', h1, h2⟩ := (hp x).1 f' hf'
    exact ⟨l, fun r => (k' r).bind f, by show (k x).bind f = _; rw [h1]; rfl, h2⟩

theorem rep_steps {p : Prog α} {t} (h : Rep N p) (hs : Steps p t) : Reported N t := by
  induction p generalizing t with
  | ret a =>
    obtain rfl : t = [] := hs
    intro pre q x post k ht
    simp at ht
  | panic =>
    obtain rfl : t = [] := hs
    intro pre q x post k ht
    simp at ht
  | call q0 k0 ih =>
    rcases hs with rfl | ⟨r, t', rfl, hs⟩
    · intro pre q x post k ht
      simp at ht
    · intro pre q x post k ht hf
      cases pre with
      | nil =>
        simp only [List.nil_append, List.cons.injEq] at ht
        obtain ⟨he, rfl⟩ := ht
        cases he
        obtain ⟨l, k', h1, h2⟩ := (h r).1 k hf
        rw [h1] at hs
        rcases hs with rfl | ⟨_, t'', rfl, _⟩
        · exact .inl rfl
        · exact .inr ⟨l, t'', rfl, h2⟩
      | cons e pre =>
        simp only [List.cons_append, List.cons.injEq] at ht
        obtain ⟨rfl, rfl⟩ := ht
        exact ih r (h r).2 hs pre q x post k rfl hf

theorem rep_runs {p : Prog α} {t o} (h : Rep N p) (hs : Runs p t o) : AllReported N t := by
  induction p generalizing t with
  | ret a =>
    obtain rfl : t = [] := hs.1
    intro pre q x post k ht
    simp at ht
  | panic =>
    obtain rfl : t = [] := hs.1
    intro pre q x post k ht
    simp at ht
  | call q0 k0 ih =>
    obtain ⟨r, t', rfl, hs⟩ := hs
    intro pre q x post k ht hf
    cases pre with
    | nil =>
      simp only [List.nil_append, List.cons.injEq] at ht
      obtain ⟨he, rfl⟩ := ht
      cases he
      obtain ⟨l, k', h1, h2⟩ := (h r).1 k hf
      rw [h1] at hs
      obtain ⟨_, t'', rfl, _⟩ := hs
      exact ⟨l, t'', rfl, h2⟩
    | cons e pre =>
      simp only [List.cons_append, List.cons.injEq] at ht
      obtain ⟨rfl, rfl⟩ := ht
      exact ih r (h r).2 hs pre q x post k rfl hf

/-- Calls that cannot fail. -/
def Safe (q : Query) : Prop := ∀ x : q.Resp, failure q x = none

theorem rep_safe {p : Prog α} (h : AllQ Safe p) : Rep N p := by
  induction p with
  | ret a => exact trivial
  | panic => exact trivial
  | call q k ih => exact fun x => ⟨fun f hf => (by rw [h.1 x] at hf; cases hf), ih x (h.2 x)⟩

theorem rep_xbind {p : GrantM α} {f : α → GrantM β} (hp : Rep N p.run) (hf : ∀ a, Rep N (f a).run) : Rep N (p >>= f).run := by
  rw [xrun_bind]
  refine rep_bind hp fun x => ?_
  cases x with
  | ok a => exact hf a
  | error e => exact trivial

theorem rep_ite {c : Prop} [Decidable c] {p q : GrantM α} (h1 : c → Rep N p.run) (h2 : ¬ c → Rep N q.run) :
    Rep N (if c then p else q).run := by
  split
  · exact h1 ‹_›
  · exact h2 ‹_›

theorem rep_xsafe {p : GrantM α} (h : AllQ Safe p.run) : Rep N p.run := rep_safe h

theorem safe_log (l : LogLine) : Safe (.log l) := fun _ => rfl

/-- The lines of the error block of the call `q` report its failures. -/
structure SiteReports (N : Query → LogLine → Prop) (q : Query) (s : Site) : Prop where
  event : s.failEvent = refusal q
  fail : ∀ gt, N q ⟨s.failLevel, b!"token_endpoint", gt, s.failEvent, s.failParams⟩
  unsup : ∀ gt, N q ⟨.error, b!"token_endpoint", gt, .interfaceUnsupported, s.unsupParams⟩
  server : ∀ gt, N q ⟨.warn, b!"token_endpoint", gt, .interfaceServerError, s.serverParams⟩

theorem atLeast_debug (l : LogLevel) : AtLeast .debug l := by cases l <;> decide

theorem onErr_reports {gt s q e} (hs : SiteReports N q s) : ∃ l k', (onErr gt s e : GrantM α).run = .call (.log l) k' ∧
    Reports q (some e) l ∧ N q l := by
  obtain ⟨h1, h2, h3, h4⟩ := hs
  cases e
  · exact ⟨_, _, rfl, ⟨rfl, (by decide : AtLeast .error .error)⟩, h3 gt⟩
  · exact ⟨_, _, rfl, ⟨rfl, (by decide : AtLeast .warn .warn)⟩, h4 gt⟩
  · exact ⟨_, _, rfl, ⟨h1, atLeast_debug _⟩, h2 gt⟩
  · exact ⟨_, _, rfl, ⟨rfl, (by decide : AtLeast .warn .warn)⟩, h4 gt⟩

theorem bind_call {p : GrantM α} {f : α → GrantM β} {l k'} (h : p.run = .call (.log l) k') :
    ∃ k'', (p >>= f).run = .call (.log l) k'' := by
  rw [xrun_bind, h]
  exact ⟨_, rfl⟩

/-- A call with a value or an error, and the block after it. -/
theorem rep_val {q : Query} {v : q.Resp → Option α × Option ErrType} {gt s} {f : α → GrantM β}
    (hv : ∀ x, failure q x = match (v x).2 with
      | some e => some (some e)
      | none => if (v x).1.isSome then none else some none)
    (hs : SiteReports N q s) (hn : ∀ gt, N q ⟨.error, b!"token_endpoint", gt, .interfaceError, s.nilParams⟩)
    (hf : ∀ a, Rep N (f a).run) : Rep N (gask q >>= fun x => checkVal gt s (v x) >>= f).run := by
  rw [xrun_bind]
  intro x
  show (∀ f', failure q x = some f' → ∃ l k', (checkVal gt s (v x) >>= f).run = .call (.log l) k' ∧ Reports q f' l ∧ N q l) ∧
    Rep N (checkVal gt s (v x) >>= f).run
  rw [hv x]
  rcases hx : v x with ⟨_ | a, _ | e⟩
  · refine ⟨fun f' h => ?_, rep_xbind (rep_xsafe (allQ_checkVal safe_log)) hf⟩
    cases h
    obtain ⟨k, hk⟩ := bind_call (f := f) (p := checkVal gt s (none, none)) (l := ⟨.error, b!"token_endpoint", gt, .interfaceError, s.nilParams⟩) rfl
    exact ⟨_, k, hk, ⟨rfl, (by decide : AtLeast .error .error)⟩, hn gt⟩
  · refine ⟨fun f' h => ?_, rep_xbind (rep_xsafe (allQ_checkVal safe_log)) hf⟩
    cases h
    obtain ⟨l, k', h1, h2⟩ := onErr_reports (α := α) (gt := gt) (e := e) hs
    obtain ⟨k, hk⟩ := bind_call (f := f) (p := checkVal gt s (none, some e)) h1
    exact ⟨l, k, hk, h2⟩
  · exact ⟨fun f' h => (by cases h), hf a⟩
  · refine ⟨fun f' h => ?_, rep_xbind (rep_xsafe (allQ_checkVal safe_log)) hf⟩
    cases h
    obtain ⟨l, k', h1, h2⟩ := onErr_reports (α := α) (gt := gt) (e := e) hs
    obtain ⟨k, hk⟩ := bind_call (f := f) (p := checkVal gt s (some a, some e)) h1
    exact ⟨l, k, hk, h2⟩

/-- A call that returns an error or not, and the block after it. -/
theorem rep_err {q : Query} {v : q.Resp → Option ErrType} {gt s} {f : q.Resp → GrantM β}
    (hv : ∀ x, failure q x = (v x).map some) (hs : SiteReports N q s) (hf : ∀ x, Rep N (f x).run) :
    Rep N (gask q >>= fun x => checkErr gt s (v x) >>= fun _ => f x).run := by
  rw [xrun_bind]
  intro x
  show (∀ f', failure q x = some f' → ∃ l k', (checkErr gt s (v x) >>= fun _ => f x).run = .call (.log l) k' ∧ Reports q f' l ∧ N q l) ∧
    Rep N (checkErr gt s (v x) >>= fun _ => f x).run
  rw [hv x]
  rcases hx : v x with _ | e
  · exact ⟨fun f' h => (by cases h), hf x⟩
  · refine ⟨fun f' h => ?_, rep_xbind (rep_xsafe (allQ_checkErr safe_log)) fun _ => hf x⟩
    cases h
    obtain ⟨l, k', h1, h2⟩ := onErr_reports (α := Unit) (gt := gt) (e := e) hs
    obtain ⟨k, hk⟩ := bind_call (f := fun _ => f x) (p := checkErr gt s (some e)) h1
    exact ⟨l, k, hk, h2⟩

theorem sr_createInfo {c : Client} {uid cid sc} : SiteReports NamesMost (.createOrUpdateAuthInfo uid cid sc) (Grant.createInfoSite c) := by
  refine ⟨rfl, fun _ => .inl ?_, fun _ => .inl ?_, fun _ => .inl ?_⟩ <;> simp [NamesMethod, methodName, Grant.createInfoSite, pMethod]

theorem sr_createToken {c : Client} {i b} : SiteReports NamesMost (.createOAuthToken i b) (Grant.createTokenSite c) := by
  refine ⟨rfl, fun _ => .inl ?_, fun _ => .inl ?_, fun _ => .inl ?_⟩ <;> simp [NamesMethod, methodName, Grant.createTokenSite, pMethod]

theorem sr_codeToken {c : Client} {i b} : SiteReports NamesMost (.createOAuthToken i b) (Grant.codeTokenSite c) := by
  refine ⟨rfl, fun _ => .inl ?_, fun _ => .inl ?_, fun _ => .inl ?_⟩ <;> simp [NamesMethod, methodName, Grant.codeTokenSite, pMethod]

theorem sr_sess {c : Client} {code} : SiteReports NamesMost (.findAuthSessionByCode code) (Grant.sessSite c code) := by
  refine ⟨rfl, fun _ => .inl ?_, fun _ => .inl ?_, fun _ => .inl ?_⟩ <;> simp [NamesMethod, methodName, Grant.sessSite, pMethod]

theorem sr_codeInfo {c : Client} {code id} : SiteReports NamesMost (.findActiveAuthInfoById id) (Grant.codeInfoSite c code) := by
  refine ⟨rfl, fun _ => .inl ?_, fun _ => .inl ?_, fun _ => .inl ?_⟩ <;> simp [NamesMethod, methodName, Grant.codeInfoSite, pMethod]

theorem sr_disable {c : Client} {s} : SiteReports NamesMost (.disableSession s) (Grant.disableSite c) :=
  ⟨rfl, fun _ => .inl (by simp [NamesMethod, methodName, Grant.disableSite, pMethod]),
    fun _ => .inr (.inr ⟨⟨_, rfl⟩, by simp [Grant.disableSite, pMethod]⟩),
    fun _ => .inr (.inr ⟨⟨_, rfl⟩, by simp [Grant.disableSite, pMethod]⟩)⟩

theorem sr_refresh {c : Client} {rt} : SiteReports NamesMost (.findOAuthTokenByRefreshToken rt) (Grant.refreshSite c rt) :=
  ⟨rfl, fun _ => .inr (.inl ⟨⟨_, rfl⟩, by simp [Grant.refreshSite, pMethod]⟩),
    fun _ => .inr (.inl ⟨⟨_, rfl⟩, by simp [Grant.refreshSite, pMethod]⟩),
    fun _ => .inr (.inl ⟨⟨_, rfl⟩, by simp [Grant.refreshSite, pMethod]⟩)⟩

theorem sr_refreshInfo {c : Client} {id} : SiteReports NamesMost (.findActiveAuthInfoById id) (Grant.refreshInfoSite c) := by
  refine ⟨rfl, fun _ => .inl ?_, fun _ => .inl ?_, fun _ => .inl ?_⟩ <;> simp [NamesMethod, methodName, Grant.refreshInfoSite, pMethod]

theorem sr_doRefresh {c : Client} {i t} : SiteReports NamesMost (.refreshAccessToken i t) (Grant.doRefreshSite c) := by
  refine ⟨rfl, fun _ => .inl ?_, fun _ => .inl ?_, fun _ => .inl ?_⟩ <;> simp [NamesMethod, methodName, Grant.doRefreshSite, pMethod]

theorem sr_user {c : Client} {u p} : SiteReports NamesMost (.findUserId u p) (Grant.userSite c u p) := by
  refine ⟨rfl, fun _ => .inl ?_, fun _ => .inl ?_, fun _ => .inl ?_⟩ <;> simp [NamesMethod, methodName, Grant.userSite, pMethod]

theorem sr_subject {c : Client} {sub} : SiteReports NamesMost (.findUserIdBySubject sub) (Grant.subjectSite c sub) := by
  refine ⟨rfl, fun _ => .inl ?_, fun _ => .inl ?_, fun _ => .inl ?_⟩ <;> simp [NamesMethod, methodName, Grant.subjectSite, pMethod]

theorem sr_record {a cid jti iat exp} : SiteReports NamesMost (.recordAssertionClaims cid jti iat exp) (Assertion.recordSite a cid jti iat exp) := by
  refine ⟨rfl, fun _ => .inl ?_, fun _ => .inl ?_, fun _ => .inl ?_⟩ <;> simp [NamesMethod, methodName, Assertion.recordSite, pMethod]

theorem nm_nil {q : Query} {lv gt ev} {ps : Params} : NamesMost q ⟨lv, b!"token_endpoint", gt, ev, pMethod (methodName q) :: ps⟩ :=
  .inl (by simp [NamesMethod, pMethod])

abbrev RepG (p : GrantM α) : Prop := Rep NamesMost p.run

theorem rep_needParam {gt c r n} : RepG (Grant.needParam gt c r n) := rep_xsafe (allQ_needParam safe_log)
theorem rep_checkScope {gt c s} : RepG (Grant.checkScope gt c s) := rep_xsafe (allQ_checkScope safe_log)
theorem rep_logThrow {lv gt ev ps} {e : OAuthError} : RepG (do glog lv gt ev ps; throw e : GrantM α) := rep_xsafe (allQ_log_throw safe_log)
theorem rep_pure {a : α} : RepG (pure a : GrantM α) := trivial

theorem rep_issue {gt c uid s} : RepG (Grant.issue gt c uid s) :=
  rep_val (q := .createOrUpdateAuthInfo uid c.id s) (v := id) (fun _ => rfl) sr_createInfo (fun _ => nm_nil) fun info =>
    rep_val (q := .createOAuthToken (some info) true) (v := id) (fun _ => rfl) sr_createToken (fun _ => nm_nil) fun _ => rep_pure

theorem rep_attachIdToken {lib c info sess now res} : RepG (Grant.attachIdToken lib c info sess now res) := by
  unfold Grant.attachIdToken
  refine rep_ite (fun _ => rep_xbind (rep_xsafe (allQ_glog safe_log)) fun _ => rep_xbind (rep_xsafe (allQ_gask fun _ => rfl)) fun iss => ?_) fun _ => rep_pure
  split
  · exact rep_logThrow
  · exact rep_pure

theorem rep_checkPkce {lib r c sess} : RepG (Grant.checkPkce lib r c sess) := by
  unfold Grant.checkPkce
  refine rep_ite (fun _ => rep_pure) fun _ => rep_xbind rep_needParam fun cm => rep_xbind rep_needParam fun cc => ?_
  split
  · exact rep_logThrow
  · exact rep_ite (fun _ => rep_pure) fun _ => rep_logThrow

theorem rep_code {lib r c now} : RepG (Grant.authorizationCode lib r c now) := by
  unfold Grant.authorizationCode
  refine rep_xbind rep_needParam fun uri => rep_xbind rep_needParam fun code => ?_
  refine rep_val (q := .findAuthSessionByCode code) (v := id) (fun _ => rfl) sr_sess (fun _ => nm_nil) fun sess => ?_
  refine rep_val (q := .findActiveAuthInfoById sess.authId) (v := id) (fun _ => rfl) sr_codeInfo (fun _ => nm_nil) fun info => ?_
  refine rep_ite (fun _ => rep_logThrow) fun _ => rep_ite (fun _ => rep_logThrow) fun _ => rep_xbind rep_checkPkce fun _ => ?_
  refine rep_val (q := .createOAuthToken (some info) true) (v := id) (fun _ => rfl) sr_codeToken (fun _ => nm_nil) fun tk => ?_
  exact rep_err (q := .disableSession sess) (v := id) (fun _ => rfl) sr_disable fun _ => rep_attachIdToken

theorem rep_refresh {r c now} : RepG (Grant.refreshToken r c now) := by
  unfold Grant.refreshToken
  refine rep_xbind rep_needParam fun rt => ?_
  refine rep_val (q := .findOAuthTokenByRefreshToken rt) (v := id) (fun _ => rfl) sr_refresh (fun _ => .inr (.inl ⟨⟨_, rfl⟩, by simp [Grant.refreshSite, pMethod]⟩)) fun old => ?_
  refine rep_ite (fun _ => rep_logThrow) fun _ => ?_
  refine rep_val (q := .findActiveAuthInfoById old.authId) (v := id) (fun _ => rfl) sr_refreshInfo (fun _ => nm_nil) fun info => ?_
  refine rep_ite (fun _ => rep_logThrow) fun _ => rep_ite (fun _ => rep_logThrow) fun _ => ?_
  exact rep_val (q := .refreshAccessToken info old) (v := id) (fun _ => rfl) sr_doRefresh (fun _ => nm_nil) fun _ => rep_pure

theorem rep_password {r c now} : RepG (Grant.password r c now) :=
  rep_xbind rep_needParam fun u => rep_xbind rep_needParam fun p => rep_xbind rep_checkScope fun _ =>
    rep_err (q := .findUserId u p) (v := fun x => x.2) (fun _ => rfl) sr_user fun _ => rep_issue

theorem rep_client {r c now} : RepG (Grant.clientCredentials r c now) :=
  rep_ite (fun _ => rep_logThrow) fun _ => rep_xbind rep_checkScope fun _ => rep_issue

theorem safe_alog {lv gt a c} : AllQ Safe (Assertion.alog lv gt a c).run := by
  cases c
  · exact trivial
  · exact allQ_xlift (allQ_ask (safe_log _))

theorem rep_onJwtErr {a gt c ve} : RepG (Assertion.onJwtErr a gt c ve : GrantM α) := by
  have ha : ∀ {lv} {e : OAuthError}, RepG (do Assertion.alog lv gt a c; throw e : GrantM α) :=
    rep_xbind (rep_xsafe safe_alog) fun _ => trivial
  unfold Assertion.onJwtErr
  refine rep_ite (fun _ => ?_) fun _ => rep_ite (fun _ => ha) fun _ => rep_ite (fun _ => ha) fun _ =>
    rep_ite (fun _ => ha) fun _ => rep_ite (fun _ => ha) fun _ => ha
  split <;> exact rep_logThrow

theorem rep_clientId {c} : RepG (Assertion.clientId c) := by cases c <;> exact trivial

theorem rep_checkClaims {a gt c tk} : RepG (Assertion.checkClaims a gt c tk) := by
  unfold Assertion.checkClaims
  split
  · exact rep_xbind rep_clientId fun cid => rep_logThrow
  · refine rep_xbind rep_clientId fun cid => ?_
    refine rep_err (q := .recordAssertionClaims cid _ _ _) (v := id) (fun _ => rfl) sr_record fun _ => ?_
    split
    · exact rep_logThrow
    · refine rep_xbind (rep_xsafe (allQ_gask fun _ => rfl)) fun service => ?_
      exact rep_ite (fun _ => rep_logThrow) fun _ => rep_ite (fun _ => rep_xbind (rep_xsafe safe_alog) fun _ => trivial) fun _ => rep_pure

theorem rep_handle {a gt c tk ve} : RepG (Assertion.handle a gt c tk ve) := by
  unfold Assertion.handle
  split
  · exact rep_onJwtErr
  · split
    · exact trivial
    · exact rep_checkClaims

theorem rep_parse {σ : Type} {lib a} {s0 : σ} {kf : JwtToken → Prog (Jwt.KeyRes × σ)} (hk : ∀ tk, Rep N (kf tk)) :
    Rep N (Jwt.parse lib a s0 kf) := by
  unfold Jwt.parse
  split
  · exact trivial
  · split
    · exact trivial
    · refine rep_bind (hk _) fun ⟨kr, s1⟩ => ?_
      cases kr with
      | oauthErr e => exact trivial
      | err => exact trivial
      | key k => exact fun _ => ⟨fun f h => (by cases h), trivial⟩

theorem rep_lift {p : Prog α} (h : Rep N p) : Rep N (ExceptT.lift p : GrantM α).run := by
  rw [xrun_lift]
  exact rep_bind h fun _ => trivial

theorem rep_jwt {lib r c now} : RepG (Grant.jwt lib r c now) := by
  unfold Grant.jwt
  refine rep_xbind rep_needParam fun a => rep_xbind (rep_lift (rep_parse fun tk => ?_)) fun p => ?_
  · unfold Grant.jwtKeyFunc
    split <;> exact trivial
  · refine rep_xbind rep_handle fun _ => ?_
    split
    · exact trivial
    · split
      · exact rep_logThrow
      · exact rep_err (q := .findUserIdBySubject _) (v := fun x => x.2) (fun _ => rfl) sr_subject fun _ =>
          rep_xbind rep_checkScope fun _ => rep_issue

theorem rep_grant {lib r c now} (kind : GrantKind) : RepG (kind.handler lib r c now) := by
  cases kind
  · exact rep_code
  · exact rep_refresh
  · exact rep_password (now := now)
  · exact rep_client (now := now)
  · exact rep_jwt (now := now)

/-! ## The endpoint -/

section
variable {cfg : TokenCfg} {lib : Lib} {r : Req} {kind : GrantKind}

theorem rep_quiet {f : Unit → Prog β} {lv gt ev ps} (h : Rep N (f ())) : Rep N (tlog lv gt ev ps >>= f) :=
  fun _ => ⟨fun f h => (by cases h), h⟩

theorem rep_respond {resp : HttpResp} {f : Unit → Prog β} (h : Rep N (f ())) : Rep N (respond resp >>= f) :=
  fun _ => ⟨fun f h => (by cases h), h⟩

theorem rep_failInvalid {b} {f : Unit → Prog β} (h : Rep N (f ())) : Rep N (failByInvalidClientError cfg b >>= f) := by
  unfold failByInvalidClientError
  split <;> exact rep_respond h

theorem rep_write {resp : HttpResp} : Rep N (respond resp) := fun _ => ⟨fun f h => (by cases h), trivial⟩

theorem names_client {cid lv gt ev} {ps : Params} : NamesMost (.findClientById cid) ⟨lv, b!"token_endpoint", gt, ev, pMethod b!"FindClientById" :: ps⟩ :=
  .inl (by simp [NamesMethod, methodName, pMethod])

theorem rep_bySecret {gt cid sec b} : Rep NamesMost (validateClientBySecret cfg r gt cid sec b) := by
  unfold validateClientBySecret
  rintro ⟨c, e⟩
  rcases e with _ | e
  · rcases c with _ | c
    · refine ⟨fun f h => ?_, rep_quiet (rep_respond trivial)⟩
      cases h
      exact ⟨_, _, rfl, ⟨rfl, (by decide : AtLeast .error .error)⟩, names_client⟩
    · refine ⟨fun f h => (by cases h), ?_⟩
      show Rep NamesMost (if c.matchSecret sec = false then _ else if c.canUseGrantType gt = false then _ else _)
      split
      · exact rep_quiet (rep_failInvalid trivial)
      · split
        · exact rep_quiet (rep_respond trivial)
        · exact trivial
  · cases e
    · refine ⟨fun f h => ?_, rep_quiet (rep_respond trivial)⟩
      cases h
      exact ⟨_, _, rfl, ⟨rfl, (by decide : AtLeast .error .error)⟩, names_client⟩
    · refine ⟨fun f h => ?_, rep_quiet (rep_respond trivial)⟩
      cases h
      exact ⟨_, _, rfl, ⟨rfl, (by decide : AtLeast .warn .warn)⟩, names_client⟩
    · refine ⟨fun f h => ?_, rep_quiet (rep_failInvalid trivial)⟩
      cases h
      exact ⟨_, _, rfl, ⟨rfl, atLeast_debug _⟩, names_client⟩
    · refine ⟨fun f h => ?_, rep_quiet (rep_respond trivial)⟩
      cases h
      exact ⟨_, _, rfl, ⟨rfl, (by decide : AtLeast .warn .warn)⟩, names_client⟩

theorem rep_assertionKeyFunc {gt ca tk} : Rep NamesMost (assertionKeyFunc gt ca tk) := by
  unfold assertionKeyFunc
  split
  · exact rep_quiet trivial
  · rintro ⟨c, e⟩
    rcases e with _ | e
    · rcases c with _ | c
      · refine ⟨fun f h => ?_, rep_quiet trivial⟩
        cases h
        exact ⟨_, _, rfl, ⟨rfl, (by decide : AtLeast .error .error)⟩, names_client⟩
      · refine ⟨fun f h => (by cases h), ?_⟩
        show Rep NamesMost (match c.assertionKey (tk.alg.getD []) (tk.kid.getD []) with | none => _ | some k => _)
        split
        · exact rep_quiet trivial
        · exact trivial
    · cases e
      · refine ⟨fun f h => ?_, rep_quiet trivial⟩
        cases h
        exact ⟨_, _, rfl, ⟨rfl, (by decide : AtLeast .error .error)⟩, names_client⟩
      · refine ⟨fun f h => ?_, rep_quiet trivial⟩
        cases h
        exact ⟨_, _, rfl, ⟨rfl, (by decide : AtLeast .warn .warn)⟩, names_client⟩
      · refine ⟨fun f h => ?_, rep_quiet trivial⟩
        cases h
        exact ⟨_, _, rfl, ⟨rfl, atLeast_debug _⟩, names_client⟩
      · refine ⟨fun f h => ?_, rep_quiet trivial⟩
        cases h
        exact ⟨_, _, rfl, ⟨rfl, (by decide : AtLeast .warn .warn)⟩, names_client⟩

theorem rep_byAssertion {gt ca} : Rep NamesMost (validateClientByAssertion cfg lib gt ca) := by
  unfold validateClientByAssertion
  refine rep_bind (rep_parse fun _ => rep_assertionKeyFunc) fun p => rep_bind rep_handle fun x => ?_
  cases x with
  | error e => exact rep_respond trivial
  | ok u =>
    dsimp only
    split <;> exact trivial

theorem rep_execute {c gt} : Rep NamesMost (executeGrantHandler cfg r c gt (kind.handler lib)) := by
  unfold executeGrantHandler
  refine fun now => ⟨fun f h => (by cases h), ?_⟩
  refine rep_bind (p := (kind.handler lib r c now).run) (rep_grant kind) fun x => ?_
  cases x with
  | error e => exact rep_write
  | ok res => exact rep_quiet rep_write

theorem rep_handler (hk : ∀ h, Registered cfg r h → h = kind.handler lib) : Rep NamesMost (handler cfg lib r) := by
  unfold handler
  split
  · exact rep_quiet rep_write
  · dsimp only
    split
    · exact rep_quiet rep_write
    · split
      · exact rep_quiet rep_write
      · rename_i hf hreg
        obtain rfl := hk hf hreg
        split
        · refine rep_bind rep_bySecret fun c => ?_
          split
          · exact rep_execute
          · exact trivial
        · split
          · refine rep_bind rep_byAssertion fun c => ?_
            split
            · exact rep_execute
            · exact trivial
          · exact rep_quiet rep_write

end

end Goidc
