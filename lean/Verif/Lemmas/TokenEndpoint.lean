import Verif.Lemmas.Grant
import Verif.Lemmas.Exec
import Verif.Spec.TokenEndpoint

/-! # Inversion of token endpoint runs -/

namespace Goidc

variable {α β ε : Type}

/-! ## Which calls the grant building blocks make -/

theorem allQ_gask {P} {q : Query} (h : P q) : AllQ P (gask q).run := allQ_xlift (allQ_ask h)

theorem allQ_glog {P : Query → Prop} (hl : ∀ l, P (.log l)) {lv gt ev ps} :
    AllQ P (glog lv gt ev ps).run := allQ_xlift (allQ_ask (hl _))

theorem allQ_gpanic {P : Query → Prop} : AllQ P (gpanic : GrantM α).run := trivial

theorem allQ_log_throw {P : Query → Prop} (hl : ∀ l, P (.log l)) {lv gt ev ps} {e : OAuthError} :
    AllQ P (do glog lv gt ev ps; throw e : GrantM α).run :=
  allQ_xbind (allQ_glog hl) fun _ => allQ_xthrow

theorem allQ_onErr {P : Query → Prop} (hl : ∀ l, P (.log l)) {gt s e} :
    AllQ P (onErr gt s e : GrantM α).run := by
  cases e <;> exact allQ_log_throw hl

theorem allQ_checkVal {P : Query → Prop} (hl : ∀ l, P (.log l)) {gt s} {v : Option α × Option ErrType} :
    AllQ P (checkVal gt s v).run := by
  rcases v with ⟨_ | x, _ | e⟩
  · exact allQ_log_throw hl
  · exact allQ_onErr hl
  · exact allQ_xpure
  · exact allQ_onErr hl

theorem allQ_checkErr {P : Query → Prop} (hl : ∀ l, P (.log l)) {gt s} {v : Option ErrType} :
    AllQ P (checkErr gt s v).run := by
  cases v
  · exact allQ_xpure
  · exact allQ_onErr hl

theorem allQ_ite {P : Query → Prop} {c : Prop} [Decidable c] {p q : ExceptT ε Prog α}
    (h1 : c → AllQ P p.run) (h2 : ¬ c → AllQ P q.run) : AllQ P (if c then p else q).run := by
  by_cases h : c <;> simp only [h, if_true, if_false]
  · exact h1 h
  · exact h2 h

theorem allQ_needParam {P : Query → Prop} (hl : ∀ l, P (.log l)) {gt c r n} :
    AllQ P (Grant.needParam gt c r n).run :=
  allQ_ite (fun _ => allQ_log_throw hl) fun _ => allQ_xpure

theorem allQ_checkScope {P : Query → Prop} (hl : ∀ l, P (.log l)) {gt c s} :
    AllQ P (Grant.checkScope gt c s).run :=
  allQ_ite (fun _ => allQ_log_throw hl) fun _ => allQ_xpure

theorem allQ_issue {P : Query → Prop} (hl : ∀ l, P (.log l)) {gt c uid s}
    (h1 : P (.createOrUpdateAuthInfo uid c.id s)) (h2 : ∀ i, P (.createOAuthToken (some i) true)) :
    AllQ P (Grant.issue gt c uid s).run :=
  allQ_xbind (allQ_gask h1) fun _ => allQ_xbind (allQ_checkVal hl) fun _ =>
    allQ_xbind (allQ_gask (h2 _)) fun _ => allQ_xbind (allQ_checkVal hl) fun _ => allQ_xpure

theorem allQ_checkPkce {P : Query → Prop} (hl : ∀ l, P (.log l)) {lib r c s} :
    AllQ P (Grant.checkPkce lib r c s).run := by
  unfold Grant.checkPkce
  refine allQ_ite (fun _ => allQ_xpure) fun _ => allQ_xbind (allQ_needParam hl) fun _ =>
    allQ_xbind (allQ_needParam hl) fun _ => ?_
  split
  · exact allQ_log_throw hl
  · exact allQ_ite (fun _ => allQ_xpure) fun _ => allQ_log_throw hl

theorem allQ_attachIdToken {P : Query → Prop} (hl : ∀ l, P (.log l)) (hi : P .issuer) {lib c i s now r} :
    AllQ P (Grant.attachIdToken lib c i s now r).run := by
  unfold Grant.attachIdToken
  refine allQ_ite (fun _ => allQ_xbind (allQ_glog hl) fun _ => allQ_xbind (allQ_gask hi) fun _ => ?_)
    fun _ => allQ_xpure
  split
  · exact allQ_log_throw hl
  · exact allQ_xpure

theorem allQ_parse {P : Query → Prop} (hw : P .wallNow) {σ : Type} {lib : Lib} {s : GoStr} {s0 : σ} {kf}
    (hk : ∀ t, AllQ P (kf t)) : AllQ P (Jwt.parse lib s s0 kf) := by
  unfold Jwt.parse
  split
  · trivial
  · split
    · trivial
    · refine allQ_bind (hk _) fun ⟨kr, s1⟩ => ?_
      cases kr
      · exact allQ_bind (allQ_ask hw) fun _ => trivial
      · trivial
      · trivial

theorem allQ_alog {P : Query → Prop} (hl : ∀ l, P (.log l)) {lv gt a c} :
    AllQ P (Assertion.alog lv gt a c).run := by
  unfold Assertion.alog
  refine allQ_xbind ?_ fun _ => allQ_glog hl
  cases c
  · exact allQ_gpanic
  · exact allQ_xpure

theorem allQ_onJwtErr {P : Query → Prop} (hl : ∀ l, P (.log l)) {a gt c ve} :
    AllQ P (Assertion.onJwtErr a gt c ve : GrantM α).run := by
  unfold Assertion.onJwtErr
  have ha : ∀ {lv gt a c} {e : OAuthError}, AllQ P (do Assertion.alog lv gt a c; throw e : GrantM α).run :=
    allQ_xbind (allQ_alog hl) fun _ => allQ_xthrow
  refine allQ_ite (fun _ => ?_) fun _ => allQ_ite (fun _ => ha) fun _ => allQ_ite (fun _ => ha) fun _ =>
    allQ_ite (fun _ => ha) fun _ => allQ_ite (fun _ => ha) fun _ => ha
  split <;> exact allQ_log_throw hl

theorem allQ_handle {P : Query → Prop} (hl : ∀ l, P (.log l)) (hi : P .issuer) {a gt c t e}
    (hr : ∀ j i x, ∀ cl, c = some cl → P (.recordAssertionClaims cl.id j i x)) :
    AllQ P (Assertion.handle a gt c t e).run := by
  have hc : AllQ P (Assertion.clientId c).run := by cases c <;> trivial
  unfold Assertion.handle
  split
  · exact allQ_onJwtErr hl
  · split
    · trivial
    · unfold Assertion.checkClaims
      split
      · exact allQ_xbind hc fun _ => allQ_log_throw hl
      · refine allQ_xbind_ok hc fun x _ hok => ?_
        obtain ⟨cl, rfl, rfl⟩ : ∃ cl, c = some cl ∧ x = cl.id := by
          cases c with
          | none => simp [Assertion.clientId] at hok
          | some cl =>
            simp only [Assertion.clientId, xok_pure] at hok
            exact ⟨cl, rfl, hok.2⟩
        refine allQ_xbind (allQ_gask (hr _ _ _ cl rfl)) fun _ => allQ_xbind (allQ_checkErr hl) fun _ => ?_
        split
        · exact allQ_log_throw hl
        · refine allQ_xbind (allQ_gask hi) fun _ => allQ_ite (fun _ => allQ_log_throw hl) fun _ =>
            allQ_ite (fun _ => ?_) fun _ => allQ_xpure
          exact allQ_xbind (allQ_alog hl) fun _ => allQ_xthrow

/-! ## Which calls each grant makes -/

namespace Grant

theorem allQ_authorizationCode {P : Query → Prop} (hl : ∀ l, P (.log l)) (hi : P .issuer)
    (h1 : ∀ c, P (.findAuthSessionByCode c)) (h2 : ∀ i, P (.findActiveAuthInfoById i))
    (h3 : ∀ i, P (.createOAuthToken (some i) true)) (h4 : ∀ s, P (.disableSession s)) {lib r c now} :
    AllQ P (authorizationCode lib r c now).run :=
  allQ_xbind (allQ_needParam hl) fun _ => allQ_xbind (allQ_needParam hl) fun _ =>
  allQ_xbind (allQ_gask (h1 _)) fun _ => allQ_xbind (allQ_checkVal hl) fun _ =>
  allQ_xbind (allQ_gask (h2 _)) fun _ => allQ_xbind (allQ_checkVal hl) fun _ =>
  allQ_ite (fun _ => allQ_log_throw hl) fun _ => allQ_ite (fun _ => allQ_log_throw hl) fun _ =>
  allQ_xbind (allQ_checkPkce hl) fun _ => allQ_xbind (allQ_gask (h3 _)) fun _ =>
  allQ_xbind (allQ_checkVal hl) fun _ => allQ_xbind (allQ_gask (h4 _)) fun _ =>
  allQ_xbind (allQ_checkErr hl) fun _ => allQ_attachIdToken hl hi

theorem allQ_refreshToken {P : Query → Prop} (hl : ∀ l, P (.log l))
    (h1 : ∀ c, P (.findOAuthTokenByRefreshToken c)) (h2 : ∀ i, P (.findActiveAuthInfoById i))
    (h3 : ∀ i t, P (.refreshAccessToken i t)) {r c now} :
    AllQ P (refreshToken r c now).run :=
  allQ_xbind (allQ_needParam hl) fun _ =>
  allQ_xbind (allQ_gask (h1 _)) fun _ => allQ_xbind (allQ_checkVal hl) fun _ =>
  allQ_ite (fun _ => allQ_log_throw hl) fun _ =>
  allQ_xbind (allQ_gask (h2 _)) fun _ => allQ_xbind (allQ_checkVal hl) fun _ =>
  allQ_ite (fun _ => allQ_log_throw hl) fun _ => allQ_ite (fun _ => allQ_log_throw hl) fun _ =>
  allQ_xbind (allQ_gask (h3 _ _)) fun _ => allQ_xbind (allQ_checkVal hl) fun _ => allQ_xpure

/-- The scope handed to `CreateOrUpdateAuthInfo` by the direct grants. -/
def DirectScope (r : Req) (c : Client) (s : GoStr) : Prop :=
  s = r.formValue b!"scope" ∧ (s = [] ∨ c.canUseScope .directGrant s = true)

theorem allQ_password {P : Query → Prop} (hl : ∀ l, P (.log l)) {r c now}
    (h1 : ∀ u p, P (.findUserId u p))
    (h2 : ∀ u s, DirectScope r c s → P (.createOrUpdateAuthInfo u c.id s))
    (h3 : ∀ i, P (.createOAuthToken (some i) true)) :
    AllQ P (password r c now).run :=
  allQ_xbind (allQ_needParam hl) fun _ => allQ_xbind (allQ_needParam hl) fun _ =>
  allQ_xbind_ok (allQ_checkScope hl) fun _ _ hs =>
  allQ_xbind (allQ_gask (h1 _ _)) fun _ => allQ_xbind (allQ_checkErr hl) fun _ =>
  allQ_issue hl (h2 _ _ ⟨rfl, (xok_checkScope.1 hs).2⟩) h3

theorem allQ_clientCredentials {P : Query → Prop} (hl : ∀ l, P (.log l)) {r c now}
    (h2 : ∀ u s, DirectScope r c s → P (.createOrUpdateAuthInfo u c.id s))
    (h3 : ∀ i, P (.createOAuthToken (some i) true)) :
    AllQ P (clientCredentials r c now).run :=
  allQ_ite (fun _ => allQ_log_throw hl) fun _ =>
  allQ_xbind_ok (allQ_checkScope hl) fun _ _ hs =>
  allQ_issue hl (h2 _ _ ⟨rfl, (xok_checkScope.1 hs).2⟩) h3

theorem allQ_jwt {P : Query → Prop} (hl : ∀ l, P (.log l)) (hi : P .issuer) (hw : P .wallNow) {lib r c now}
    (h1 : ∀ s, P (.findUserIdBySubject s)) (hr : ∀ j i x, P (.recordAssertionClaims c.id j i x))
    (h2 : ∀ u s, DirectScope r c s → P (.createOrUpdateAuthInfo u c.id s))
    (h3 : ∀ i, P (.createOAuthToken (some i) true)) :
    AllQ P (jwt lib r c now).run := by
  refine allQ_xbind (allQ_needParam hl) fun _ => allQ_xbind (allQ_xlift (allQ_parse hw fun t => ?_)) fun p =>
    allQ_xbind (allQ_handle hl hi fun j i x cl hc => by cases hc; exact hr _ _ _) fun _ => ?_
  · unfold jwtKeyFunc; split <;> trivial
  · split
    · trivial
    · split
      · exact allQ_log_throw hl
      · exact allQ_xbind (allQ_gask (h1 _)) fun _ => allQ_xbind (allQ_checkErr hl) fun _ =>
          allQ_xbind_ok (allQ_checkScope hl) fun _ _ hs =>
          allQ_issue hl (h2 _ _ ⟨rfl, (xok_checkScope.1 hs).2⟩) h3

end Grant

end Goidc
