import Verif.Lemmas.Writes
import Verif.Model.TokenEndpoint

/-! # Inversion of successful grant runs -/

namespace Goidc

variable {α β ε : Type}

theorem xok_ite {c : Prop} [Decidable c] {p q : ExceptT ε Prog α} {t a} :
    XOk (if c then p else q) t a ↔ (c ∧ XOk p t a) ∨ (¬ c ∧ XOk q t a) := by
  by_cases h : c <;> simp [h]

theorem xerr_ite {c : Prop} [Decidable c] {p q : ExceptT ε Prog α} {t a} :
    XErr (if c then p else q) t a ↔ (c ∧ XErr p t a) ∨ (¬ c ∧ XErr q t a) := by
  by_cases h : c <;> simp [h]

theorem xok_gask {q : Query} {t r} : XOk (α := no_index q.Resp) (gask q) t r ↔ t = [⟨q, r⟩] := by
  rw [gask, xok_lift, runs_ask]
  constructor
  · rintro ⟨r', rfl, h⟩; cases h; rfl
  · rintro rfl; exact ⟨r, rfl, rfl⟩

theorem xok_glog {lv gt ev ps t u} :
    XOk (glog lv gt ev ps) t u ↔ t = [logged ⟨lv, b!"token_endpoint", gt, ev, ps⟩] := by
  rw [glog, xok_lift, tlog, logAt, runs_ask]
  constructor
  · rintro ⟨r', rfl, h⟩; rfl
  · rintro rfl; exact ⟨(), rfl, rfl⟩

@[simp] theorem xok_gpanic {t} {a : α} : XOk (gpanic : GrantM α) t a ↔ False := by
  constructor
  · intro h; cases (show _ ∧ _ from h).2
  · exact False.elim

/-- Logging and then returning an error never succeeds. -/
@[simp] theorem xok_log_throw {lv gt ev ps t} {e : OAuthError} {a : α} :
    XOk (do glog lv gt ev ps; throw e) t a ↔ False := by
  rw [xok_bind]; simp

@[simp] theorem xok_onErr {gt s e t} {a : α} : XOk (onErr gt s e) t a ↔ False := by
  cases e <;> simp [onErr]

theorem xok_checkVal {gt s t} {v : Option α × Option ErrType} {a : α} :
    XOk (checkVal gt s v) t a ↔ t = [] ∧ v = (some a, none) := by
  rcases v with ⟨_ | x, _ | e⟩ <;> simp [checkVal, eq_comm]

theorem xok_checkErr {gt s t} {v : Option ErrType} {u : Unit} :
    XOk (checkErr gt s v) t u ↔ t = [] ∧ v = none := by
  cases v <;> simp [checkErr]

theorem xok_needParam {gt c r name t v} :
    XOk (Grant.needParam gt c r name) t v ↔ t = [] ∧ r.formValue name ≠ [] ∧ v = r.formValue name := by
  unfold Grant.needParam
  by_cases h : r.formValue name = [] <;> simp [h]

theorem xok_checkScope {gt c scp t u} :
    XOk (Grant.checkScope gt c scp) t u ↔
      t = [] ∧ (scp = [] ∨ c.canUseScope .directGrant scp = true) := by
  unfold Grant.checkScope
  rw [xok_ite]
  by_cases h : scp = [] <;> cases h2 : c.canUseScope .directGrant scp <;> simp [h]

open Grant

theorem xok_issue {gt c uid scp t res} :
    XOk (issue gt c uid scp) t res ↔ ∃ info tk,
      t = [⟨.createOrUpdateAuthInfo uid c.id scp, (some info, none)⟩,
           ⟨.createOAuthToken (some info) true, (some tk, none)⟩] ∧
      res = mkResponse tk info.scope := by
  unfold issue
  simp only [xok_bind, xok_gask, xok_checkVal, xok_pure]
  constructor
  · rintro ⟨v, _, _, rfl, rfl, info, _, _, rfl, ⟨rfl, rfl⟩, v2, _, _, rfl, rfl, tk, _, _, rfl,
      ⟨rfl, rfl⟩, rfl, rfl⟩
    exact ⟨info, tk, rfl, rfl⟩
  · rintro ⟨info, tk, rfl, rfl⟩
    exact ⟨_, _, _, rfl, rfl, info, [], _, rfl, ⟨rfl, rfl⟩, _, [_], [], rfl, rfl, tk, [], [], rfl,
      ⟨rfl, rfl⟩, rfl, rfl⟩

/-! ## The exact calls of each successful grant -/

/-- The PKCE condition of a successful exchange. -/
def PkceOk (lib : Lib) (r : Req) (cv : GoStr) : Prop :=
  cv = [] ∨ (r.formValue b!"code_challenge_method" ≠ [] ∧ r.formValue b!"code_challenge" ≠ [] ∧
    ∃ v, Pkce.findVerifierByMethod (r.formValue b!"code_challenge_method") = some v ∧
      v.verify lib (r.formValue b!"code_challenge") cv = true)

theorem xok_checkPkce {lib r c sess t u} :
    XOk (checkPkce lib r c sess) t u ↔ t = [] ∧ PkceOk lib r sess.codeVerifier := by
  unfold checkPkce PkceOk
  by_cases hcv : sess.codeVerifier = []
  · simp [hcv]
  · simp only [hcv, if_false, false_or, xok_bind, xok_needParam]
    constructor
    · rintro ⟨cm, _, _, rfl, ⟨rfl, h1, rfl⟩, cc, _, _, rfl, ⟨rfl, h2, rfl⟩, h3⟩
      split at h3
      · simp at h3
      · rename_i v hv
        rw [xok_ite] at h3
        simp only [xok_pure, xok_log_throw, and_false, or_false] at h3
        exact ⟨h3.2.1, h1, h2, v, hv, h3.1⟩
    · rintro ⟨rfl, h1, h2, v, hv, h3⟩
      refine ⟨_, [], [], rfl, ⟨rfl, h1, rfl⟩, _, [], [], rfl, ⟨rfl, h2, rfl⟩, ?_⟩
      rw [hv]
      simp [h3]

/-- The ID-token part of a successful exchange. -/
def IdTokenPart (lib : Lib) (c : Client) (info : AuthInfo) (sess : AuthSession) (now : Int64)
    (t : List Event) (res0 res : Response) : Prop :=
  (Scope.includeOpenID info.scope = true ∧ ∃ iss idt,
    t = [logged ⟨.debug, b!"token_endpoint", typeAuthorizationCode, .idTokenGeneration, [pClient c]⟩,
         ⟨.issuer, iss⟩] ∧
    IdToken.gen lib c.idTokenAlg c.idTokenKey c.idTokenKeyId iss info.clientId info.subject
      sess.nonce sess.idTokenExpiresIn sess.authTime now = some idt ∧
    res = { res0 with idToken := idt }) ∨
  (Scope.includeOpenID info.scope = false ∧ t = [] ∧ res = res0)

theorem xok_attachIdToken {lib c info sess now res0 t res} :
    XOk (attachIdToken lib c info sess now res0) t res ↔ IdTokenPart lib c info sess now t res0 res := by
  unfold attachIdToken IdTokenPart
  cases h : Scope.includeOpenID info.scope
  · simp
  · simp only [if_true, xok_bind, xok_glog, xok_gask, true_and, Bool.true_eq_false, false_and, or_false]
    constructor
    · rintro ⟨_, _, _, rfl, rfl, iss, _, _, rfl, rfl, h3⟩
      split at h3
      · simp at h3
      · rename_i idt hi
        simp only [xok_pure] at h3
        exact ⟨iss, idt, by rw [h3.1]; rfl, hi, h3.2⟩
    · rintro ⟨iss, idt, rfl, hi, rfl⟩
      refine ⟨(), _, _, rfl, rfl, iss, [_], [], rfl, rfl, ?_⟩
      rw [hi]
      simp

/-- All calls of a successful `authorization_code` grant. -/
theorem authorizationCode_ok {lib r c now t res} (h : XOk (authorizationCode lib r c now) t res) :
    ∃ sess info tk tid,
      r.formValue b!"redirect_uri" ≠ [] ∧ r.formValue b!"code" ≠ [] ∧
      t = [⟨.findAuthSessionByCode (r.formValue b!"code"), (some sess, none)⟩,
           ⟨.findActiveAuthInfoById sess.authId, (some info, none)⟩,
           ⟨.createOAuthToken (some info) true, (some tk, none)⟩,
           ⟨.disableSession sess, none⟩] ++ tid ∧
      info.clientId = c.id ∧ sess.redirectURI = r.formValue b!"redirect_uri" ∧
      PkceOk lib r sess.codeVerifier ∧
      IdTokenPart lib c info sess now tid (mkResponse tk info.scope) res := by
  unfold authorizationCode at h
  simp only [xok_bind, xok_needParam, xok_gask, xok_checkVal, xok_checkErr, xok_checkPkce,
    xok_attachIdToken, xok_ite, xok_throw, and_false, exists_false, false_or] at h
  obtain ⟨_, _, _, rfl, ⟨rfl, hu, rfl⟩, _, _, _, rfl, ⟨rfl, hc, rfl⟩, _, _, _, rfl, rfl, sess, _, _, rfl,
    ⟨rfl, rfl⟩, _, _, _, rfl, rfl, info, _, _, rfl, ⟨rfl, rfl⟩, h⟩ := h
  obtain ⟨h1, h2, _, _, _, rfl, ⟨rfl, hp⟩, _, _, _, rfl, rfl, tk, _, _, rfl, ⟨rfl, rfl⟩, _, _, _, rfl, rfl,
    _, _, tid, rfl, ⟨rfl, rfl⟩, hid⟩ := h
  exact ⟨sess, info, tk, tid, hu, hc, rfl, Decidable.of_not_not h1, Decidable.of_not_not h2, hp, hid⟩

/-- All calls of a successful `refresh_token` grant. -/
theorem refreshToken_ok {r c now t res} (h : XOk (refreshToken r c now) t res) :
    ∃ old info tk,
      r.formValue b!"refresh_token" ≠ [] ∧
      t = [⟨.findOAuthTokenByRefreshToken (r.formValue b!"refresh_token"), (some old, none)⟩,
           ⟨.findActiveAuthInfoById old.authId, (some info, none)⟩,
           ⟨.refreshAccessToken info old, (some tk, none)⟩] ∧
      ¬ (old.refreshTokenExpiresIn + old.createdAt < now) ∧ info.clientId = c.id ∧
      Scope.includeOfflineAccess info.scope = true ∧ res = mkResponse tk info.scope := by
  unfold refreshToken at h
  simp only [xok_bind, xok_needParam, xok_gask, xok_checkVal, xok_ite, xok_throw, and_false, exists_false, false_or,
    xok_pure] at h
  obtain ⟨_, _, _, rfl, ⟨rfl, hu, rfl⟩, _, _, _, rfl, rfl, old, _, _, rfl, ⟨rfl, rfl⟩, h⟩ := h
  obtain ⟨hx, _, _, _, rfl, rfl, info, _, _, rfl, ⟨rfl, rfl⟩, h1, h2, _, _, _, rfl, rfl, tk, _, _, rfl,
    ⟨rfl, rfl⟩, rfl, rfl⟩ := h
  exact ⟨old, info, tk, hu, rfl, hx, Decidable.of_not_not h1, by simpa using h2, rfl⟩

/-- All calls of a successful `password` grant. -/
theorem password_ok {r c now t res} (h : XOk (password r c now) t res) :
    ∃ uid info tk,
      r.formValue b!"username" ≠ [] ∧ r.formValue b!"password" ≠ [] ∧
      (r.formValue b!"scope" = [] ∨ c.canUseScope .directGrant (r.formValue b!"scope") = true) ∧
      t = [⟨.findUserId (r.formValue b!"username") (r.formValue b!"password"), (uid, none)⟩,
           ⟨.createOrUpdateAuthInfo uid c.id (r.formValue b!"scope"), (some info, none)⟩,
           ⟨.createOAuthToken (some info) true, (some tk, none)⟩] ∧
      res = mkResponse tk info.scope := by
  unfold password at h
  simp only [xok_bind, xok_needParam, xok_gask, xok_checkErr, xok_checkScope, xok_issue] at h
  obtain ⟨_, _, _, rfl, ⟨rfl, hu, rfl⟩, _, _, _, rfl, ⟨rfl, hp, rfl⟩, _, _, _, rfl, ⟨rfl, hs⟩, ⟨uid, e⟩, _, _,
    rfl, rfl, _, _, _, rfl, ⟨rfl, rfl⟩, info, tk, rfl, rfl⟩ := h
  exact ⟨uid, info, tk, hu, hp, hs, rfl, rfl⟩

/-- All calls of a successful `client_credentials` grant. -/
theorem clientCredentials_ok {r c now t res} (h : XOk (clientCredentials r c now) t res) :
    ∃ info tk,
      ¬ (c.ownerUserId < 0) ∧
      (r.formValue b!"scope" = [] ∨ c.canUseScope .directGrant (r.formValue b!"scope") = true) ∧
      t = [⟨.createOrUpdateAuthInfo c.ownerUserId c.id (r.formValue b!"scope"), (some info, none)⟩,
           ⟨.createOAuthToken (some info) true, (some tk, none)⟩] ∧
      res = mkResponse tk info.scope := by
  unfold clientCredentials at h
  simp only [xok_ite, xok_throw, and_false, exists_false, false_or, xok_bind, xok_checkScope, xok_issue] at h
  obtain ⟨ho, _, _, _, rfl, ⟨rfl, hs⟩, info, tk, rfl, rfl⟩ := h
  exact ⟨info, tk, ho, hs, rfl, rfl⟩

/-! ## Assertions -/

/-- What `jwt.Parse` returning no error means. -/
theorem parse_ok {σ : Type} {lib : Lib} {s : GoStr} {s0 : σ} {kf t tok s1}
    (h : Runs (Jwt.parse lib s s0 kf) t (.ok (tok, none, s1))) :
    ∃ tk k t1 now, lib.jwtDecode s = some tk ∧ tok = some tk ∧ Runs (kf tk) t1 (.ok (.key k, s1)) ∧
      t = t1 ++ [⟨.wallNow, now⟩] ∧ (∃ a, tk.alg = some a ∧ (Jwt.family a).isSome = true) ∧
      Jwt.verifies lib (tk.alg.getD []) s k = true ∧ Jwt.expOk now (tk.claim b!"exp") = true ∧
      Jwt.notBeforeOk now (tk.claim b!"iat") = true ∧ Jwt.notBeforeOk now (tk.claim b!"nbf") = true := by
  unfold Jwt.parse at h
  split at h
  · simp at h
  · rename_i tk hd
    split at h
    · simp at h
    · rename_i fam hfam
      rw [Prog.bind_eq, runs_bind] at h
      rcases h with ⟨⟨kr, s'⟩, t1, t2, rfl, h1, h2⟩ | ⟨_, h⟩
      · cases kr with
        | oauthErr e => simp at h2
        | err => simp at h2
        | key k =>
          simp only [Prog.bind_eq] at h2
          obtain ⟨now, t3, rfl, h3⟩ := runs_bind_ask.1 h2
          simp only [Prog.pure_eq, runs_ret, Outcome.ok.injEq, Prod.mk.injEq] at h3
          obtain ⟨rfl, rfl, h4, rfl⟩ := h3
          split at h4
          · rename_i hn
            simp only [Jwt.VErr.none?, Bool.not_or, Bool.not_not, Bool.and_eq_true, Bool.not_false,
              true_and] at hn
            obtain ⟨⟨⟨hs, he⟩, hi⟩, hb⟩ := hn
            refine ⟨tk, k, t1, now, hd, rfl, h1, rfl, ?_, hs, he, hi, hb⟩
            cases ha : tk.alg with
            | none => rw [ha] at hfam; simp at hfam
            | some a => rw [ha] at hfam; exact ⟨a, rfl, by simp at hfam; simp [hfam]⟩
          · simp at h4
      · cases h

theorem xok_onJwtErr {a gt c ve t} {x : α} : XOk (Assertion.onJwtErr a gt c ve) t x ↔ False := by
  have halog : ∀ lv gt a c (e : OAuthError) t (x : α),
      ¬ XOk (do Assertion.alog lv gt a c; throw e) t x := by
    intro lv gt a c e t x h
    obtain ⟨_, _, _, _, _, h⟩ := xok_bind.1 h
    simp at h
  unfold Assertion.onJwtErr
  constructor
  · intro h
    split at h
    · split at h
      · simp at h
      · simp at h
    · repeat' split at h
      all_goals exact halog _ _ _ _ _ _ _ h
  · exact False.elim

/-- All calls of a successful claims check. -/
theorem checkClaims_ok {a gt c t x} {tk : JwtToken} (h : XOk (Assertion.checkClaims a gt c tk) t x) :
    ∃ cl exp aud, c = some cl ∧ Assertion.numClaim (tk.claim b!"exp") = some exp ∧
      tk.claimStr b!"aud" = some aud ∧ aud ≠ [] ∧
      t = [⟨.recordAssertionClaims cl.id ((tk.claimStr b!"jti").getD [])
              ((Assertion.numClaim (tk.claim b!"iat")).getD (-1)) exp, none⟩,
           ⟨.issuer, aud⟩] := by
  unfold Assertion.checkClaims at h
  split at h
  · obtain ⟨_, _, _, _, _, h⟩ := xok_bind.1 h
    simp at h
  · rename_i exp hexp
    simp only [xok_bind] at h
    obtain ⟨cid, _, _, rfl, hc, _, _, _, rfl, hr, _, _, _, rfl, he, h⟩ := h
    cases c with
    | none => simp [Assertion.clientId] at hc
    | some cl =>
      simp only [Assertion.clientId, xok_pure] at hc
      obtain ⟨rfl, rfl⟩ := hc
      obtain rfl := xok_gask.1 hr
      obtain ⟨rfl, rfl⟩ := xok_checkErr.1 he
      split at h
      · simp at h
      · rename_i aud haud
        obtain ⟨svc, t3, t4, ht, hs, h'⟩ := xok_bind.1 h
        obtain rfl := xok_gask.1 hs
        split at h'
        · simp at h'
        · rename_i hsvc
          split at h'
          · obtain ⟨_, _, _, _, _, h'⟩ := xok_bind.1 h'
            simp at h'
          · rename_i hne
            have hne := Decidable.of_not_not hne
            subst hne
            simp only [xok_pure] at h'
            obtain ⟨rfl, _⟩ := h'
            subst ht
            exact ⟨cl, exp, aud, rfl, hexp, haud, hsvc, rfl⟩

theorem handle_ok {a gt c tok e t x} (h : XOk (Assertion.handle a gt c tok e) t x) :
    e = none ∧ ∃ tk, tok = some tk ∧ XOk (Assertion.checkClaims a gt c tk) t x := by
  unfold Assertion.handle at h
  split at h
  · exact (xok_onJwtErr.1 h).elim
  · split at h
    · simp at h
    · exact ⟨rfl, _, rfl, h⟩

/-- All calls of a successful JWT grant. -/
theorem jwt_ok {lib r c now t res} (h : XOk (Grant.jwt lib r c now) t res) :
    ∃ tk k wall exp aud sub uid info otk,
      r.formValue b!"assertion" ≠ [] ∧ lib.jwtDecode (r.formValue b!"assertion") = some tk ∧
      c.assertionKey (tk.alg.getD []) (tk.kid.getD []) = some k ∧
      Jwt.verifies lib (tk.alg.getD []) (r.formValue b!"assertion") k = true ∧
      Jwt.expOk wall (tk.claim b!"exp") = true ∧
      Jwt.notBeforeOk wall (tk.claim b!"iat") = true ∧ Jwt.notBeforeOk wall (tk.claim b!"nbf") = true ∧
      Assertion.numClaim (tk.claim b!"exp") = some exp ∧
      tk.claimStr b!"aud" = some aud ∧ aud ≠ [] ∧ tk.claimStr b!"sub" = some sub ∧
      (r.formValue b!"scope" = [] ∨ c.canUseScope .directGrant (r.formValue b!"scope") = true) ∧
      t = [⟨.wallNow, wall⟩,
           ⟨.recordAssertionClaims c.id ((tk.claimStr b!"jti").getD [])
              ((Assertion.numClaim (tk.claim b!"iat")).getD (-1)) exp, none⟩,
           ⟨.issuer, aud⟩,
           ⟨.findUserIdBySubject sub, (uid, none)⟩,
           ⟨.createOrUpdateAuthInfo uid c.id (r.formValue b!"scope"), (some info, none)⟩,
           ⟨.createOAuthToken (some info) true, (some otk, none)⟩] ∧
      res = mkResponse otk info.scope := by
  unfold Grant.jwt at h
  obtain ⟨_, _, _, rfl, h0, h⟩ := xok_bind.1 h
  obtain ⟨rfl, ha, rfl⟩ := xok_needParam.1 h0
  obtain ⟨⟨tok, ve, _⟩, t1, _, rfl, h1, h⟩ := xok_bind.1 h
  obtain ⟨_, t2, _, rfl, h2, h3⟩ := xok_bind.1 h
  obtain ⟨hve, tk, htok, hcl⟩ := handle_ok h2
  simp only at hve htok
  subst hve htok
  obtain ⟨tk', k, t1', wall, hd, htk, hk, rfl, hfam, hv, he, hi, hb⟩ := parse_ok (xok_lift.1 h1)
  obtain rfl := Option.some.inj htk
  have hkey : t1' = [] ∧ c.assertionKey (tk.alg.getD []) (tk.kid.getD []) = some k := by
    unfold jwtKeyFunc at hk
    split at hk
    · simp at hk
    · rename_i k' hk'
      simp only [runs_pure, Outcome.ok.injEq, Prod.mk.injEq, Jwt.KeyRes.key.injEq, and_true] at hk
      exact ⟨hk.1, by rw [hk', hk.2]⟩
  obtain ⟨rfl, hkey⟩ := hkey
  obtain ⟨cl, exp, aud, hc, hexp, haud, hne, rfl⟩ := checkClaims_ok hcl
  obtain rfl := Option.some.inj hc
  clear h
  simp only at h3
  split at h3
  · simp at h3
  · rename_i sub hsub
    simp only [xok_bind, xok_gask, xok_checkErr, xok_checkScope, xok_issue] at h3
    obtain ⟨⟨uid, e⟩, _, _, rfl, rfl, _, _, _, rfl, ⟨rfl, rfl⟩, _, _, _, rfl, ⟨rfl, hs⟩, info, otk, rfl, rfl⟩ := h3
    exact ⟨tk, k, wall, exp, aud, sub, uid, info, otk, ha, hd, hkey, hv, he, hi, hb, hexp, haud, hne, hsub,
      hs, rfl, rfl⟩

end Goidc
