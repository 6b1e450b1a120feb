import Verif.Lemmas.Jwt
import Verif.Lemmas.TokenEndpoint

/-! # Runs of the token endpoint's handler -/

namespace Goidc
open TokenEndpoint Spec

variable {α β : Type}

theorem runs_respond {resp : HttpResp} {t o} : Runs (respond resp) t o ↔ t = [wrote resp] ∧ o = .ok () := by
  unfold respond
  rw [runs_ask]
  constructor
  · rintro ⟨r, rfl, rfl⟩; exact ⟨rfl, rfl⟩
  · rintro ⟨rfl, rfl⟩; exact ⟨(), rfl, rfl⟩

theorem runs_tlog_bind {lv gt ev ps} {f : Unit → Prog β} {t o} :
    Runs (tlog lv gt ev ps >>= f) t o ↔
      ∃ t', t = logged ⟨lv, b!"token_endpoint", gt, ev, ps⟩ :: t' ∧ Runs (f ()) t' o := by
  unfold tlog logAt
  rw [Prog.bind_eq, runs_bind_ask]
  constructor
  · rintro ⟨r, t', rfl, h⟩; exact ⟨t', rfl, h⟩
  · rintro ⟨t', rfl, h⟩; exact ⟨(), t', rfl, h⟩

theorem builtIn_silent {lib h} (hb : BuiltIn lib h) : Silent h := by
  intro r c now t o hr
  refine allQ_runs (P := fun q => q.isWrite = false) ?_ hr
  cases hb
  · apply Grant.allQ_authorizationCode <;> intros <;> rfl
  · apply Grant.allQ_refreshToken <;> intros <;> rfl
  · apply Grant.allQ_password <;> intros <;> rfl
  · apply Grant.allQ_clientCredentials <;> intros <;> rfl
  · apply Grant.allQ_jwt <;> intros <;> rfl

theorem statusCode_mem (e : OAuthErrorType) : e.statusCode ∈ [400, 401, 403, 500] := by
  cases e <;> simp [OAuthErrorType.statusCode]

theorem statusCode_ne_200 (e : OAuthErrorType) : e.statusCode ≠ 200 := by
  cases e <;> simp [OAuthErrorType.statusCode]

/-! ## Credentials -/

theorem findClientCredential_iff {cfg r cid sec b} :
    findClientCredential cfg r = some (cid, sec, b) ↔ Presented cfg.acceptance r cid sec b := by
  unfold findClientCredential
  constructor
  · intro h
    split at h
    · rename_i c s hb
      simp only [Option.some.injEq, Prod.mk.injEq] at h
      obtain ⟨rfl, rfl, rfl⟩ := h
      exact .header _ _ hb
    · rename_i hb
      split at h
      · cases h
      · rename_i hm
        dsimp only at h
        split at h
        · rename_i hc
          simp only [Option.some.injEq, Prod.mk.injEq] at h
          obtain ⟨rfl, rfl, rfl⟩ := h
          exact .body _ _ hm hb rfl rfl hc.1 hc.2
        · cases h
      · rename_i hm
        dsimp only at h
        split at h
        · rename_i hc
          simp only [Option.some.injEq, Prod.mk.injEq] at h
          obtain ⟨rfl, rfl, rfl⟩ := h
          exact .any _ _ hm hb rfl rfl hc.1 hc.2
        · cases h
      · cases h
  · intro h
    cases h with
    | header hb => simp [hb]
    | body hm hb h1 h2 h3 h4 => subst h1 h2; simp [hm, hb, h3, h4]
    | any hm hb h1 h2 h3 h4 => subst h1 h2; simp [hm, hb, h3, h4]

theorem findClientCredential_none {cfg r} :
    findClientCredential cfg r = none ↔ ∀ cid sec b, ¬ Presented cfg.acceptance r cid sec b := by
  constructor
  · intro h cid sec b hp
    rw [findClientCredential_iff.2 hp] at h
    cases h
  · intro h
    cases hf : findClientCredential cfg r with
    | none => rfl
    | some p => exact absurd (findClientCredential_iff.1 hf) (h _ _ _)

theorem findClientAssertion_iff {r ca} : findClientAssertion r = some ca ↔ PresentedAssertion r ca := by
  unfold findClientAssertion PresentedAssertion clientAssertionTypeJWT
  constructor
  · intro h
    dsimp only at h
    split at h
    · rename_i hc
      cases h
      exact ⟨rfl, hc.1, hc.2⟩
    · cases h
  · rintro ⟨rfl, h1, h2⟩
    dsimp only
    rw [if_pos ⟨h1, h2⟩]

/-! ## Runs of the two ways to authenticate -/

theorem runs_bySecret {cfg r gt cid sec b t c} :
    Runs (validateClientBySecret cfg r gt cid sec b) t (.ok (some c)) ↔
      t = [⟨.findClientById cid, (some c, none)⟩] ∧ c.matchSecret sec = true ∧
        c.canUseGrantType gt = true := by
  unfold validateClientBySecret
  rw [Prog.bind_eq, runs_bind_ask]
  have hnone : ∀ {p : Prog Unit} {l : Prog Unit} {t},
      ¬ Runs (l >>= fun _ => p >>= fun _ => (pure none : Prog (Option Client))) t (.ok (some c)) := by
    intro p l t h
    simp only [Prog.bind_eq] at h
    rcases runs_bind.1 h with ⟨_, _, _, _, _, h⟩ | ⟨_, h⟩
    · rcases runs_bind.1 h with ⟨_, _, _, _, _, h⟩ | ⟨_, h⟩
      · cases h.2
      · cases h
    · cases h
  constructor
  · rintro ⟨⟨c', e⟩, t', rfl, h⟩
    rcases e with _ | e
    · rcases c' with _ | c'
      · exact absurd h hnone
      · dsimp only at h
        split at h
        · exact absurd h hnone
        · split at h
          · exact absurd h hnone
          · rename_i h1 h2
            simp only [runs_pure, Outcome.ok.injEq, Option.some.injEq] at h
            obtain ⟨rfl, rfl⟩ := h
            exact ⟨rfl, by simpa using h1, by simpa using h2⟩
    · cases e <;> exact absurd h hnone
  · rintro ⟨rfl, h1, h2⟩
    exact ⟨_, [], rfl, by simp [h1, h2]⟩

/-- The key function of client assertions returns a key only for the client found under `sub`. -/
theorem assertionKeyFunc_ok {gt ca tk t k c0} (hk : Runs (assertionKeyFunc gt ca tk) t (.ok (.key k, c0))) :
    ∃ c sub, c0 = some c ∧ tk.claimStr b!"sub" = some sub ∧
      c.assertionKey (tk.alg.getD []) (tk.kid.getD []) = some k ∧
      t = [⟨.findClientById sub, (some c, none)⟩] := by
  unfold assertionKeyFunc at hk
  have hno : ∀ {l : Prog Unit} {x : Jwt.KeyRes × Option Client} {t}, (∀ k, x.1 ≠ .key k) →
      ¬ Runs (l >>= fun _ => (pure x : Prog _)) t (.ok (.key k, c0)) := by
    intro l x t hx h
    simp only [Prog.bind_eq] at h
    rcases runs_bind.1 h with ⟨_, _, _, _, _, h⟩ | ⟨_, h⟩
    · have := h.2
      simp only [Outcome.ok.injEq] at this
      exact hx k (by rw [← this])
    · cases h
  split at hk
  · exact absurd hk (hno (by simp))
  · rename_i sub hsub
    rw [Prog.bind_eq, runs_bind_ask] at hk
    obtain ⟨⟨c1, e1⟩, t5, rfl, hk⟩ := hk
    rcases e1 with _ | e1
    · rcases c1 with _ | c1
      · exact absurd hk (hno (by simp))
      · dsimp only at hk
        split at hk
        · exact absurd hk (hno (by simp))
        · rename_i k' hkey
          simp only [runs_pure, Outcome.ok.injEq, Prod.mk.injEq, Jwt.KeyRes.key.injEq] at hk
          obtain ⟨rfl, rfl, rfl⟩ := hk
          exact ⟨c1, sub, rfl, hsub, hkey, rfl⟩
    · cases e1 <;> exact absurd hk (hno (by simp))

theorem runs_byAssertion {cfg lib gt ca t c}
    (h : Runs (validateClientByAssertion cfg lib gt ca) t (.ok (some c))) :
    ∃ tk sub wall exp aud, VerifiedAssertion lib c ca tk ∧
      tk.claimStr b!"sub" = some sub ∧
      NotExpired wall (tk.claim b!"exp") ∧
      NotEarly wall (tk.claim b!"iat") ∧ NotEarly wall (tk.claim b!"nbf") ∧
      Assertion.numClaim (tk.claim b!"exp") = some exp ∧
      tk.claimStr b!"aud" = some aud ∧ aud ≠ [] ∧
      t = [⟨.findClientById sub, (some c, none)⟩, ⟨.wallNow, wall⟩,
           ⟨.recordAssertionClaims c.id ((tk.claimStr b!"jti").getD [])
              ((Assertion.numClaim (tk.claim b!"iat")).getD (-1)) exp, none⟩,
           ⟨.issuer, aud⟩] := by
  unfold validateClientByAssertion at h
  simp only [Prog.bind_eq] at h
  rcases runs_bind.1 h with ⟨⟨tok, ve, c0⟩, t1, t2, rfl, h1, h2⟩ | ⟨_, h⟩
  · rcases runs_bind.1 h2 with ⟨res, t3, t4, rfl, h3, h4⟩ | ⟨_, h⟩
    · cases res with
      | error e =>
        rcases runs_bind.1 h4 with ⟨_, _, _, _, _, h⟩ | ⟨_, h⟩
        · cases h.2
        · cases h
      | ok u =>
        cases c0 with
        | none => exact absurd h4.2 (by simp)
        | some c' =>
          simp only [Prog.pure_eq, runs_ret, Outcome.ok.injEq, Option.some.injEq] at h4
          obtain ⟨rfl, rfl⟩ := h4
          obtain ⟨hve, tk, htok, hcl⟩ := handle_ok h3
          simp only at hve htok hcl
          subst hve htok
          obtain ⟨tk', k, t1', wall, hd, htk, hk, rfl, hfam, hv, he, hi, hb⟩ := parse_ok h1
          cases htk
          obtain ⟨cl, exp, aud, hc, hexp, haud, hne, rfl⟩ := checkClaims_ok hcl
          cases hc
          obtain ⟨c', sub, hc', hsub, hkey, ht1⟩ := assertionKeyFunc_ok hk
          cases hc'
          subst ht1
          exact ⟨tk, sub, wall, exp, aud, ⟨hd, k, hkey, verifies_iff.1 hv⟩, hsub, expOk_iff.1 he, notBeforeOk_iff.1 hi,
            notBeforeOk_iff.1 hb, hexp, haud, hne, rfl⟩
    · cases h
  · cases h

/-! ## Who writes -/

theorem isWrite_log (l : LogLine) : (Query.log l).isWrite = false := rfl

theorem allQ_tlog {P : Query → Prop} (hl : ∀ l, P (.log l)) {lv gt ev ps} : AllQ P (tlog lv gt ev ps) :=
  allQ_ask (hl _)

theorem writes_failInvalid {cfg b} {Q : Unit → Prop} (h : Q ()) : Writes Q (failByInvalidClientError cfg b) := by
  unfold failByInvalidClientError
  split <;> exact writes_respond h

theorem writes_log_fail {lv gt ev ps} {p : Prog Unit}
    (hp : Writes (fun _ => True) p) :
    Writes (fun o => o = none) (tlog lv gt ev ps >>= fun _ => p >>= fun _ => (pure none : Prog (Option α))) :=
  writes_ask_bind rfl fun _ => writes_bind hp (fun _ _ => ⟨none, rfl, rfl⟩) fun _ h => absurd trivial h

theorem writes_bySecret {cfg r gt cid sec b} :
    Writes (fun o => o = none) (validateClientBySecret cfg r gt cid sec b) := by
  unfold validateClientBySecret
  refine writes_ask_bind rfl fun ⟨c, e⟩ => ?_
  rcases e with _ | e
  · rcases c with _ | c
    · exact writes_log_fail (writes_respond trivial)
    · dsimp only
      split
      · exact writes_log_fail (writes_failInvalid trivial)
      · split
        · exact writes_log_fail (writes_respond trivial)
        · exact writes_ret (by simp)
  · cases e
    · exact writes_log_fail (writes_respond trivial)
    · exact writes_log_fail (writes_respond trivial)
    · exact writes_log_fail (writes_failInvalid trivial)
    · exact writes_log_fail (writes_respond trivial)

theorem allQ_assertionKeyFunc {P : Query → Prop} (hl : ∀ l, P (.log l)) (hf : ∀ c, P (.findClientById c))
    {gt ca t} : AllQ P (assertionKeyFunc gt ca t) := by
  unfold assertionKeyFunc
  split
  · exact allQ_bind (allQ_tlog hl) fun _ => trivial
  · refine allQ_bind (allQ_ask (hf _)) fun ⟨c, e⟩ => ?_
    rcases e with _ | e
    · rcases c with _ | c
      · exact allQ_bind (allQ_tlog hl) fun _ => trivial
      · dsimp only
        split
        · exact allQ_bind (allQ_tlog hl) fun _ => trivial
        · trivial
    · cases e <;> exact allQ_bind (allQ_tlog hl) fun _ => trivial

theorem writes_byAssertion {cfg lib gt ca} :
    Writes (fun o => o = none) (validateClientByAssertion cfg lib gt ca) := by
  unfold validateClientByAssertion
  refine writes_bind_silent (allQ_parse (by rfl) fun _ => allQ_assertionKeyFunc (by intros; rfl) (by intros; rfl))
    fun p => writes_bind_silent (allQ_handle (by intros; rfl) (by rfl) (by intros; rfl)) fun res => ?_
  cases res with
  | error e =>
    exact writes_bind (writes_respond (Q := fun _ => True) trivial) (fun _ _ => ⟨none, rfl, rfl⟩)
      fun _ h => absurd trivial h
  | ok u =>
    dsimp only
    split
    · exact writes_ret (by simp)
    · exact writes_panic

theorem writes_execute {cfg r c gt h} (hs : Silent h) :
    Writes (fun _ => True) (executeGrantHandler cfg r c gt h) := by
  unfold executeGrantHandler
  refine writes_ask_bind rfl fun now => writes_bind_silent (allQ_of_runs (hs _ _ _)) fun res => ?_
  cases res with
  | error e => exact writes_respond trivial
  | ok a => exact writes_ask_bind rfl fun _ => writes_respond trivial

theorem writes_auth_then {p : Prog (Option Client)} (hp : Writes (fun o => o = none) p)
    {f : Client → Prog Unit} (hf : ∀ c, Writes (fun _ => True) (f c)) :
    Writes (fun _ => True) (p >>= fun o => match o with | some c => f c | none => pure ()) := by
  refine writes_bind hp (fun o ho => ?_) fun o ho => ?_
  · subst ho; exact ⟨(), trivial, rfl⟩
  · cases o with
    | none => exact absurd rfl ho
    | some c => exact hf c

/-- The token endpoint writes exactly one response, last, unless it panics. -/
theorem writes_handler {cfg : TokenCfg} {lib r} (hs : ∀ h, Registered cfg r h → Silent h) :
    Writes (fun _ => True) (handler cfg lib r) := by
  unfold handler
  split
  · exact writes_ask_bind rfl fun _ => writes_respond trivial
  · dsimp only
    split
    · exact writes_ask_bind rfl fun _ => writes_respond trivial
    · split
      · exact writes_ask_bind rfl fun _ => writes_respond trivial
      · rename_i h hh
        split
        · exact writes_auth_then writes_bySecret fun c => writes_execute (hs h hh)
        · split
          · exact writes_auth_then writes_byAssertion fun c => writes_execute (hs h hh)
          · exact writes_ask_bind rfl fun _ => writes_respond trivial

/-! ## Complete runs -/

theorem runs_execute {cfg r c gt h t} (hr : Runs (executeGrantHandler cfg r c gt h) t (.ok ())) :
    ∃ now t2, (∃ err, XErr (h r c now) t2 err ∧
        t = ⟨.now, now⟩ :: t2 ++ [wrote ⟨err.statusCode, commonHeaders, (withURI cfg err).json⟩]) ∨
      (∃ res, XOk (h r c now) t2 res ∧
        t = ⟨.now, now⟩ :: t2 ++ [logged ⟨.debug, b!"token_endpoint", gt, .accessTokenGranted, [pClient c]⟩,
          wrote ⟨200, commonHeaders, res.json⟩]) := by
  unfold executeGrantHandler at hr
  rw [Prog.bind_eq, runs_bind_ask] at hr
  obtain ⟨now, t', rfl, hr⟩ := hr
  rw [Prog.bind_eq] at hr
  rcases runs_bind.1 hr with ⟨res, t2, t3, rfl, h1, h2⟩ | ⟨_, h⟩
  · cases res with
    | error err =>
      obtain ⟨rfl, _⟩ := runs_respond.1 h2
      exact ⟨now, t2, .inl ⟨err, h1, rfl⟩⟩
    | ok res =>
      obtain ⟨t4, rfl, h3⟩ := runs_tlog_bind.1 h2
      obtain ⟨rfl, _⟩ := runs_respond.1 h3
      exact ⟨now, t2, .inr ⟨res, h1, rfl⟩⟩
  · cases h

/-- How a token request whose client authenticated came to be: the trace `t1` of the authentication. -/
inductive AuthTrace (cfg : TokenCfg) (lib : Lib) (r : Req) (c : Client) (t1 : List Event) : Prop
  | secret (cid sec b) : Presented cfg.acceptance r cid sec b →
      t1 = [⟨.findClientById cid, (some c, none)⟩] → c.matchSecret sec = true →
      c.canUseGrantType (r.formValue b!"grant_type") = true → AuthTrace cfg lib r c t1
  | assertion (ca) : (∀ cid sec b, ¬ Presented cfg.acceptance r cid sec b) →
      cfg.acceptClientAssertion = true → PresentedAssertion r ca →
      Runs (validateClientByAssertion cfg lib (r.formValue b!"grant_type") ca) t1 (.ok (some c)) →
      AuthTrace cfg lib r c t1

theorem runs_then {p : Prog (Option Client)} {f : Client → Prog Unit} {t : List Event}
    (h : Runs (p >>= fun o => match o with | some c => f c | none => pure ()) t (.ok ())) :
    Runs p t (.ok none) ∨ ∃ c t1 t2, t = t1 ++ t2 ∧ Runs p t1 (.ok (some c)) ∧ Runs (f c) t2 (.ok ()) := by
  rw [Prog.bind_eq] at h
  rcases runs_bind.1 h with ⟨o, t1, t2, rfl, h1, h2⟩ | ⟨_, h⟩
  · cases o with
    | none =>
      obtain ⟨rfl, _⟩ := h2
      exact .inl (by simpa using h1)
    | some c => exact .inr ⟨c, t1, t2, rfl, h1, h2⟩
  · cases h

/-- Complete runs of the handler: refused before a client authenticated, or authenticated and the
grant handler executed. -/
theorem runs_handler {cfg : TokenCfg} {lib r t} (h : Runs (handler cfg lib r) t (.ok ())) :
    (∃ pre resp, t = pre ++ [wrote resp] ∧ resp.status ≠ 200) ∨
    (r.method = b!"POST" ∧ r.formValue b!"grant_type" ≠ [] ∧ ∃ hf c t1 t2,
      Registered cfg r hf ∧ t = t1 ++ t2 ∧ AuthTrace cfg lib r c t1 ∧
      Runs (executeGrantHandler cfg r c (r.formValue b!"grant_type") hf) t2 (.ok ())) := by
  have hlr : ∀ {lv gt ev ps} {resp : HttpResp} {t}, resp.status ≠ 200 →
      Runs (tlog lv gt ev ps >>= fun _ => respond resp) t (.ok ()) →
      ∃ pre resp, t = pre ++ [wrote resp] ∧ resp.status ≠ 200 := by
    intro lv gt ev ps resp t hst hr
    obtain ⟨t', rfl, hr'⟩ := runs_tlog_bind.1 hr
    obtain ⟨rfl, _⟩ := runs_respond.1 hr'
    exact ⟨[_], resp, rfl, hst⟩
  unfold handler at h
  split at h
  · exact .inl (hlr (by simp) h)
  · rename_i hm
    dsimp only at h
    split at h
    · exact .inl (hlr (by simp only; exact statusCode_ne_200 _) h)
    · rename_i hgt
      split at h
      · exact .inl (hlr (by simp only; exact statusCode_ne_200 _) h)
      · rename_i hf hh
        have hnone : ∀ {p : Prog (Option Client)} {t : List Event}, Writes (fun o => o = none) p →
            AllQ (fun q => ∀ x, q = .write x → x.status ≠ 200) p → Runs p t (.ok none) →
            ∃ pre resp, t = pre ++ [wrote resp] ∧ resp.status ≠ 200 := by
          intro p t hw ha hr
          rcases hw.ok hr with ⟨_, pre, resp, _, rfl⟩ | ⟨hn, _⟩
          · exact ⟨pre, resp, rfl, allQ_runs ha hr (wrote resp) (by simp) _ rfl⟩
          · exact absurd rfl hn
        split at h
        · rename_i cid sec b hc
          rcases runs_then h with h | ⟨c, t1, t2, rfl, h1, h2⟩
          · refine .inl (hnone writes_bySecret ?_ h)
            have hlf : ∀ {lv gt ev ps} {p : Prog Unit},
                AllQ (fun q => ∀ x, q = .write x → x.status ≠ 200) p →
                AllQ (fun q => ∀ x, q = .write x → x.status ≠ 200)
                  (tlog lv gt ev ps >>= fun _ => p >>= fun _ => (pure none : Prog (Option Client))) :=
              fun hp => allQ_bind (allQ_ask (by simp)) fun _ => allQ_bind hp fun _ => trivial
            have hfail : ∀ e, AllQ (fun q => ∀ x, q = .write x → x.status ≠ 200) (fail cfg e) := by
              intro e
              refine allQ_ask ?_
              intro x hx
              cases hx
              exact statusCode_ne_200 _
            have hinv : AllQ (fun q => ∀ x, q = .write x → x.status ≠ 200)
                (failByInvalidClientError cfg b) := by
              unfold failByInvalidClientError
              split
              · refine allQ_ask ?_
                intro x hx
                cases hx
                simp
              · exact hfail _
            unfold validateClientBySecret
            refine allQ_bind (allQ_ask (by simp)) fun ⟨c, e⟩ => ?_
            rcases e with _ | e
            · rcases c with _ | c
              · exact hlf (hfail _)
              · dsimp only
                split
                · exact hlf hinv
                · split
                  · exact hlf (hfail _)
                  · trivial
            · cases e
              · exact hlf (hfail _)
              · exact hlf (hfail _)
              · exact hlf hinv
              · exact hlf (hfail _)
          · obtain ⟨rfl, hms, hcg⟩ := runs_bySecret.1 h1
            exact .inr ⟨Decidable.of_not_not hm, hgt, hf, c, _, t2, hh, rfl,
              .secret cid sec b (findClientCredential_iff.1 hc) rfl hms hcg, h2⟩
        · rename_i hc
          split at h
          · rename_i ca hca
            have hacc : cfg.acceptClientAssertion = true ∧ findClientAssertion r = some ca := by
              by_cases ha : cfg.acceptClientAssertion = true
              · rw [if_pos ha] at hca; exact ⟨ha, hca⟩
              · rw [if_neg ha] at hca; cases hca
            rcases runs_then h with h | ⟨c, t1, t2, rfl, h1, h2⟩
            · refine .inl (hnone writes_byAssertion ?_ h)
              unfold validateClientByAssertion
              refine allQ_bind (allQ_parse (by simp) fun _ => allQ_assertionKeyFunc (by simp) (by simp))
                fun p => allQ_bind (allQ_handle (by simp) (by simp) (by simp)) fun res => ?_
              cases res with
              | error e =>
                refine allQ_bind (allQ_ask ?_) fun _ => trivial
                intro x hx
                cases hx
                exact statusCode_ne_200 _
              | ok u =>
                dsimp only
                split <;> trivial
            · exact .inr ⟨Decidable.of_not_not hm, hgt, hf, c, t1, t2, hh, rfl,
                .assertion ca (findClientCredential_none.1 hc) hacc.1
                  (findClientAssertion_iff.1 hacc.2) h1, h2⟩
          · exact .inl (hlr (by simp) h)

/-- The anatomy of a 200 answer of the token endpoint, at the moment it is written. -/
theorem token_200 {cfg : TokenCfg} {lib r pre resp} (hs : ∀ h, Registered cfg r h → Silent h)
    (h : Steps (handler cfg lib r) (pre ++ [wrote resp])) (h200 : resp.status = 200) :
    r.method = b!"POST" ∧ r.formValue b!"grant_type" ≠ [] ∧ ∃ hf c t1 now t2 res,
      Registered cfg r hf ∧ AuthTrace cfg lib r c t1 ∧ XOk (hf r c now) t2 res ∧
      pre = t1 ++ ⟨.now, now⟩ :: t2 ++
        [logged ⟨.debug, b!"token_endpoint", r.formValue b!"grant_type", .accessTokenGranted, [pClient c]⟩] ∧
      resp = ⟨200, commonHeaders, res.json⟩ := by
  obtain ⟨_, _, hr, hn⟩ := (writes_handler hs).complete h
  rcases runs_handler hr with ⟨pre', resp', he, hne⟩ | ⟨hm, hgt, hf, c, t1, t2, hh, he, ha, hx⟩
  · have := List.append_inj' he rfl
    obtain ⟨_, h2⟩ := this
    cases h2
    exact absurd h200 hne
  · obtain ⟨now, t3, ⟨err, _, rfl⟩ | ⟨res, hok, rfl⟩⟩ := runs_execute hx
    · rw [← List.append_assoc] at he
      obtain ⟨_, h2⟩ := List.append_inj' he rfl
      cases h2
      exact absurd h200 (statusCode_ne_200 _)
    · have he' : pre ++ [wrote resp] = (t1 ++ ⟨.now, now⟩ :: t3 ++ [logged ⟨.debug, b!"token_endpoint",
          r.formValue b!"grant_type", .accessTokenGranted, [pClient c]⟩]) ++
          [wrote ⟨200, commonHeaders, res.json⟩] := by simpa using he
      obtain ⟨h1, h2⟩ := List.append_inj' he' rfl
      cases h2
      exact ⟨hm, hgt, hf, c, t1, now, t3, res, hh, ha, hok, h1, rfl⟩

end Goidc
