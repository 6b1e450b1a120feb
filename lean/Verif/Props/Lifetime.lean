import Verif.Props.Replaced
import Verif.Props.EndToEnd
import Verif.Lemmas.ClockSample

/-! # C94: tokens last as long as they say -/

namespace Goidc.Props

open Spec TokenEndpoint AuthzEndpoint ResourceProtector StoreState

variable {ths : Nat → Thread} {g0 g1 g2 a b c : List (Nat × Event)} {i j k : Nat}

theorem map_mem {g : List (Nat × Event)} {e : Event} (h : e ∈ g.map (·.2)) : ∃ k, (k, e) ∈ g := by
  obtain ⟨⟨k, e'⟩, hm, he⟩ := List.mem_map.1 h
  simp only at he
  subst he
  exact ⟨k, hm⟩

theorem lookup_of_find {s : StoreState} {x : GoStr} {tk : OAuthToken} (h : answer (s.token x) = (some tk, none)) :
    tk ∈ s.tokens ∧ tk.accessToken = x := token_mem (answer_some h)

/-- C94: on the reference store, with a clock that does not go backwards, and with any requests running concurrently: the
access token of a token response admits the requests that present it, as long as `expires_in` seconds have not passed since the
token request started — unless it was replaced by a refreshed one, or the user authorizes the client for another scope. -/
theorem C94_usable {users clients} {t0 T0 T1 T2 : Int64} {s0 s1 s2 : StoreState} {cfg : TokenCfg} {lib : Lib} {r : Req}
    {resp : HttpResp} (hg : Interleaves ths (g0 ++ g1 ++ g2))
    (h0 : ClockRun (StoreState.init users clients) t0 (g0.map (·.2)) T0 s0) (h1 : ClockRun s0 T0 (g1.map (·.2)) T1 s1)
    (h2 : ClockRun s1 T1 (g2.map (·.2)) T2 s2) (hpos : 0 ≤ t0.toInt) (hmax : T2.toInt < 2 ^ 62)
    (hsmall : s2.infoIdPod < 2 ^ 63)
    (hi : ths i = ⟨handler cfg lib r⟩) (hb : AllBuiltIn lib cfg) (hi0 : ∀ e, (i, e) ∉ g0)
    (hw : (i, wrote resp) ∈ g1) (h200 : resp.status = 200) :
    ∃ res info, resp.body = Response.json res ∧ res.scope = info.scope ∧ IssuedFor (callsOf i g1) info res ∧
      (T2.toInt ≤ T0.toInt + res.expiresIn.toInt →
      ∀ (j : Nat) (pcfg : ProtectorCfg) (plib : Lib) (pr : Req) (o : Outcome (Bool × Req)),
        (∀ e, (j, e) ∉ g0 ++ g1) → Runs (ResourceProtector.validate pcfg plib pr) (callsOf j g2) o →
        BearerToken pcfg.acceptance pr res.accessToken →
        OnlyAuthorized (g1 ++ g2) info.userId info.clientId info.scope → NotRefreshed (g1 ++ g2) res.accessToken →
        ∃ pr', o = .ok (true, pr') ∧
          headerValues pr' b!"X-OAUTH-USER-ID" = [itoa info.userId] ∧
          headerValues pr' b!"X-OAUTH-CLIENT-ID" = [info.clientId] ∧
          headerValues pr' b!"X-OAUTH-SCOPE" = [info.scope]) := by
  have hall : StoreRun (StoreState.init users clients) ((g0 ++ g1 ++ g2).map (·.2)) s2 := by
    rw [List.map_append, List.map_append]
    exact chain_append.2 ⟨_, chain_append.2 ⟨_, clock_run h0, clock_run h1⟩, clock_run h2⟩
  obtain ⟨res, info, hbody, hsc, hiss, hok⟩ := C88_access_usable hg hall hsmall hi hb hi0 hw h200
  refine ⟨res, info, hbody, hsc, hiss, fun hexp j pcfg plib pr o hj hrun hbt hau hnr => ?_⟩
  refine hok j pcfg plib pr o hj hrun hbt ?_ hau hnr
  -- the age of the tokens of this name
  obtain ⟨tk, hname, _, hlife, hev⟩ := hiss
  obtain ⟨e, he, hise⟩ : ∃ e, e ∈ callsOf i g1 ∧ Issues tk e := by
    rcases hev with h | ⟨old, h⟩
    · exact ⟨_, h, .created _ _⟩
    · exact ⟨_, h, .refreshed _ _⟩
  obtain ⟨p, q, hpq⟩ := List.append_of_mem (mem_callsOf.1 he)
  have h1' := h1
  rw [hpq, List.map_append, List.map_cons] at h1'
  obtain ⟨m, m', mid, n1, n2, c1, c2, c3, c4, c5⟩ := clock_at h1'
  obtain ⟨hmem, hn1, hn2, honly⟩ := issued_only c4 hise c3
  have hT0 : T0 ≤ n1 := Int64.le_trans (clock_le c1) c2
  have hrest : ClockRun m' n2 (q.map (·.2) ++ g2.map (·.2)) T2 s2 := clock_append.2 ⟨_, _, c5, h2⟩
  have hage : ∀ {t : List Event} {hi : Int64} {x : StoreState}, ClockRun m' n2 t hi x →
      ∀ tok ∈ x.tokens, tok.accessToken = res.accessToken → T0 ≤ tok.refreshedAt := by
    intro t hi x hr
    refine tokens_run hr (fun tok ht hn => ?_) (fun info b m1 m2 _ k1 _ _ _ => ?_) (fun i old u n _ _ k1 _ _ => ?_)
    · rw [honly tok ht (hn.trans hname.symm)]
      exact Int64.le_trans hT0 hn1
    · exact Int64.le_trans hT0 (Int64.le_trans c3 k1)
    · exact Int64.le_trans hT0 (Int64.le_trans c3 k1)
  intro atk now hf hnow
  obtain ⟨p2, q2, hpq2⟩ := List.append_of_mem (mem_callsOf.1 hf)
  have h2' := h2
  rw [hpq2, List.map_append, List.map_cons] at h2'
  obtain ⟨w, w', mid2, k1, k2, d1, d2, d3, d4, d5⟩ := clock_at h2'
  have hfound := lookup_of_find (s := w) (x := res.accessToken) (tk := atk) d4.1.symm
  have hlow := hage (clock_append.2 ⟨_, _, c5, d1⟩) atk hfound.1 hfound.2
  have hdated : Dated t0 mid2 atk := by
    have hstart : ∀ x ∈ (StoreState.init users clients).tokens, Dated t0 t0 x := by intro x hx; cases hx
    refine dated_run (Int64.le_refl _) (clock_append.2 ⟨_, _, h0, clock_append.2 ⟨_, _, h1, d1⟩⟩) hstart atk hfound.1
  have hnow' := clock_now h2 (List.mem_map_of_mem (f := (·.2)) (mem_callsOf.1 hnow))
  have hmid : mid2 ≤ T2 := Int64.le_trans d2 (Int64.le_trans d3 (clock_le d5))
  have hres : res.expiresIn = 86400 := by
    rw [← hlife]
    have hstart : ∀ x ∈ (StoreState.init users clients).tokens, Dated t0 t0 x := by intro x hx; cases hx
    have hm' : ClockRun (StoreState.init users clients) t0 (g0.map (·.2) ++ (p.map (·.2) ++ [e])) n2 m' :=
      clock_append.2 ⟨_, _, h0, clock_append.2 ⟨_, _, c1, .cons c2 c3 c4 (.nil (Int64.le_refl _))⟩⟩
    exact (dated_run (Int64.le_refl _) hm' hstart tk hmem).access
  rw [hdated.access]
  rw [hres] at hexp
  have e1 := Int64.le_iff_toInt_le.1 hlow
  have e2 := Int64.le_iff_toInt_le.1 hdated.refreshed.1
  have e3 := Int64.le_iff_toInt_le.1 hdated.refreshed.2
  have e4 := Int64.le_iff_toInt_le.1 hmid
  have e5 := Int64.le_iff_toInt_le.1 hnow'.2
  have e6 : (86400 : Int64).toInt = 86400 := by decide
  rw [e6] at hexp
  refine not_expired_complete ?_ ?_ ?_ ?_ <;> rw [e6] at * <;> omega

/-- C94: on the reference store, with a clock that does not go backwards: once more seconds than its lifetime have passed since an
access token was handed out (the calls up to then are `a`, and the clock showed `T1`), every protected request that presents it is
refused with 401 — unless a token of that name was handed out again. -/
theorem C94_expired {t0 T1 T2 T3 : Int64} {s0 s1 s2 s3 : StoreState} {e : Event} {tk : OAuthToken}
    (h1 : ClockRun s0 t0 ((a ++ [(k, e)]).map (·.2)) T1 s1) (hise : Issues tk e)
    (h2 : ClockRun s1 T1 (b.map (·.2)) T2 s2) (h3 : ClockRun s2 T2 (c.map (·.2)) T3 s3)
    (hno : NotIssued (b ++ c) tk.accessToken) (hlate : T1.toInt + tk.accessTokenExpiresIn.toInt < T2.toInt)
    {cfg : ProtectorCfg} {lib : Lib} {r : Req} {o : Outcome (Bool × Req)}
    (h : Runs (validate cfg lib r) (callsOf j c) o) (hb : BearerToken cfg.acceptance r tk.accessToken) :
    ∃ r' resp, o = .ok (false, r') ∧ WroteOne (callsOf j c) resp ∧ resp.status = 401 := by
  rw [List.map_append, List.map_cons] at h1
  obtain ⟨m, m', mid, n1, n2, _, _, c3, c4, c5⟩ := clock_at h1
  obtain ⟨hmem, _, hn2, honly⟩ := issued_only c4 hise c3
  have hn2' : tk.refreshedAt ≤ T1 := Int64.le_trans hn2 (clock_le c5)
  cases c5
  -- only this token has the name
  have keep : ∀ {t : List (Nat × Event)} {lo hi : Int64} {x y : StoreState}, (∀ z ∈ t, z ∈ b ++ c) →
      (∀ z ∈ x.tokens, z.accessToken = tk.accessToken → z = tk) → ClockRun x lo (t.map (·.2)) hi y →
      ∀ z ∈ y.tokens, z.accessToken = tk.accessToken → z = tk := by
    intro t lo hi x y hsub hx hr
    refine tokens_run hr hx (fun info f m1 m2 hm _ _ _ hn => ?_) (fun i old u n hm _ _ _ hn => ?_)
    · obtain ⟨k, hm⟩ := map_mem hm
      exact absurd hn (hno k _ _ (hsub _ hm) (.created _ _))
    · obtain ⟨k, hm⟩ := map_mem hm
      exact absurd hn (hno k _ _ (hsub _ hm) (.refreshed _ _))
  have hs2 := keep (fun z hz => by simp [hz]) honly h2
  have hlife : tk.accessTokenExpiresIn = 86400 := by
    cases hise with
    | created => obtain ⟨he, _⟩ := c4; cases he; rfl
    | refreshed => obtain ⟨u, _, he, _⟩ := c4; cases he; rfl
  have hlook : ∀ x, (⟨.findOAuthTokenByAccessToken tk.accessToken, x⟩ : Event) ∈ callsOf j c →
      x = (none, some .failed) ∨ x = (some tk, none) := by
    intro x hm
    obtain ⟨p, q, rfl⟩ := List.append_of_mem (mem_callsOf.1 hm)
    rw [List.map_append, List.map_cons] at h3
    obtain ⟨w, w', mid2, k1, k2, d1, d2, d3, d4, d5⟩ := clock_at h3
    have hw := keep (fun z hz => by simp [hz]) hs2 d1
    have hx : x = answer (w.token tk.accessToken) := d4.1
    cases hf : w.token tk.accessToken with
    | none => rw [hf] at hx; exact .inl hx
    | some u =>
      rw [hf] at hx
      rw [← hw u (token_mem hf).1 (token_mem hf).2]
      exact .inr hx
  have hexp : ∀ n, (⟨.now, n⟩ : Event) ∈ callsOf j c → tk.refreshedAt + tk.accessTokenExpiresIn < n := by
    intro n hm
    have hn := clock_now h3 (List.mem_map_of_mem (f := (·.2)) (mem_callsOf.1 hm))
    have e1 := Int64.le_iff_toInt_le.1 hn.1
    have e2 := Int64.le_iff_toInt_le.1 hn2'
    have e6 : (86400 : Int64).toInt = 86400 := by decide
    rw [hlife] at hlate ⊢
    rw [e6] at hlate
    rw [Int64.lt_iff_toInt_lt, Int64.toInt_add]
    have b1 := int64_bounds tk.refreshedAt
    have b2 := int64_bounds T2
    rw [e6]
    simp only [Int.bmod_def]
    split <;> omega
  have hout : ∃ r', o = .ok (false, r') := by
    obtain ⟨hf, hne⟩ := find_iff.2 hb
    unfold validate at h
    dsimp only at h
    rw [if_neg (by rw [hf]; exact hne), hf, Prog.bind_eq, runs_bind_ask] at h
    obtain ⟨x, t, ht, h⟩ := h
    rcases hlook x (by rw [ht]; simp) with rfl | rfl
    · dsimp only at h
      rw [Prog.bind_eq, runs_bind] at h
      rcases h with ⟨_, t1, t2, rfl, h1, h2⟩ | ⟨h, _⟩
      · rw [Prog.bind_eq, runs_bind] at h2
        rcases h2 with ⟨_, t3, t4, rfl, h3, h4⟩ | ⟨h, _⟩
        · exact ⟨_, h4.2⟩
        · obtain ⟨_, _, _, h⟩ := h; cases h.2
      · obtain ⟨_, _, _, h⟩ := h; cases h.2
    · dsimp only at h
      unfold validateToken at h
      rw [Prog.bind_eq, runs_bind_ask] at h
      obtain ⟨n, t', rfl, h⟩ := h
      rw [if_pos (hexp n (by rw [ht]; simp)), Prog.bind_eq, runs_bind_ask] at h
      obtain ⟨_, t'', rfl, h⟩ := h
      rw [Prog.bind_eq, runs_bind] at h
      rcases h with ⟨_, t1, t2, rfl, h1, h2⟩ | ⟨h, _⟩
      · rw [Prog.bind_eq, runs_bind] at h2
        rcases h2 with ⟨_, t3, t4, rfl, h3, h4⟩ | ⟨h, _⟩
        · exact ⟨_, h4.2⟩
        · obtain ⟨_, _, _, h⟩ := h; cases h.2
      · obtain ⟨_, _, _, h⟩ := h; cases h.2
  obtain ⟨r', rfl⟩ := hout
  obtain ⟨v, resp, hv, hw, _, _, _, h401, _⟩ := C69_reason h
  refine ⟨r', resp, rfl, hw, ?_⟩
  have same : ∀ {tok}, BearerToken cfg.acceptance r tok → tok = tk.accessToken := fun hb' =>
    (find_iff.2 hb').1.symm.trans (find_iff.2 hb).1
  have inCalls : ∀ {x : Event}, x ∈ lookups (callsOf j c) → x ∈ callsOf j c := fun hx => (List.mem_filter.1 hx).1
  have late : ∀ {tok x n}, BearerToken cfg.acceptance r tok → ⟨.findOAuthTokenByAccessToken tok, (some x, none)⟩ ∈ lookups (callsOf j c) →
      ⟨.now, n⟩ ∈ lookups (callsOf j c) → ¬ ¬ x.refreshedAt + x.accessTokenExpiresIn < n := by
    intro tok x n hb' hx hn
    obtain rfl := same hb'
    rcases hlook _ (inCalls hx) with h4 | h4
    · cases h4
    · cases h4; exact not_not_intro (hexp n (inCalls hn))
  generalize hl : lookups (callsOf j c) = l at hv late inCalls
  cases hv with
  | noToken hn => exact absurd hb (hn _)
  | unknown _ _ => exact h401 _ rfl
  | lookupBroke hb' h1 h2 =>
    obtain rfl := same hb'
    rcases hlook _ (inCalls List.mem_cons_self) with rfl | rfl
    · exact absurd rfl h1
    · exact absurd rfl h2
  | expired hb' _ => exact h401 _ rfl
  | inactive hb' h1 _ => exact h401 _ rfl
  | infoBroke hb' h1 _ _ => exact absurd h1 (late hb' (by simp) (by simp))

/-- C94: on the reference store, with a clock that does not go backwards, and with any requests running concurrently: the
refresh token of a token response can be used for 30 days from the moment its first token request started (`C88_refreshable`
says what it yields). -/
theorem C94_refreshable {users clients} {t0 T0 T1 T2 : Int64} {s0 s1 s2 : StoreState} {cfg : TokenCfg} {lib : Lib} {r : Req}
    {resp : HttpResp} (hg : Interleaves ths (g0 ++ g1 ++ g2))
    (h0 : ClockRun (StoreState.init users clients) t0 (g0.map (·.2)) T0 s0) (h1 : ClockRun s0 T0 (g1.map (·.2)) T1 s1)
    (h2 : ClockRun s1 T1 (g2.map (·.2)) T2 s2) (hpos : 0 ≤ t0.toInt) (hmax : T2.toInt < 2 ^ 62)
    (hsmall : s2.infoIdPod < 2 ^ 63)
    (hi : ths i = ⟨handler cfg lib r⟩) (hb : AllBuiltIn lib cfg) (hi0 : ∀ e, (i, e) ∉ g0)
    (hw : (i, wrote resp) ∈ g1) (h200 : resp.status = 200) (hlate : T2.toInt ≤ T0.toInt + 2592000) :
    ∃ res info, resp.body = Response.json res ∧ res.scope = info.scope ∧ IssuedFor (callsOf i g1) info res ∧
      (res.refreshToken ≠ [] → NoNewRefreshToken g0 res.refreshToken →
      ∀ (j : Nat) (cfg' : TokenCfg) (lib' : Lib) (r' : Req) (c : Client) (o : Outcome Unit),
        (∀ e, (j, e) ∉ g0 ++ g1) → Runs (handler cfg' lib' r') (callsOf j g2) o →
        TheClient clients c → c.id = info.clientId → RequestOf cfg' lib' r' .refresh c →
        r'.formValue b!"refresh_token" = res.refreshToken →
        OnlyAuthorized (g1 ++ g2) info.userId info.clientId info.scope → OnlyTokens (g1 ++ g2) info.id info.scope →
        OnlyRefreshedBy (g1 ++ g2) info.id i j →
        ∃ calls token, RepliesWith cfg' (callsOf j g2) o calls (.granted token info.scope []) ∧
          token.refreshToken = res.refreshToken) := by
  have hall : StoreRun (StoreState.init users clients) ((g0 ++ g1 ++ g2).map (·.2)) s2 := by
    rw [List.map_append, List.map_append]
    exact chain_append.2 ⟨_, chain_append.2 ⟨_, clock_run h0, clock_run h1⟩, clock_run h2⟩
  obtain ⟨res, info, hbody, hsc, hiss, hok⟩ := C88_refreshable hg hall hsmall hi hb hi0 hw h200
  refine ⟨res, info, hbody, hsc, hiss, fun hne hnew j cfg' lib' r' c o hj hrun hc hcid hq htok => ?_⟩
  refine hok hne j cfg' lib' r' c o hj hrun hc hcid hq htok ?_
  have hage0 : ∀ tok ∈ s0.tokens, tok.refreshToken ≠ res.refreshToken := by
    refine tokens_run h0 (fun x hx => by cases hx) (fun info b m1 m2 hm _ _ _ => ?_) (fun i old u n _ hu _ _ => hu)
    obtain ⟨k, hm⟩ := map_mem hm
    exact hnew k _ _ _ hm
  intro old now hf hnow
  obtain ⟨p2, q2, hpq2⟩ := List.append_of_mem (mem_callsOf.1 hf)
  have h2' := h2
  rw [hpq2, List.map_append, List.map_cons] at h2'
  obtain ⟨w, w', mid2, k1, k2, d1, d2, d3, d4, d5⟩ := clock_at h2'
  obtain ⟨hmem, hrt⟩ : old ∈ w.tokens ∧ old.refreshToken = res.refreshToken := by
    rcases d4.2 with ⟨t, ht, hk, hx⟩ | ⟨_, hx⟩
    · cases hx; exact ⟨ht, hk⟩
    · cases hx
  have hlow : T0 ≤ old.createdAt := by
    have hr : ClockRun s0 T0 (g1.map (·.2) ++ p2.map (·.2)) mid2 w := clock_append.2 ⟨_, _, h1, d1⟩
    refine tokens_run (P := fun tok => tok.refreshToken = res.refreshToken → T0 ≤ tok.createdAt) hr
      (fun x hx hn => absurd hn (hage0 x hx)) (fun info b m1 m2 _ l1 l2 _ _ => Int64.le_trans l1 l2)
      (fun i old u n _ hu _ _ hn => hu hn) old hmem hrt
  have hdated : Dated t0 mid2 old := by
    have hstart : ∀ x ∈ (StoreState.init users clients).tokens, Dated t0 t0 x := by intro x hx; cases hx
    refine dated_run (Int64.le_refl _) (clock_append.2 ⟨_, _, h0, clock_append.2 ⟨_, _, h1, d1⟩⟩) hstart old hmem
  have hnow' := clock_now h2 (List.mem_map_of_mem (f := (·.2)) (mem_callsOf.1 hnow))
  have hmid : mid2 ≤ T2 := Int64.le_trans d2 (Int64.le_trans d3 (clock_le d5))
  rw [hdated.refresh]
  have e1 := Int64.le_iff_toInt_le.1 hlow
  have e2 := Int64.le_iff_toInt_le.1 hdated.created.1
  have e3 := Int64.le_iff_toInt_le.1 hdated.created.2
  have e4 := Int64.le_iff_toInt_le.1 hmid
  have e5 := Int64.le_iff_toInt_le.1 hnow'.2
  have e6 : (2592000 : Int64).toInt = 2592000 := by decide
  refine not_expired_complete ?_ ?_ ?_ ?_ <;> rw [e6] at * <;> omega

/-- C94: on the reference store, with a clock that does not go backwards: when no token with the refresh token `rt` was made
for more than 30 days, no refresh request that presents it succeeds; if it comes from a client with its secret, it is
refused with `invalid_grant`. -/
theorem C94_refresh_expired {users clients} {t0 T1 T2 T3 : Int64} {s1 s2 s3 : StoreState} {rt : GoStr}
    (h1 : ClockRun (StoreState.init users clients) t0 (a.map (·.2)) T1 s1) (h2 : ClockRun s1 T1 (b.map (·.2)) T2 s2)
    (h3 : ClockRun s2 T2 (c.map (·.2)) T3 s3) (hno : NoNewRefreshToken (b ++ c) rt)
    (hlate : T1.toInt + 2592000 < T2.toInt)
    {cfg : TokenCfg} {lib : Lib} {r : Req} (hreg : Registered cfg r Grant.refreshToken) (hrt : r.formValue b!"refresh_token" = rt) :
    (∀ {pre resp}, Steps (handler cfg lib r) (pre ++ [wrote resp]) → pre ++ [wrote resp] <+: callsOf j c → resp.status ≠ 200) ∧
    ∀ {clnt : Client} {o : Outcome Unit}, Runs (handler cfg lib r) (callsOf j c) o → TheClient clients clnt →
      RequestOf cfg lib r .refresh clnt → rt ≠ [] → ∃ calls desc, RepliesWith cfg (callsOf j c) o calls (.refused .invalidGrant desc) := by
  have hold : ∀ tok ∈ s1.tokens, tok.refreshTokenExpiresIn = 2592000 ∧ tok.createdAt ≤ T1 := by
    intro tok ht
    have := dated_run (Int64.le_refl _) h1 (fun x hx => by cases hx) tok ht
    exact ⟨this.refresh, this.created.2⟩
  have keep : ∀ {t : List (Nat × Event)} {hi : Int64} {y : StoreState}, (∀ z ∈ t, z ∈ b ++ c) →
      ClockRun s1 T1 (t.map (·.2)) hi y →
      ∀ z ∈ y.tokens, z.refreshToken = rt → z.refreshTokenExpiresIn = 2592000 ∧ z.createdAt ≤ T1 := by
    intro t hi y hsub hr
    refine tokens_run hr (fun x hx _ => hold x hx) (fun info f m1 m2 hm _ _ _ hn => ?_) (fun i old u n hm hu _ _ hn => hu hn)
    obtain ⟨k, hm⟩ := map_mem hm
    exact absurd hn (hno k _ _ _ (hsub _ hm))
  have hlook : ∀ x, (⟨.findOAuthTokenByRefreshToken rt, x⟩ : Event) ∈ callsOf j c →
      x = (none, some .failed) ∨ ∃ old, x = (some old, none) ∧ ∀ n, (⟨.now, n⟩ : Event) ∈ callsOf j c →
        old.createdAt + old.refreshTokenExpiresIn < n := by
    intro x hm
    have hnow : ∀ n, (⟨.now, n⟩ : Event) ∈ callsOf j c → T2 ≤ n := fun n hn =>
      (clock_now h3 (List.mem_map_of_mem (f := (·.2)) (mem_callsOf.1 hn))).1
    obtain ⟨p, q, hpq⟩ := List.append_of_mem (mem_callsOf.1 hm)
    rw [hpq, List.map_append, List.map_cons] at h3
    obtain ⟨w, w', mid2, k1, k2, d1, d2, d3, d4, d5⟩ := clock_at h3
    rcases d4.2 with ⟨old, ht, hk, hx⟩ | ⟨_, hx⟩
    · refine .inr ⟨old, hx, fun n hn => ?_⟩
      have hr : ClockRun s1 T1 ((b ++ p).map (·.2)) mid2 w := by
        rw [List.map_append]; exact clock_append.2 ⟨_, _, h2, d1⟩
      obtain ⟨e1, e2⟩ := keep (fun z hz => by
        rw [hpq]
        simp only [List.mem_append] at hz ⊢
        rcases hz with hz | hz
        · exact .inl hz
        · exact .inr (.inl hz)) hr old ht hk
      rw [e1]
      have e2 := Int64.le_iff_toInt_le.1 e2
      have e3 := Int64.le_iff_toInt_le.1 (hnow n hn)
      have e6 : (2592000 : Int64).toInt = 2592000 := by decide
      rw [Int64.lt_iff_toInt_lt, Int64.toInt_add]
      have b1 := int64_bounds old.createdAt
      have b2 := int64_bounds T2
      rw [e6] at *
      simp only [Int.bmod_def]
      split <;> omega
    · exact .inl hx
  refine ⟨?_, ?_⟩
  · rintro pre resp hs ⟨rest, hpre⟩ h200
    obtain ⟨_, _, now, old, _, _, _, _, _, hn, hd, _, hlive, _⟩ := C16_refresh hreg hs h200
    have hsub : ∀ e ∈ pre, e ∈ callsOf j c := fun e he => by rw [← hpre]; simp [he]
    have hm : (⟨.findOAuthTokenByRefreshToken (r.formValue b!"refresh_token"), (some old, none)⟩ : Event) ∈ pre :=
      (mem_dataCalls rfl).1 (by rw [hd]; simp)
    rw [hrt] at hm
    rcases hlook _ (hsub _ hm) with h4 | ⟨old', h4, h5⟩
    · cases h4
    · cases h4
      refine hlive ?_
      rw [Int64.add_comm]
      exact h5 now (hsub _ ((hn now).2 rfl))
  · intro clnt o hrun hc hq hne
    obtain ⟨sec, b', hp, hsec⟩ := hq.secret
    have hF : ∀ p e q, interactions (callsOf j c) = p ++ e :: q → e ∈ callsOf j c ∧
        ∀ x, e = ⟨.findClientById clnt.id, x⟩ → x = (some clnt, none) := by
      intro p e q he
      obtain ⟨t1, t2, ht, _, _⟩ := filter_split he
      refine ⟨by rw [ht]; simp, ?_⟩
      rintro x rfl
      obtain ⟨p', q', m, m', hg2, hp, h4, h5, _⟩ := event_at (clock_run h3) ht
      have h6 : m.client clnt.id = some clnt := client_here hc (chain_append.2 ⟨_, clock_run h1, chain_append.2 ⟨_, clock_run h2, h4⟩⟩)
      exact h5.1.trans (by rw [h6]; rfl)
    have := tf_run (F := fun _ e => e ∈ callsOf j c ∧ ∀ x, e = ⟨.findClientById clnt.id, x⟩ → x = (some clnt, none)) (kind := .refresh)
      (Q := fun _ res => ∃ desc, res = .inr (.refused .invalidGrant desc)) hq.registered hrun hF ?_
    · obtain ⟨calls, e, h4, desc, he⟩ := this
      cases he
      exact ⟨calls, desc, h4⟩
    unfold tokenTable
    refine tf_goOn (not_not_intro hq.post) (tf_need hq.grantType (tf_goOn (fun h => h _ hq.registered) ?_))
    refine tf_client hp (fun x hx => hx.2 x rfl) hsec hq.allowed ?_
    refine tf_observe fun now hnow => ?_
    refine tf_bind ?_
    unfold grantTable refreshGrant
    refine tf_need (by rw [hrt]; exact hne) ?_
    refine tf_bind ?_
    intro calls res hr hF'
    have hf : ∀ x, calls = [⟨.findOAuthTokenByRefreshToken (r.formValue b!"refresh_token"), x⟩] →
        (⟨.findOAuthTokenByRefreshToken rt, x⟩ : Event) ∈ callsOf j c := fun x hx => by
      have := (hF' [] _ [] hx).1
      rwa [hrt] at this
    cases hr with
    | refused h4 => exact ⟨_, rfl⟩
    | failed h4 h5 =>
      rcases hlook _ (hf _ rfl) with rfl | ⟨_, rfl, _⟩
      · cases h4; exact absurd rfl h5
      · cases h4
    | nothing h4 =>
      rcases hlook _ (hf _ rfl) with rfl | ⟨_, rfl, _⟩ <;> cases h4
    | value h4 =>
      rcases hlook _ (hf _ rfl) with rfl | ⟨old, rfl, h5⟩
      · cases h4
      · cases h4
        refine tf_bind ?_
        rintro calls res ⟨rfl, ⟨_, rfl⟩ | ⟨h6, _⟩⟩ _
        · exact ⟨_, rfl⟩
        · exact absurd (h5 now hnow.1) h6

/-! ## The hypotheses can be met -/

theorem none_of {g : List (Nat × Event)} {k : Nat} (h : g.all (fun x => x.1 != k) = true) : ∀ e, (k, e) ∉ g := by
  intro e he
  simpa using List.all_eq_true.1 h _ he

theorem calls_none {g : List (Nat × Event)} {k : Nat} (h : g.all (fun x => x.1 != k) = true) : callsOf k g = [] := by
  cases hc : callsOf k g with
  | nil => rfl
  | cons e t => exact absurd (mem_callsOf.1 (hc ▸ List.mem_cons_self)) (none_of h e)

/-- A new token of the refresh token. -/
theorem noNewRefreshToken_of {g : List (Nat × Event)} {rt : GoStr} (h : g.all (fun x => match x.2 with
      | ⟨.createOAuthToken _ _, (some tk, none)⟩ => tk.refreshToken != rt
      | _ => true) = true) : NoNewRefreshToken g rt := by
  intro k info b tk hm
  have := List.all_eq_true.1 h _ hm
  simpa using this

/-- The calls of a sample run, in three parts. -/
theorem life_split (tick : Int64) (k : Nat) : (Sample.lifeRun tick k).1 = (Sample.lifeRun tick k).1.take 3 ++
    ((Sample.lifeRun tick k).1.drop 3).take 7 ++ ((Sample.lifeRun tick k).1.drop 3).drop 7 := by
  rw [List.append_assoc, List.take_append_drop, List.take_append_drop]

theorem life_last {tick : Int64} {k : Nat} {o : Outcome Unit}
    (h : Runs (Sample.lifeThreads k) (callsOf k (Sample.lifeRun tick k).1) o)
    (hn : ((Sample.lifeRun tick k).1.take 3 ++ ((Sample.lifeRun tick k).1.drop 3).take 7).all (fun x => x.1 != k) = true) :
    Runs (Sample.lifeThreads k) (callsOf k (((Sample.lifeRun tick k).1.drop 3).drop 7)) o := by
  rw [life_split tick k, callsOf_append, calls_none hn, List.nil_append] at h
  exact h

/-- A password request is answered 200; then the token is used within its lifetime. -/
example : ∃ g0 g1 g2 T0 T1 T2 s0 s1 s2 resp,
    Interleaves Sample.lifeEndpoints (g0 ++ g1 ++ g2) ∧
    ClockRun (StoreState.init [⟨5, b!"u", b!"p"⟩] [Sample.client]) 1000 (g0.map (·.2)) T0 s0 ∧
    ClockRun s0 T0 (g1.map (·.2)) T1 s1 ∧ ClockRun s1 T1 (g2.map (·.2)) T2 s2 ∧ T2.toInt < 2 ^ 62 ∧ s2.infoIdPod < 2 ^ 63 ∧
    AllBuiltIn Sample.lib Sample.tokenCfg ∧ (∀ e, (1, e) ∉ g0) ∧ (1, wrote resp) ∈ g1 ∧ resp.status = 200 ∧
    T2.toInt ≤ T0.toInt + 86400 ∧ (∀ e, (2, e) ∉ g0 ++ g1) ∧
    (∃ o, Runs (ResourceProtector.validate Sample.protectorCfg Sample.lib Sample.bearerReq) (callsOf 2 g2) o) ∧
    BearerToken Sample.protectorCfg.acceptance Sample.bearerReq b!"ACCESS_TOKEN_0" ∧
    OnlyAuthorized (g1 ++ g2) 5 b!"client" b!"openid offline_access" ∧ NotRefreshed (g1 ++ g2) b!"ACCESS_TOKEN_0" := by
  obtain ⟨T0, T1, T2, s0, s1, s2, h0, h1, h2, e0, e1, e2, es⟩ := Sample.life_parts (life_split 1 2)
  obtain ⟨resp, hresp, h200⟩ : ∃ resp, (1, wrote resp) ∈ ((Sample.lifeRun 1 2).1.drop 3).take 7 ∧ resp.status = 200 :=
    answered_mem (by decide +kernel)
  have hr := Sample.remaining_runs (Sample.clockDet 1) (Sample.lifeSchedule 2) Sample.lifeThreads (Sample.webStart, 1000) 2
    (Sample.over_runs (by decide +kernel))
  rw [List.append_nil] at hr
  obtain ⟨o, hr, _⟩ := Sample.closed_runs (life_last (tick := 1) hr (by decide +kernel))
  refine ⟨_, _, _, T0, T1, T2, s0, s1, s2, resp, ?_, h0, h1, h2, ?_, ?_, sample_allBuiltIn, none_of (by decide +kernel), hresp, h200,
    ?_, none_of (by decide +kernel), ⟨_, hr⟩, find_iff.1 ⟨by decide +kernel, by decide⟩,
    Sample.onlyAuthorized_of (by decide +kernel), Sample.notRefreshed_of (by decide +kernel)⟩
  · rw [← life_split]; exact Sample.life_interleaves 1 2
  · rw [e2]; decide +kernel
  · rw [es]; decide +kernel
  · rw [e2, e0]; decide +kernel

/-- It is refreshed within 30 days. -/
example : ∃ g0 g1 g2 T0 T1 T2 s0 s1 s2 resp,
    Interleaves Sample.lifeEndpoints (g0 ++ g1 ++ g2) ∧
    ClockRun (StoreState.init [⟨5, b!"u", b!"p"⟩] [Sample.client]) 1000 (g0.map (·.2)) T0 s0 ∧
    ClockRun s0 T0 (g1.map (·.2)) T1 s1 ∧ ClockRun s1 T1 (g2.map (·.2)) T2 s2 ∧ T2.toInt < 2 ^ 62 ∧ s2.infoIdPod < 2 ^ 63 ∧
    AllBuiltIn Sample.lib Sample.tokenCfg ∧ (∀ e, (1, e) ∉ g0) ∧ (1, wrote resp) ∈ g1 ∧ resp.status = 200 ∧
    T2.toInt ≤ T0.toInt + 2592000 ∧ NoNewRefreshToken g0 b!"REFRESH_TOKEN_0" ∧ (∀ e, (3, e) ∉ g0 ++ g1) ∧
    Runs (handler Sample.tokenCfg Sample.lib (Sample.post Sample.rtBody)) (callsOf 3 g2) (.ok ()) ∧
    TheClient [Sample.client] Sample.client ∧
    RequestOf Sample.tokenCfg Sample.lib (Sample.post Sample.rtBody) .refresh Sample.client ∧
    (Sample.post Sample.rtBody).formValue b!"refresh_token" = b!"REFRESH_TOKEN_0" ∧
    OnlyAuthorized (g1 ++ g2) 5 b!"client" b!"openid offline_access" ∧ OnlyTokens (g1 ++ g2) 0 b!"openid offline_access" ∧
    OnlyRefreshedBy (g1 ++ g2) 0 1 3 := by
  obtain ⟨T0, T1, T2, s0, s1, s2, h0, h1, h2, e0, e1, e2, es⟩ := Sample.life_parts (life_split 1 3)
  obtain ⟨resp, hresp, h200⟩ : ∃ resp, (1, wrote resp) ∈ ((Sample.lifeRun 1 3).1.drop 3).take 7 ∧ resp.status = 200 :=
    answered_mem (by decide +kernel)
  have hr := Sample.remaining_runs (Sample.clockDet 1) (Sample.lifeSchedule 3) Sample.lifeThreads (Sample.webStart, 1000) 3
    (Sample.over_runs (by decide +kernel))
  rw [List.append_nil] at hr
  refine ⟨_, _, _, T0, T1, T2, s0, s1, s2, resp, ?_, h0, h1, h2, ?_, ?_, sample_allBuiltIn, none_of (by decide +kernel), hresp, h200,
    ?_, noNewRefreshToken_of (by decide +kernel), none_of (by decide +kernel), life_last (tick := 1) hr (by decide +kernel),
    ⟨by simp, by simp⟩, ⟨rfl, by decide +kernel, rfl, ⟨b!"secret", true, .header _ b!"secret" (by decide +kernel), by decide +kernel⟩,
      by decide +kernel⟩, by decide +kernel, Sample.onlyAuthorized_of (by decide +kernel), Sample.onlyTokens_of (by decide +kernel),
    Sample.onlyRefreshedBy_of (by decide +kernel)⟩
  · rw [← life_split]; exact Sample.life_interleaves 1 3
  · rw [e2]; decide +kernel
  · rw [es]; decide +kernel
  · rw [e2, e0]; decide +kernel

/-- The token a call hands out. -/
def handsOut : Event → Option OAuthToken
  | ⟨.createOAuthToken (some _) _, (some tk, none)⟩ => some tk
  | ⟨.refreshAccessToken _ _, (some tk, none)⟩ => some tk
  | _ => none

theorem handsOut_issues {e : Event} {tk : OAuthToken} (h : handsOut e = some tk) : Issues tk e := by
  unfold handsOut at h
  split at h
  · cases h; exact .created _ _
  · cases h; exact .refreshed _ _
  · cases h

/-- When the clock advances by more than a day between calls, the token has expired when it is used. -/
example : ∃ (a b c : List (Nat × Event)) (k : Nat) (e : Event) (tk : OAuthToken) (T1 T2 T3 : Int64) (s1 s2 s3 : StoreState) (o : Outcome (Bool × Req)),
    ClockRun Sample.webStart 1000 ((a ++ [(k, e)]).map (·.2)) T1 s1 ∧ Issues tk e ∧ ClockRun s1 T1 (b.map (·.2)) T2 s2 ∧
    ClockRun s2 T2 (c.map (·.2)) T3 s3 ∧ NotIssued (b ++ c) tk.accessToken ∧
    T1.toInt + tk.accessTokenExpiresIn.toInt < T2.toInt ∧
    Runs (validate Sample.protectorCfg Sample.lib Sample.bearerReq) (callsOf 2 c) o ∧
    BearerToken Sample.protectorCfg.acceptance Sample.bearerReq tk.accessToken := by
  have hs : (Sample.lifeRun 86401 2).1 = (Sample.lifeRun 86401 2).1.take 8 ++
      ((Sample.lifeRun 86401 2).1.drop 8).take 2 ++ ((Sample.lifeRun 86401 2).1.drop 8).drop 2 := by
    rw [List.append_assoc, List.take_append_drop, List.take_append_drop]
  obtain ⟨T1, T2, T3, s1, s2, s3, h1, h2, h3, e1, e2, _, _⟩ := Sample.life_parts hs
  have hr := Sample.remaining_runs (Sample.clockDet 86401) (Sample.lifeSchedule 2) Sample.lifeThreads (Sample.webStart, 1000) 2
    (Sample.over_runs (by decide +kernel))
  rw [List.append_nil] at hr
  obtain ⟨o, hr, _⟩ := Sample.closed_runs (life_last (tick := 86401) hr (by decide +kernel))
  have hd : (match (Sample.lifeRun 86401 2).1.drop 7 with
      | x :: _ => match handsOut x.2 with
        | some tk => tk.accessToken == b!"ACCESS_TOKEN_0" && tk.accessTokenExpiresIn == 86400
        | none => false
      | [] => false) = true := by decide +kernel
  have htake : (Sample.lifeRun 86401 2).1.take 8 = (Sample.lifeRun 86401 2).1.take 7 ++ ((Sample.lifeRun 86401 2).1.drop 7).take 1 := by
    rw [← List.take_add]
  split at hd
  · rename_i x rest hx
    split at hd
    · rename_i tk htk
      rw [hx] at htake
      simp only [Bool.and_eq_true, beq_iff_eq] at hd
      rw [htake] at h1
      refine ⟨_, _, _, x.1, x.2, tk, T1, T2, T3, s1, s2, s3, _, h1, handsOut_issues htk, h2, h3, ?_, ?_, hr, ?_⟩
      · rw [hd.1]; exact notIssued_of (by decide +kernel)
      · rw [hd.2, e1, e2]; decide +kernel
      · rw [hd.1]; exact find_iff.1 ⟨by decide +kernel, by decide⟩
    · cases hd
  · cases hd

/-- When it advances by more than 30 days, the refresh token has expired. -/
example : ∃ (a b c : List (Nat × Event)) (T1 T2 T3 : Int64) (s1 s2 s3 : StoreState),
    ClockRun (StoreState.init [⟨5, b!"u", b!"p"⟩] [Sample.client]) 1000 (a.map (·.2)) T1 s1 ∧ ClockRun s1 T1 (b.map (·.2)) T2 s2 ∧
    ClockRun s2 T2 (c.map (·.2)) T3 s3 ∧ NoNewRefreshToken (b ++ c) b!"REFRESH_TOKEN_0" ∧ T1.toInt + 2592000 < T2.toInt ∧
    Registered Sample.tokenCfg (Sample.post Sample.rtBody) Grant.refreshToken ∧
    (Sample.post Sample.rtBody).formValue b!"refresh_token" = b!"REFRESH_TOKEN_0" ∧
    Runs (handler Sample.tokenCfg Sample.lib (Sample.post Sample.rtBody)) (callsOf 3 c) (.ok ()) ∧
    TheClient [Sample.client] Sample.client ∧
    RequestOf Sample.tokenCfg Sample.lib (Sample.post Sample.rtBody) .refresh Sample.client ∧
    (3, ⟨.findOAuthTokenByRefreshToken b!"REFRESH_TOKEN_0", (none, some .failed)⟩) ∉ c := by
  have hs : (Sample.lifeRun 2592001 3).1 = (Sample.lifeRun 2592001 3).1.take 8 ++
      ((Sample.lifeRun 2592001 3).1.drop 8).take 2 ++ ((Sample.lifeRun 2592001 3).1.drop 8).drop 2 := by
    rw [List.append_assoc, List.take_append_drop, List.take_append_drop]
  obtain ⟨T1, T2, T3, s1, s2, s3, h1, h2, h3, e1, e2, _, _⟩ := Sample.life_parts hs
  have hr := Sample.remaining_runs (Sample.clockDet 2592001) (Sample.lifeSchedule 3) Sample.lifeThreads (Sample.webStart, 1000) 3
    (Sample.over_runs (by decide +kernel))
  rw [List.append_nil] at hr
  refine ⟨_, _, _, T1, T2, T3, s1, s2, s3, h1, h2, h3, noNewRefreshToken_of (by decide +kernel), by rw [e1, e2]; decide +kernel,
    rfl, by decide +kernel, life_last (tick := 2592001) hr (by decide +kernel), ⟨by simp, by simp⟩,
    ⟨rfl, by decide +kernel, rfl, ⟨b!"secret", true, .header _ b!"secret" (by decide +kernel), by decide +kernel⟩, by decide +kernel⟩, ?_⟩
  intro hm
  have h : (((Sample.lifeRun 2592001 3).1.drop 8).drop 2).all (fun x => match x.2 with
      | ⟨.findOAuthTokenByRefreshToken _, (none, _)⟩ => false
      | _ => true) = true := by decide +kernel
  have := List.all_eq_true.1 h _ hm
  cases this

end Goidc.Props
