import Verif.Props.Concurrent
import Verif.Props.Protector

/-! # C60: the token lifecycle on the reference store -/

namespace Goidc.Props

open Spec TokenEndpoint StoreState

variable {ths : Nat → Thread} {g g1 g2 : List (Nat × Event)}

/-- A call of request `i` splits the global sequence. -/
theorem callsOf_split {i : Nat} {g : List (Nat × Event)} {u v : List Event} {e : Event}
    (h : callsOf i g = u ++ e :: v) :
    ∃ g' g'', g = g' ++ (i, e) :: g'' ∧ callsOf i g' = u ∧ callsOf i g'' = v := by
  induction g generalizing u with
  | nil => simp [callsOf] at h
  | cons x g ih =>
    obtain ⟨j, e'⟩ := x
    by_cases hj : j = i
    · subst hj
      rw [callsOf_cons_self] at h
      cases u with
      | nil =>
        simp only [List.nil_append, List.cons.injEq] at h
        obtain ⟨rfl, h⟩ := h
        exact ⟨[], g, rfl, rfl, h⟩
      | cons y u =>
        simp only [List.cons_append, List.cons.injEq] at h
        obtain ⟨rfl, h⟩ := h
        obtain ⟨g', g'', rfl, h1, h2⟩ := ih h
        exact ⟨(j, e') :: g', g'', rfl, by rw [callsOf_cons_self, h1], h2⟩
    · rw [callsOf_cons_ne hj] at h
      obtain ⟨g', g'', rfl, h1, h2⟩ := ih h
      exact ⟨(j, e') :: g', g'', rfl, by rw [callsOf_cons_ne hj, h1], h2⟩

theorem answer_some {α : Type} {o : Option α} {x : α} (h : StoreState.answer o = (some x, none)) : o = some x := by
  cases o with
  | none => cases h
  | some y => cases h; rfl

/-- C60: on the reference store, starting without sessions, with fresh authorization codes and any
requests running concurrently: once a request presenting a code has been answered 200, no request that
starts later and presents the same code is answered 200. -/
theorem C60_code_spent (hg : Interleaves ths (g1 ++ g2)) {s s' : StoreState} (hempty : s.sessions = [])
    (hs : StoreRun s ((g1 ++ g2).map (·.2)) s') (hfresh : CodesFresh (g1 ++ g2))
    {cfg cfg' : TokenCfg} {lib lib' : Lib} {r r' : Req} {i j : Nat} {resp resp' : HttpResp}
    (hi : ths i = ⟨handler cfg lib r⟩) (hj : ths j = ⟨handler cfg' lib' r'⟩)
    (hri : Registered cfg r (Grant.authorizationCode lib))
    (hrj : Registered cfg' r' (Grant.authorizationCode lib'))
    (hw : (i, wrote resp) ∈ g1) (h200 : resp.status = 200)
    (hlate : ∀ e, (j, e) ∉ g1) (hsame : r.formValue b!"code" = r'.formValue b!"code")
    (hw' : (j, wrote resp') ∈ g2) : resp'.status ≠ 200 := by
  intro h200'
  have hgi := hg i
  have hgj := hg j
  rw [hi, callsOf_append] at hgi
  rw [hj] at hgj
  obtain ⟨A, B, C, post, sess, e⟩ := C13_burned_before_response hri (steps_of_append hgi) (mem_callsOf.2 hw) h200
  obtain ⟨A', B', C', post', sess', e'⟩ := C13_burned_before_response hrj hgj
    (mem_callsOf.2 (List.mem_append_right _ hw')) h200'
  have hj1 : callsOf j g1 = [] := by
    cases hc : callsOf j g1 with
    | nil => rfl
    | cons e t => exact absurd (mem_callsOf.1 (hc ▸ List.mem_cons_self)) (hlate e)
  rw [callsOf_append, hj1, List.nil_append] at e'
  obtain ⟨d1, d2, hd, hd1, _⟩ := callsOf_split (g := g1)
    (u := A ++ ⟨.findAuthSessionByCode (r.formValue b!"code"), (some sess, none)⟩ :: B)
    (e := ⟨.disableSession sess, none⟩) (v := C ++ wrote resp :: post) (by rw [e]; simp)
  obtain ⟨f1, f2, hf, _, _⟩ := callsOf_split hd1
  obtain ⟨k1, k2, hk, _, _⟩ := callsOf_split (g := g2) (u := A')
    (e := ⟨.findAuthSessionByCode (r'.formValue b!"code"), (some sess', none)⟩)
    (v := B' ++ ⟨.disableSession sess', none⟩ :: C' ++ wrote resp' :: post') (by rw [e']; simp)
  subst hf hd hk
  simp only [List.map_append, List.map_cons, List.append_assoc, List.cons_append] at hs
  obtain ⟨m1, hr1, hs⟩ := chain_append.1 hs
  cases hs with
  | cons hfind hs =>
  obtain ⟨m2, hr2, hs⟩ := chain_append.1 hs
  cases hs with
  | cons hdis hs =>
  rw [← List.append_assoc, ← List.map_append] at hs
  obtain ⟨m3, hr3, hs⟩ := chain_append.1 hs
  cases hs with
  | cons hfind' hs =>
  have h1 : m1.session (r.formValue b!"code") = some sess := answer_some hfind.1.symm
  have h2 : m3.session (r.formValue b!"code") = some sess' := by rw [hsame]; exact answer_some hfind'.1.symm
  have hcode := (session_mem h1).2
  obtain ⟨ia, xa, ra, hma, hca⟩ := session_created hr1
    (show s.session (r.formValue b!"code") = none by simp [StoreState.session, hempty]) h1
  have hdis' := hdis.2
  subst hdis'
  obtain ⟨ib, xb, rb, hmb, hcb⟩ := session_created hr3
    (show StoreState.session _ (r.formValue b!"code") = none by rw [hcode]; exact session_delete_self _ _) h2
  obtain ⟨⟨na, ea⟩, hma, hea⟩ := List.mem_map.1 hma
  obtain ⟨⟨nb, eb⟩, hmb, heb⟩ := List.mem_map.1 hmb
  simp only at hea heb
  subst hea heb
  obtain ⟨p, q, rfl⟩ := List.append_of_mem hma
  obtain ⟨p', q', hpq⟩ := List.append_of_mem hmb
  refine hfresh p (q ++ (i, ⟨.findAuthSessionByCode (r.formValue b!"code"), (some sess, none)⟩) :: f2 ++
    (i, ⟨.disableSession sess, none⟩) :: p') (q' ++ (j, ⟨.findAuthSessionByCode (r'.formValue b!"code"), (some sess', none)⟩) :: k2)
    na nb ia ib xa xb ra rb ?_ (hca.trans hcb.symm)
  have : ∀ x : List (Nat × Event), d2 ++ (k1 ++ x) = p' ++ (nb, ⟨.createAuthSession ib xb, rb⟩) :: (q' ++ x) := by
    intro x
    rw [← List.append_assoc, hpq]
    simp
  simp only [List.append_assoc, List.cons_append, this]

/-- The codes passed to `CreateAuthSession`. -/
def createdCodes : List (Nat × Event) → List GoStr
  | [] => []
  | (_, ⟨.createAuthSession _ x, _⟩) :: g => x.code :: createdCodes g
  | _ :: g => createdCodes g

theorem createdCodes_append (g g' : List (Nat × Event)) :
    createdCodes (g ++ g') = createdCodes g ++ createdCodes g' := by
  induction g with
  | nil => rfl
  | cons x g ih =>
    obtain ⟨n, q, rr⟩ := x
    cases q <;> simp [createdCodes, ih]

theorem codesFresh_of_nodup {g : List (Nat × Event)} (h : (createdCodes g).Nodup) : CodesFresh g := by
  rintro a b c i j info info' x x' rr rr' rfl he
  simp only [createdCodes_append, createdCodes, List.append_assoc, List.cons_append] at h
  have := (List.nodup_append.1 h).2.1
  exact (List.nodup_cons.1 this).1 (by simp [he])

/-- The first exchange finishes before the second starts. -/
def sequentialSchedule : List Nat := [0, 0] ++ List.replicate 10 1 ++ List.replicate 10 2

/-- The calls of that execution. -/
def sequentialCalls : List (Nat × Event) :=
  (schedule (StoreState.det 1000) sequentialSchedule sampleThreads emptyStore).1

/-- The hypotheses of `C60_code_spent` are met by an execution in which the second request is refused. -/
example : ∃ g1 g2 s', Interleaves (fun i => ⟨sampleThreads i⟩) (g1 ++ g2) ∧ emptyStore.sessions = [] ∧
    StoreRun emptyStore ((g1 ++ g2).map (·.2)) s' ∧ CodesFresh (g1 ++ g2) ∧
    (∃ resp, (1, wrote resp) ∈ g1 ∧ resp.status = 200) ∧ (∀ e, (2, e) ∉ g1) ∧
    ∃ resp, (2, wrote resp) ∈ g2 ∧ resp.status = 400 := by
  refine ⟨sequentialCalls.take 12, sequentialCalls.drop 12,
    (schedule (StoreState.det 1000) sequentialSchedule sampleThreads emptyStore).2,
    ?_, rfl, ?_, ?_, answered_mem (by decide +kernel),
    ?_, answered_mem (by decide +kernel)⟩
  · rw [List.take_append_drop]; exact schedule_interleaves _ _ _ _
  · rw [List.take_append_drop]; exact schedule_chain (fun _ _ _ _ h => StoreState.det_step h) _ _ _
  · rw [List.take_append_drop]; exact codesFresh_of_nodup (by decide +kernel)
  · intro e he
    have h : (sequentialCalls.take 12).all (fun x => x.1 != 2) = true := by decide +kernel
    simpa using List.all_eq_true.1 h _ he

/-! ### Access tokens -/

variable {cfg : TokenCfg} {lib : Lib} {r : Req} {pre : List Event} {resp : HttpResp}

/-- The tokens and the lifetime of the response `res` are those of a token issued for the authorization `info`
in the calls `t`. -/
def IssuedFor (t : List Event) (info : AuthInfo) (res : Response) : Prop :=
  ∃ tk, tk.accessToken = res.accessToken ∧ tk.refreshToken = res.refreshToken ∧ tk.accessTokenExpiresIn = res.expiresIn ∧
    (⟨.createOAuthToken (some info) true, (some tk, none)⟩ ∈ t ∨
     ∃ old, ⟨.refreshAccessToken info old, (some tk, none)⟩ ∈ t)

theorem run_auth {s s' : StoreState} {auth t : List Event} (ha : ∀ e ∈ auth, IsAuthCall e.q)
    (h : StoreRun s (auth ++ t) s') : StoreRun s t s' := by
  obtain ⟨m, h1, h2⟩ := chain_append.1 h
  have : m = s := run_reads h1 fun e he => by
    have := ha e he
    obtain ⟨q, x⟩ := e
    cases q <;> simp [IsAuthCall, Query.isStoreWrite] at this ⊢
  rw [← this]
  exact h2

theorem run_read {s s' : StoreState} {e : Event} {t : List Event} (he : e.q.isStoreWrite = false)
    (h : StoreRun s (e :: t) s') : s.Answers e s ∧ StoreRun s t s' := by
  cases h with
  | cons h1 h2 =>
    have := answers_read h1 he
    subst this
    exact ⟨h1, h2⟩

/-- Creating a token for a stored authorization. -/
theorem tracks_create {s s' : StoreState} {info : AuthInfo} {b : Bool} {tk : OAuthToken} (hi : s.info info.id = some info)
    (h : s.Answers ⟨.createOAuthToken (some info) b, (some tk, none)⟩ s') :
    s'.Tracks tk.accessToken info.userId info.clientId info.scope True := by
  obtain ⟨n1, n2, he, rfl⟩ := h
  cases he
  exact ⟨_, info, token_set_self s _, hi, rfl, rfl, fun _ => rfl⟩

theorem tracks_issue {s s' : StoreState} {uid : Int64} {cid sc : GoStr} {info : AuthInfo} {tk : OAuthToken}
    (h : StoreRun s [⟨.createOrUpdateAuthInfo uid cid sc, (some info, none)⟩,
         ⟨.createOAuthToken (some info) true, (some tk, none)⟩] s') :
    s'.Tracks tk.accessToken info.userId info.clientId info.scope True := by
  cases h with
  | cons h1 h2 =>
    cases h2 with
    | cons h2 h3 =>
      cases h3
      refine tracks_create ?_ h2
      rcases h1 with ⟨i, _, _, _, he, rfl⟩ | ⟨_, he, rfl⟩
      · cases he; exact info_set_self s _
      · cases he; exact info_set_self s (newInfo _ _ _ _)

/-- The token of a 200 answer is stored with its authorization. -/
theorem issued_tracks {s s' : StoreState} (hok : s.Ok) (hb : AllBuiltIn lib cfg)
    (h : Steps (handler cfg lib r) (pre ++ [wrote resp])) (h200 : resp.status = 200)
    (hs : StoreRun s (pre ++ [wrote resp]) s') :
    ∃ res info, resp.body = Response.json res ∧ res.scope = info.scope ∧ IssuedFor pre info res ∧
      s'.Tracks res.accessToken info.userId info.clientId info.scope True := by
  have hs' : StoreRun s (dataCalls pre) s' := by
    have := run_filter hs
    rwa [List.filter_append, show ([wrote resp] : List Event).filter (fun e => e.q.isData) = [] from rfl,
      List.append_nil] at this
  obtain ⟨_, _, hf, _, _, _, _, _, hreg, _⟩ := token_200 (fun h hr => builtIn_silent (hb _ h hr)) h h200
  cases hb _ hf hreg with
  | authorizationCode =>
    obtain ⟨c, auth, now, sess, info, tk, idc, res, _, h2, _, h4, _, _, _, _, _, h10, h11⟩ := code_200 hreg h h200
    have hm : (⟨.createOAuthToken (some info) true, (some tk, none)⟩ : Event) ∈ pre :=
      (mem_dataCalls rfl).1 (by rw [h4]; simp)
    rw [h4, List.append_assoc] at hs'
    replace hs' := (run_read rfl (run_auth h2 hs')).2
    obtain ⟨hi, hs'⟩ := run_read rfl hs'
    have hinfo := answer_some hi.1.symm
    have hres : res.accessToken = tk.accessToken ∧ res.scope = info.scope ∧ tk.refreshToken = res.refreshToken ∧
        tk.accessTokenExpiresIn = res.expiresIn := by
      rcases h10 with ⟨_, iss, idt, _, _, rfl⟩ | ⟨_, _, rfl⟩ <;> exact ⟨rfl, rfl, rfl, rfl⟩
    refine ⟨res, info, by rw [h11], hres.2.1, ⟨tk, hres.1.symm, hres.2.2.1, hres.2.2.2, .inl hm⟩, ?_⟩
    rw [hres.1]
    cases hs' with
    | cons h5 hs' =>
      cases hs' with
      | cons h6 hs' =>
        obtain ⟨tk', info', a1, a2, a3⟩ :=
          (tracks_create (by rw [(info_mem hinfo).2]; exact hinfo) h5).holds
        have h7 := h6.2
        subst h7
        have : s' = _ := run_reads hs' (by
          rcases h10 with ⟨_, iss, _, rfl, _⟩ | ⟨_, rfl, _⟩ <;> simp [Query.isStoreWrite])
        subst this
        exact ⟨tk', info', a1, a2, a3⟩
  | refreshToken =>
    obtain ⟨c, auth, now, old, info, tk, res, _, h2, _, h4, _, _, _, _, h9, _, h10, hx, hr, h13, _⟩ := C16_refresh hreg h h200
    have hm : (⟨.refreshAccessToken info old, (some tk, none)⟩ : Event) ∈ pre :=
      (mem_dataCalls rfl).1 (by rw [h4]; simp)
    rw [h4] at hs'
    obtain ⟨ho, hs'⟩ := run_read rfl (run_auth h2 hs')
    obtain ⟨hi, hs'⟩ := run_read rfl hs'
    have hinfo := answer_some hi.1.symm
    refine ⟨res, info, h9, h13, ⟨tk, h10.symm, hr.symm, hx.symm, .inr ⟨old, hm⟩⟩, ?_⟩
    rw [h10]
    have hold : s.token old.accessToken = some old := by
      rcases ho.2 with ⟨t, ht, _, he⟩ | ⟨_, he⟩
      · cases he; exact hok.tokenKeys _ ht
      · cases he
    cases hs' with
    | cons h5 hs' =>
      cases hs'
      obtain ⟨t, n, ht, he, rfl⟩ := h5
      cases he
      have : t = old := Option.some.inj (ht.symm.trans hold)
      subst this
      exact ⟨_, info, token_set_self _ _, hinfo, rfl, rfl, fun _ => rfl⟩
  | password =>
    obtain ⟨c, auth, uid, info, tk, res, _, h2, h4, _, _, h9, _, h10, hx, hr, h13, _⟩ := C18_password hreg h h200
    have hm : (⟨.createOAuthToken (some info) true, (some tk, none)⟩ : Event) ∈ pre :=
      (mem_dataCalls rfl).1 (by rw [h4]; simp)
    rw [h4] at hs'
    refine ⟨res, info, h9, h13, ⟨tk, h10.symm, hr.symm, hx.symm, .inl hm⟩, ?_⟩
    rw [h10]
    exact tracks_issue (run_read rfl (run_auth h2 hs')).2
  | clientCredentials =>
    obtain ⟨c, auth, info, tk, res, _, h2, h4, _, h9, _, h10, hx, hr, h13, _⟩ := C19_client_credentials hreg h h200
    have hm : (⟨.createOAuthToken (some info) true, (some tk, none)⟩ : Event) ∈ pre :=
      (mem_dataCalls rfl).1 (by rw [h4]; simp)
    rw [h4] at hs'
    refine ⟨res, info, h9, h13, ⟨tk, h10.symm, hr.symm, hx.symm, .inl hm⟩, ?_⟩
    rw [h10]
    exact tracks_issue (run_auth h2 hs')
  | jwt =>
    obtain ⟨c, auth, tkn, exp, iat, aud, sub, uid, info, tk, res, _, h2, _, _, _, _, _, _, _, h4, h9, _, h10, hx, hr, h13, _⟩ :=
      C20_jwt_bearer hreg h h200
    have hm : (⟨.createOAuthToken (some info) true, (some tk, none)⟩ : Event) ∈ pre :=
      (mem_dataCalls rfl).1 (by rw [h4]; simp)
    rw [h4] at hs'
    refine ⟨res, info, h9, h13, ⟨tk, h10.symm, hr.symm, hx.symm, .inl hm⟩, ?_⟩
    rw [h10]
    exact tracks_issue (run_read rfl (run_read rfl (run_read rfl (run_auth h2 hs')).2).2).2

/-- C60: on the reference store, after any history, the access token of a 200 answer is accepted by the
protector — after any further history in which that token is not refreshed (and at most 2^63
authorizations exist) — with the user and client of the authorization it was issued for, as long as the
stored token is not expired; and with the scope of the answer, unless that user and client were
authorized again in the meantime. -/
theorem C60_token_accepted {users clients t0 t2 s0 s1 s2}
    (h0 : StoreRun (StoreState.init users clients) t0 s0) (hb : AllBuiltIn lib cfg)
    (h : Steps (handler cfg lib r) (pre ++ [wrote resp])) (h200 : resp.status = 200)
    (h1 : StoreRun s0 (pre ++ [wrote resp]) s1) (h2 : StoreRun s1 t2 s2) (hsmall : s2.infoIdPod < 2 ^ 63) :
    ∃ res info, resp.body = Response.json res ∧ res.scope = info.scope ∧ IssuedFor pre info res ∧
      ((∀ i old rr, ⟨.refreshAccessToken i old, rr⟩ ∈ t2 → old.accessToken ≠ res.accessToken) →
       ∀ (pcfg : ProtectorCfg) (plib : Lib) (pr : Req) (tp : List Event) (o : Outcome (Bool × Req)) (s3 : StoreState),
        BearerToken pcfg.acceptance pr res.accessToken →
        Runs (ResourceProtector.validate pcfg plib pr) tp o → StoreRun s2 tp s3 →
        (∀ k atk n, ⟨.findOAuthTokenByAccessToken k, (some atk, none)⟩ ∈ tp → ⟨.now, n⟩ ∈ tp →
          ¬ (atk.refreshedAt + atk.accessTokenExpiresIn < n)) →
        ∃ pr', o = .ok (true, pr') ∧
          headerValues pr' b!"X-OAUTH-USER-ID" = [itoa info.userId] ∧
          headerValues pr' b!"X-OAUTH-CLIENT-ID" = [info.clientId] ∧
          ((∀ sc rr, ⟨.createOrUpdateAuthInfo info.userId info.clientId sc, rr⟩ ∉ t2) →
            headerValues pr' b!"X-OAUTH-SCOPE" = [info.scope])) := by
  have hok0 := ok_run (ok_init users clients) h0
  obtain ⟨res, info, hbody, hscope, hiss, htr⟩ := issued_tracks hok0 hb h h200 h1
  refine ⟨res, info, hbody, hscope, hiss, fun hnr pcfg plib pr tp o s3 hbt hrun hsp hlive => ?_⟩
  obtain ⟨a0, b0, c0, d0, e0, f0, g0⟩ := htr.holds
  have htr2 := tracks_run (keep := ∀ sc rr, ⟨.createOrUpdateAuthInfo info.userId info.clientId sc, rr⟩ ∉ t2)
    (ok_run hok0 h1) h2 hsmall ⟨a0, b0, c0, d0, e0, f0, fun _ => g0 trivial⟩ hnr (fun hk => hk)
  obtain ⟨tk, inf, k1, k2, k3, k4, k5⟩ := htr2.holds
  obtain ⟨hfind, hne⟩ := find_iff.2 hbt
  unfold ResourceProtector.validate at hrun
  dsimp only at hrun
  rw [hfind, if_neg hne] at hrun
  replace hrun := runs_bind_ask.1 hrun
  obtain ⟨x, t', rfl, hrun⟩ := hrun
  obtain ⟨hx, hsp1⟩ := run_read rfl hsp
  have hx' : x = (some tk, none) := Eq.trans hx.1 (by rw [k1]; rfl)
  subst hx'
  dsimp only at hrun
  unfold ResourceProtector.validateToken at hrun
  replace hrun := runs_bind_ask.1 hrun
  obtain ⟨n, t'', rfl, hrun⟩ := hrun
  obtain ⟨_, hsp2⟩ := run_read rfl hsp1
  rw [if_neg (hlive _ tk n List.mem_cons_self (List.mem_cons_of_mem _ List.mem_cons_self))] at hrun
  unfold ResourceProtector.validateInfo at hrun
  replace hrun := runs_bind_ask.1 hrun
  obtain ⟨y, t3, rfl, hrun⟩ := hrun
  obtain ⟨hy, _⟩ := run_read rfl hsp2
  have hy' : y = (some inf, none) := Eq.trans hy.1 (by rw [k2]; rfl)
  subst hy'
  obtain ⟨_, rfl⟩ := hrun
  refine ⟨_, rfl, ?_, ?_, fun hk => ?_⟩
  · rw [setHeader_values_other _ _ (by decide +kernel), setHeader_values_other _ _ (by decide +kernel),
      setHeader_values_self, k3]
  · rw [setHeader_values_other _ _ (by decide +kernel), setHeader_values_self, k4]
  · rw [setHeader_values_self, k5 hk]

/-- A password request alone against the reference store. -/
def passwordThreads : Nat → Prog Unit := fun _ => handler Sample.tokenCfg Sample.lib (Sample.post Sample.passwordBody)

/-- The calls and the final state of that execution. -/
def passwordRun : List (Nat × Event) × StoreState :=
  schedule (StoreState.det 1000) (List.replicate 10 0) passwordThreads emptyStore

/-- The hypotheses of `C60_token_accepted` are met: a password request is answered 200 by the reference
store, and the protector then runs on that store with an unexpired token. -/
example : ∃ pre resp s1, StoreRun (StoreState.init emptyStore.users emptyStore.clients) [] emptyStore ∧
    Steps (handler Sample.tokenCfg Sample.lib (Sample.post Sample.passwordBody)) (pre ++ [wrote resp]) ∧
    resp.status = 200 ∧ StoreRun emptyStore (pre ++ [wrote resp]) s1 ∧ s1.infoIdPod < 2 ^ 63 ∧
    ∃ tp o pr, BearerToken sampleProtector.acceptance pr b!"ACCESS_TOKEN_0" ∧
      Runs (ResourceProtector.validate sampleProtector Sample.lib pr) tp o ∧ StoreRun s1 tp s1 ∧
      ∀ k atk n, ⟨.findOAuthTokenByAccessToken k, (some atk, none)⟩ ∈ tp → ⟨.now, n⟩ ∈ tp →
          ¬ (atk.refreshedAt + atk.accessTokenExpiresIn < n) := by
  have hst : Steps (handler Sample.tokenCfg Sample.lib (Sample.post Sample.passwordBody)) (callsOf 0 passwordRun.1) :=
    schedule_interleaves (StoreState.det 1000) (List.replicate 10 0) passwordThreads emptyStore 0
  have hrun : StoreRun emptyStore (passwordRun.1.map (·.2)) passwordRun.2 :=
    schedule_chain (fun _ _ _ _ h => StoreState.det_step h) _ _ _
  have hall : passwordRun.1.all (fun x => x.1 == 0) = true := by decide +kernel
  have hc : callsOf 0 passwordRun.1 = passwordRun.1.map (·.2) := by
    unfold callsOf
    rw [List.filter_eq_self.2]
    intro x hx
    simpa using List.all_eq_true.1 hall x hx
  rw [hc] at hst
  have hlw : (lastWrite (passwordRun.1.map (·.2))).map (·.status) = some 200 := by decide +kernel
  cases hl : lastWrite (passwordRun.1.map (·.2)) with
  | none => rw [hl] at hlw; cases hlw
  | some resp =>
    obtain ⟨pre, he⟩ := lastWrite_eq hl
    rw [hl] at hlw
    rw [he] at hst hrun
    refine ⟨pre, resp, passwordRun.2, .nil _, hst, by simpa using hlw, hrun, by decide +kernel, ?_⟩
    let inf : AuthInfo := StoreState.newInfo 0 5 b!"client" b!"openid"
    let tk : OAuthToken := StoreState.newToken inf 1000 1000
    let pr : Req := { sampleBearer with headers := [(b!"Authorization", b!"Bearer ACCESS_TOKEN_0")] }
    have hb : BearerToken sampleProtector.acceptance pr b!"ACCESS_TOKEN_0" :=
      ⟨b!"Bearer", b!"ACCESS_TOKEN_0", [], by decide +kernel, by decide +kernel, by decide +kernel, .inl rfl⟩
    have h1 : passwordRun.2.token b!"ACCESS_TOKEN_0" = some tk := by decide +kernel
    have h2 : passwordRun.2.info tk.authId = some inf := by decide +kernel
    refine ⟨_, _, pr, hb, validate_admits (atk := tk) (now := 2000) (info := inf) hb (by decide +kernel), ?_, ?_⟩
    · refine .cons ⟨by rw [h1]; rfl, rfl⟩ (.cons rfl (.cons ⟨by rw [h2]; rfl, rfl⟩ (.nil _)))
    · intro k atk n h3 h4
      simp only [List.mem_cons, List.not_mem_nil, or_false] at h3 h4
      rcases h3 with h3 | h3 | h3 <;> cases h3
      rcases h4 with h4 | h4 | h4 <;> cases h4
      decide +kernel

end Goidc.Props
