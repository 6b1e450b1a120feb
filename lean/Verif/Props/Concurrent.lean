import Verif.Lemmas.TestStore
import Verif.Props.CodeGrant
import Verif.Props.Grants

/-! # C12, C21: properties of concurrently served token requests -/

namespace Goidc.Props

open Spec TokenEndpoint

variable {ths : Nat → Thread} {g : List (Nat × Event)}

/-- A token request writes at most one response. -/
theorem handler_writes_once {cfg : TokenCfg} {lib : Lib} {r : Req} (hs : ∀ h, Registered cfg r h → Silent h)
    {a b c : List Event} {resp resp' : HttpResp} :
    ¬ Steps (handler cfg lib r) (a ++ wrote resp :: b ++ wrote resp' :: c) := by
  intro h
  have h' : Steps (handler cfg lib r) ((a ++ wrote resp :: b) ++ [wrote resp']) :=
    steps_of_append (t' := c) (by simpa using h)
  obtain ⟨_, _, _, hn⟩ := (writes_handler hs).complete h'
  exact absurd (hn (wrote resp) (by simp)) (by simp [Query.isWrite])

/-- C12: against a store whose `DisableSession` reports success at most once per code, no execution of
any number of concurrent requests (some of which are code exchanges, the others anything) contains two
200 answers to code exchanges presenting the same code. -/
theorem C12_at_most_once (hg : Interleaves ths g) (honce : DisablesOnce g) (hcode : SessionsMatchCode g)
    {cfg cfg' : TokenCfg} {lib lib' : Lib} {r r' : Req} {i j : Nat} {resp resp' : HttpResp}
    {a b c : List (Nat × Event)}
    (hi : ths i = ⟨handler cfg lib r⟩) (hj : ths j = ⟨handler cfg' lib' r'⟩)
    (hri : Registered cfg r (Grant.authorizationCode lib))
    (hrj : Registered cfg' r' (Grant.authorizationCode lib'))
    (heq : g = a ++ (i, wrote resp) :: b ++ (j, wrote resp') :: c)
    (h200 : resp.status = 200) (h200' : resp'.status = 200) :
    r.formValue b!"code" ≠ r'.formValue b!"code" := by
  intro hsame
  have hgi := hg i
  have hgj := hg j
  rw [hi] at hgi
  rw [hj] at hgj
  by_cases hij : i = j
  · subst hij
    refine handler_writes_once (lib := lib) (a := callsOf i a) (b := callsOf i b) (c := callsOf i c) (resp := resp)
      (resp' := resp') (registered_silent hri .authorizationCode) ?_
    rw [heq, callsOf_append, callsOf_append, callsOf_cons_self, callsOf_cons_self] at hgi
    exact hgi
  · obtain ⟨_, _, _, _, s, e⟩ := C13_burned_before_response hri hgi
      (mem_callsOf.2 (by rw [heq]; simp)) h200
    obtain ⟨_, _, _, _, s', e'⟩ := C13_burned_before_response hrj hgj
      (mem_callsOf.2 (by rw [heq]; simp)) h200'
    have hs : s.code = r.formValue b!"code" := hcode i _ s (mem_callsOf.1 (by rw [e]; simp))
    have hs' : s'.code = r'.formValue b!"code" := hcode j _ s' (mem_callsOf.1 (by rw [e']; simp))
    have hd : (i, (⟨.disableSession s, none⟩ : Event)) ∈ g := mem_callsOf.1 (by rw [e]; simp)
    have hd' : (j, (⟨.disableSession s', none⟩ : Event)) ∈ g := mem_callsOf.1 (by rw [e']; simp)
    rcases two_mem hd hd' (fun h => hij (congrArg Prod.fst h)) with ⟨x, y, z, h⟩ | ⟨x, y, z, h⟩
    · exact honce _ _ _ _ _ _ _ h (by rw [hs, hs', hsame])
    · exact honce _ _ _ _ _ _ _ h (by rw [hs, hs', hsame])

/-- C12: which stores meet the contract.  Any store that keeps track of spent codes, reports success of
`DisableSession` only for a code not yet spent, and never forgets a spent code. -/
theorem C12_spending_store {σ : Type} {st : σ → Event → σ → Prop} {spent : σ → GoStr → Prop}
    (hmono : ∀ s e s' k, st s e s' → spent s k → spent s' k)
    (hdis : ∀ s x s', st s ⟨.disableSession x, none⟩ s' → ¬ spent s x.code ∧ spent s' x.code)
    {s s' : σ} (hrun : Chain st s (g.map (·.2)) s') : DisablesOnce g := by
  rintro a b c i j x y rfl hxy
  have keep : ∀ {u t u' k}, Chain st u t u' → spent u k → spent u' k := by
    intro u t u' k h
    induction h with
    | nil => exact id
    | cons h1 _ ih => exact fun h => ih (hmono _ _ _ _ h1 h)
  simp only [List.map_append, List.map_cons, List.append_assoc, List.cons_append] at hrun
  obtain ⟨m, _, h1⟩ := chain_append.1 hrun
  cases h1 with
  | cons h1 h2 =>
    obtain ⟨m2, h3, h4⟩ := chain_append.1 h2
    cases h4 with
    | cons h4 _ => exact (hdis _ _ _ h4).1 (hxy ▸ keep h3 (hdis _ _ _ h1).2)

/-! ### The contract can be met, and is needed -/

/-- The application creates an authorization and a session for the code `code`. -/
def sampleLogin : Prog Unit := do
  match ← ask (.createOrUpdateAuthInfo 5 b!"client" b!"openid") with
  | (info, _) => do
    let _ ← ask (.createAuthSession info ⟨b!"https://app/cb", b!"code", 300, b!"verifier", b!"n", 900⟩)
    pure ()

/-- One login and two concurrent exchanges of the same code. -/
def sampleThreads : Nat → Prog Unit
  | 0 => sampleLogin
  | 1 => handler Sample.tokenCfg Sample.lib (Sample.post Sample.codeBody)
  | 2 => handler Sample.tokenCfg Sample.lib (Sample.post Sample.codeBody)
  | _ => .ret ()

/-- A store without authorizations. -/
def emptyStore : StoreState := { Sample.store with infos := [], sessions := [], infoIdPod := 0 }

/-- A store that keeps, next to the reference store's state, the list of spent codes. -/
def spendingDet (s : StoreState × List GoStr) (q : Query) : Option (q.Resp × (StoreState × List GoStr)) :=
  match q with
  | .disableSession x =>
    if x.code ∈ s.2 then some (some .failed, s) else some (none, (s.1.deleteSession x.code, x.code :: s.2))
  | q => match s.1.det 1000 q with
    | some (r, s') => some (r, (s', s.2))
    | none => none

/-- Whether request `i` was answered with status `n`. -/
def answered (g : List (Nat × Event)) (i n : Nat) : Bool :=
  g.any fun x => x.1 == i && match x.2.q with | .write resp => resp.status == n | _ => false

theorem answered_mem {g : List (Nat × Event)} {i n : Nat} (h : answered g i n = true) :
    ∃ resp, (i, wrote resp) ∈ g ∧ resp.status = n := by
  obtain ⟨⟨j, q, x⟩, hm, h'⟩ := List.any_eq_true.1 h
  cases q <;> simp at h'
  obtain ⟨rfl, h'⟩ := h'
  exact ⟨_, hm, h'⟩

/-- Whether every session found for a code carries that code. -/
def sessionsMatch (g : List (Nat × Event)) : Bool :=
  g.all fun x => match x.2 with
    | ⟨.findAuthSessionByCode k, (some s, none)⟩ => s.code = k
    | _ => true

theorem sessionsMatch_iff {g : List (Nat × Event)} (h : sessionsMatch g = true) : SessionsMatchCode g := by
  intro i k s hm
  simpa using List.all_eq_true.1 h _ hm

/-- Both exchanges look up the session before either disables it. -/
def raceSchedule : List Nat := [0, 0, 1, 1, 1, 1, 2, 2, 2, 2] ++ List.replicate 6 1 ++ List.replicate 6 2

example : ∃ g, Interleaves (fun i => ⟨sampleThreads i⟩) g ∧ DisablesOnce g ∧ SessionsMatchCode g ∧
    (∃ resp, (1, wrote resp) ∈ g ∧ resp.status = 200) ∧ ∃ resp, (2, wrote resp) ∈ g ∧ resp.status = 400 := by
  refine ⟨(schedule spendingDet raceSchedule sampleThreads (emptyStore, [])).1,
    schedule_interleaves _ _ _ _, ?_,
    sessionsMatch_iff (by decide +kernel), answered_mem (by decide +kernel), answered_mem (by decide +kernel)⟩
  let st : StoreState × List GoStr → Event → StoreState × List GoStr → Prop :=
    fun s e s' => spendingDet s e.q = some (e.r, s')
  refine C12_spending_store (st := st) (spent := fun s k => k ∈ s.2) ?_ ?_
    (schedule_chain (st := st) (fun _ _ _ _ h => h) _ _ _)
  · rintro s ⟨q, r⟩ s' k h hk
    simp only [st] at h
    unfold spendingDet at h
    split at h
    · split at h <;> cases h
      · exact hk
      · exact List.mem_cons_of_mem _ hk
    · split at h <;> cases h
      exact hk
  · intro s x s' h
    simp only [st, spendingDet] at h
    split at h
    · cases h
    · rename_i hn
      cases h
      exact ⟨hn, List.mem_cons_self⟩

/-- C12: the contract is needed.  The reference store deletes the session and reports success however
often `DisableSession` is called; with its methods atomic and interleaved, starting without any session,
one code is exchanged for two tokens. -/
theorem C12_reference_store_races : ¬ ∀ (ths : Nat → Thread) (g : List (Nat × Event)) (s s' : StoreState)
    (cfg : TokenCfg) (lib : Lib) (r r' : Req) (i j : Nat) (resp resp' : HttpResp) (a b c : List (Nat × Event)),
    Interleaves ths g → SessionsMatchCode g → s.sessions = [] → StoreRun s (g.map (·.2)) s' →
    ths i = ⟨handler cfg lib r⟩ → ths j = ⟨handler cfg lib r'⟩ →
    Registered cfg r (Grant.authorizationCode lib) → Registered cfg r' (Grant.authorizationCode lib) →
    g = a ++ (i, wrote resp) :: b ++ (j, wrote resp') :: c → resp.status = 200 → resp'.status = 200 →
    r.formValue b!"code" ≠ r'.formValue b!"code" := by
  intro hall
  let g := (schedule (StoreState.det 1000) raceSchedule sampleThreads emptyStore).1
  have hi := schedule_interleaves (StoreState.det 1000) raceSchedule sampleThreads emptyStore
  have hm : sessionsMatch g = true := by decide +kernel
  have hr : StoreRun emptyStore (g.map (·.2)) _ :=
    schedule_chain (fun _ _ _ _ h => StoreState.det_step h) _ _ _
  obtain ⟨r1, h1, s1⟩ := answered_mem (show answered g 1 200 = true by decide +kernel)
  obtain ⟨r2, h2, s2⟩ := answered_mem (show answered g 2 200 = true by decide +kernel)
  rcases two_mem h1 h2 (fun h => by cases h) with ⟨a, b, c, h⟩ | ⟨a, b, c, h⟩
  · exact hall _ g _ _ Sample.tokenCfg Sample.lib (Sample.post Sample.codeBody) (Sample.post Sample.codeBody) 1 2
      _ _ _ _ _ hi (sessionsMatch_iff hm) rfl hr rfl rfl sample_code_registered sample_code_registered h s1 s2 rfl
  · exact hall _ g _ _ Sample.tokenCfg Sample.lib (Sample.post Sample.codeBody) (Sample.post Sample.codeBody) 2 1
      _ _ _ _ _ hi (sessionsMatch_iff hm) rfl hr rfl rfl sample_code_registered sample_code_registered h s2 s1 rfl

/-! ## C21 -/

/-- The token request `r`, having made the calls `t`, rests on an assertion of client `cid` with the
given `jti` (a missing `jti` counts as the empty string): its client authenticates by it, presenting no
secret; or it is the assertion of a JWT-bearer grant of a client found in `t`. -/
inductive RestsOn (cfg : TokenCfg) (lib : Lib) (r : Req) (t : List Event) (cid jti : GoStr) : Prop
  | client (ca tk sub c) : (∀ cid sec b, ¬ Presented cfg.acceptance r cid sec b) →
      PresentedAssertion r ca → lib.jwtDecode ca = some tk → tk.claimStr b!"sub" = some sub →
      ⟨.findClientById sub, (some c, none)⟩ ∈ t → c.id = cid → (tk.claimStr b!"jti").getD [] = jti →
      RestsOn cfg lib r t cid jti
  | grant (tk k c) : Registered cfg r (Grant.jwt lib) → lib.jwtDecode (r.formValue b!"assertion") = some tk →
      ⟨.findClientById k, (some c, none)⟩ ∈ t → c.id = cid → (tk.claimStr b!"jti").getD [] = jti →
      RestsOn cfg lib r t cid jti

theorem builtIn_noFind {lib : Lib} {h : GrantFunc} (hb : BuiltIn lib h) (r c now) :
    AllQ (fun q => ∀ k, q ≠ .findClientById k) (h r c now).run := by
  cases hb
  · apply Grant.allQ_authorizationCode <;> intros <;> simp
  · apply Grant.allQ_refreshToken <;> intros <;> simp
  · apply Grant.allQ_password <;> intros <;> simp
  · apply Grant.allQ_clientCredentials <;> intros <;> simp
  · apply Grant.allQ_jwt <;> intros <;> simp

/-- A 200 answer resting on an assertion was preceded by a successful `RecordAssertionClaims` for it. -/
theorem C21_recorded {cfg : TokenCfg} {lib : Lib} {r : Req} {pre : List Event} {resp : HttpResp}
    {cid jti : GoStr} (hb : AllBuiltIn lib cfg)
    (h : Steps (handler cfg lib r) (pre ++ [wrote resp])) (h200 : resp.status = 200)
    (hr : RestsOn cfg lib r pre cid jti) :
    ∃ iat exp, ⟨.recordAssertionClaims cid jti iat exp, none⟩ ∈ pre := by
  obtain ⟨_, _, hf, cl, t1, now, t2, res, hreg, ha, hok, rfl, rfl⟩ :=
    token_200 (fun h hr => builtIn_silent (hb _ h hr)) h h200
  have hfind : ∀ k c, ⟨.findClientById k, (some c, none)⟩ ∈ t1 ++ ⟨.now, now⟩ :: t2 ++
      [logged ⟨.debug, b!"token_endpoint", r.formValue b!"grant_type", .accessTokenGranted, [pClient cl]⟩] →
      c = cl := by
    intro k c hm
    have hno2 : ∀ e ∈ t2, ∀ k, e.q ≠ .findClientById k := by
      intro e he k hk
      exact allQ_runs (builtIn_noFind (hb _ hf hreg) r cl now) hok e he k hk
    simp only [List.mem_append, List.mem_cons, List.not_mem_nil, or_false] at hm
    rcases hm with (hm | hm | hm) | hm
    · cases ha with
      | secret cid sec b hp ht _ _ =>
        rw [ht] at hm
        simp only [List.mem_singleton] at hm
        cases hm; rfl
      | assertion ca _ _ _ hrun =>
        obtain ⟨tk, sub, wall, exp, aud, _, _, _, _, _, _, _, _, ht⟩ := runs_byAssertion hrun
        rw [ht] at hm
        simp only [List.mem_cons, List.not_mem_nil, or_false] at hm
        rcases hm with hm | hm | hm | hm <;> cases hm
        rfl
    · cases hm
    · exact absurd rfl (hno2 _ hm k)
    · cases hm
  cases hr with
  | client ca tk sub c hn hpa hd hsub hm hcid hjti =>
    have := hfind _ _ hm
    subst this hcid hjti
    cases ha with
    | secret cid sec b hp _ _ _ => exact absurd hp (hn _ _ _)
    | assertion ca' _ _ hpa' hrun =>
      obtain ⟨tk', sub, wall, exp, aud, hv, _, _, _, _, _, _, _, ht⟩ := runs_byAssertion hrun
      have : ca = ca' := hpa.1.symm.trans hpa'.1
      subst this
      have : tk = tk' := Option.some.inj (hd.symm.trans hv.1)
      subst this
      exact ⟨(Assertion.numClaim (tk.claim b!"iat")).getD (-1), exp, by rw [ht]; simp⟩
  | grant tk k c hreg' hd hm hcid hjti =>
    have := hfind _ _ hm
    subst this hcid hjti
    have : Grant.jwt lib = hf := Option.some.inj (hreg'.symm.trans hreg)
    subst this
    obtain ⟨tk', k, wall, exp, aud, sub, uid, info, otk, _, hd', _, _, _, _, _, _, _, _, _, _, ht, _⟩ := jwt_ok hok
    have : tk = tk' := Option.some.inj (hd.symm.trans hd')
    subst this
    exact ⟨(Assertion.numClaim (tk.claim b!"iat")).getD (-1), exp, by rw [ht]; simp⟩

/-- C21: against a store whose `RecordAssertionClaims` reports success at most once per client and `jti`,
no execution of any number of concurrent requests contains two 200 answers resting on assertions with
the same client and `jti`. -/
theorem C21_no_replay (hg : Interleaves ths g) (honce : RecordsOnce g)
    {cfg cfg' : TokenCfg} {lib lib' : Lib} {r r' : Req} {i j : Nat} {resp resp' : HttpResp}
    {a b c : List (Nat × Event)} {cid jti : GoStr}
    (hi : ths i = ⟨handler cfg lib r⟩) (hj : ths j = ⟨handler cfg' lib' r'⟩)
    (hbi : AllBuiltIn lib cfg) (hbj : AllBuiltIn lib' cfg')
    (heq : g = a ++ (i, wrote resp) :: b ++ (j, wrote resp') :: c)
    (h200 : resp.status = 200) (h200' : resp'.status = 200)
    (hri : RestsOn cfg lib r (callsOf i g) cid jti) : ¬ RestsOn cfg' lib' r' (callsOf j g) cid jti := by
  intro hrj
  have hgi := hg i
  have hgj := hg j
  rw [hi] at hgi
  rw [hj] at hgj
  have key : ∀ {cfg : TokenCfg} {lib : Lib} {r : Req} {i : Nat} {resp}, AllBuiltIn lib cfg →
      Steps (handler cfg lib r) (callsOf i g) → wrote resp ∈ callsOf i g → resp.status = 200 →
      RestsOn cfg lib r (callsOf i g) cid jti →
      ∃ n m, (i, ⟨.recordAssertionClaims cid jti n m, none⟩) ∈ g := by
    intro cfg lib r i resp hb hs hw h2 hr
    obtain ⟨pre, post, he⟩ := List.append_of_mem hw
    have hsl := fun h hr => builtIn_silent (hb (r.formValue b!"grant_type") h hr)
    have hs' : Steps (handler cfg lib r) (pre ++ [wrote resp]) :=
      steps_of_append (t' := post) (by rw [he] at hs; simpa using hs)
    have hp : post = [] := by
      rw [he] at hs
      exact (writes_handler hsl).last (by simpa using hs)
    subst hp
    have hr' : RestsOn cfg lib r pre cid jti := by
      rw [he] at hr
      cases hr with
      | client ca tk sub c h1 h2 h3 h4 h5 h6 h7 =>
        exact .client ca tk sub c h1 h2 h3 h4 (by simpa [wrote] using h5) h6 h7
      | grant tk k c h1 h2 h3 h4 h5 => exact .grant tk k c h1 h2 (by simpa [wrote] using h3) h4 h5
    obtain ⟨n, m, hm⟩ := C21_recorded hb hs' h2 hr'
    exact ⟨n, m, mem_callsOf.1 (by rw [he]; simp [hm])⟩
  by_cases hij : i = j
  · subst hij
    refine handler_writes_once (lib := lib) (r := r) (a := callsOf i a) (b := callsOf i b) (c := callsOf i c)
      (resp := resp) (resp' := resp') (fun h hr => builtIn_silent (hbi _ h hr)) ?_
    rw [heq, callsOf_append, callsOf_append, callsOf_cons_self, callsOf_cons_self] at hgi
    exact hgi
  · obtain ⟨n, m, hm⟩ := key hbi hgi (mem_callsOf.2 (by rw [heq]; simp)) h200 hri
    obtain ⟨n', m', hm'⟩ := key hbj hgj (mem_callsOf.2 (by rw [heq]; simp)) h200' hrj
    rcases two_mem hm hm' (fun h => hij (congrArg Prod.fst h)) with ⟨x, y, z, h⟩ | ⟨x, y, z, h⟩
    · exact honce _ _ _ _ _ _ _ _ _ _ _ _ _ h ⟨rfl, rfl⟩
    · exact honce _ _ _ _ _ _ _ _ _ _ _ _ _ h ⟨rfl, rfl⟩

/-- C21: which stores meet the contract.  Any store that keeps track of the recorded assertions, reports
success of `RecordAssertionClaims` only for one not yet recorded, and never forgets one. -/
theorem C21_recording_store {σ : Type} {st : σ → Event → σ → Prop} {seen : σ → GoStr → GoStr → Prop}
    (hmono : ∀ s e s' cid jti, st s e s' → seen s cid jti → seen s' cid jti)
    (hrec : ∀ s cid jti n m s', st s ⟨.recordAssertionClaims cid jti n m, none⟩ s' →
      ¬ seen s cid jti ∧ seen s' cid jti)
    {s s' : σ} (hrun : Chain st s (g.map (·.2)) s') : RecordsOnce g := by
  rintro a b c i j cid cid' jti jti' n m n' m' rfl ⟨rfl, rfl⟩
  have keep : ∀ {u t u' k l}, Chain st u t u' → seen u k l → seen u' k l := by
    intro u t u' k l h
    induction h with
    | nil => exact id
    | cons h1 _ ih => exact fun h => ih (hmono _ _ _ _ _ h1 h)
  simp only [List.map_append, List.map_cons, List.append_assoc, List.cons_append] at hrun
  obtain ⟨m, _, h1⟩ := chain_append.1 hrun
  cases h1 with
  | cons h1 h2 =>
    obtain ⟨m2, h3, h4⟩ := chain_append.1 h2
    cases h4 with
    | cons h4 _ => exact (hrec _ _ _ _ _ _ h4).1 (keep h3 (hrec _ _ _ _ _ _ h1).2)

/-- A store that keeps the recorded assertions; its users and issuer are those of the sample world. -/
def recordingDet (s : StoreState × List (GoStr × GoStr)) (q : Query) :
    Option (q.Resp × (StoreState × List (GoStr × GoStr))) :=
  match q with
  | .recordAssertionClaims cid jti _ _ =>
    if (cid, jti) ∈ s.2 then some (some .failed, s) else some (none, (s.1, (cid, jti) :: s.2))
  | .issuer => some (b!"https://issuer", s)
  | .findUserIdBySubject _ => some ((5, none), s)
  | q => match s.1.det 1000 q with
    | some (r, s') => some (r, (s', s.2))
    | none => none

/-- A JWT-bearer grant and a client authenticating with the same assertion. -/
def replayThreads : Nat → Prog Unit
  | 1 => handler Sample.tokenCfg Sample.lib (Sample.post Sample.jwtBody)
  | 2 => handler Sample.tokenCfg Sample.lib (Sample.postAssertion b!"tok" Sample.ccBody)
  | _ => .ret ()

/-- Both requests proceed in turns. -/
def replaySchedule : List Nat := [1, 2, 1, 2, 1, 2, 1, 2, 1, 2, 1, 2, 1, 2, 1, 2, 1, 2, 1, 2, 1, 1, 1]

/-- Whether request `i` found a client under the id `client`. -/
def foundClient (g : List (Nat × Event)) (i : Nat) : Bool :=
  g.any fun x => x.1 == i && match x.2 with
    | ⟨.findClientById k, (some c, none)⟩ => k == b!"client" && c.id == b!"client"
    | _ => false

theorem foundClient_mem {g : List (Nat × Event)} {i : Nat} (h : foundClient g i = true) :
    ∃ c, (i, ⟨.findClientById b!"client", (some c, none)⟩) ∈ g ∧ c.id = b!"client" := by
  obtain ⟨⟨j, q, x⟩, hm, h'⟩ := List.any_eq_true.1 h
  cases q <;> simp at h'
  obtain ⟨rfl, h'⟩ := h'
  revert hm h'
  rcases x with ⟨_ | c, _ | e⟩ <;> simp
  rintro hm rfl hc
  exact ⟨c, hm, hc⟩

example : ∃ g, Interleaves (fun i => ⟨replayThreads i⟩) g ∧ RecordsOnce g ∧
    RestsOn Sample.tokenCfg Sample.lib (Sample.post Sample.jwtBody) (callsOf 1 g) b!"client" b!"j1" ∧
    RestsOn Sample.tokenCfg Sample.lib (Sample.postAssertion b!"tok" Sample.ccBody) (callsOf 2 g)
      b!"client" b!"j1" ∧
    (∃ resp, (1, wrote resp) ∈ g ∧ resp.status = 400) ∧ ∃ resp, (2, wrote resp) ∈ g ∧ resp.status = 200 := by
  refine ⟨(schedule recordingDet replaySchedule replayThreads (emptyStore, [])).1,
    schedule_interleaves _ _ _ _, ?_, ?_, ?_, answered_mem (by decide +kernel), answered_mem (by decide +kernel)⟩
  · let st : StoreState × List (GoStr × GoStr) → Event → StoreState × List (GoStr × GoStr) → Prop :=
      fun s e s' => recordingDet s e.q = some (e.r, s')
    refine C21_recording_store (st := st) (seen := fun s cid jti => (cid, jti) ∈ s.2) ?_ ?_
      (schedule_chain (st := st) (fun _ _ _ _ h => h) _ _ _)
    · rintro s ⟨q, r⟩ s' cid jti h hk
      simp only [st] at h
      unfold recordingDet at h
      split at h
      · split at h <;> cases h
        · exact hk
        · exact List.mem_cons_of_mem _ hk
      · cases h; exact hk
      · cases h; exact hk
      · split at h <;> cases h
        exact hk
    · intro s cid jti n m s' h
      simp only [st, recordingDet] at h
      split at h
      · cases h
      · rename_i hn
        cases h
        exact ⟨hn, List.mem_cons_self⟩
  · obtain ⟨c, hm, hc⟩ := foundClient_mem (i := 1)
      (g := (schedule recordingDet replaySchedule replayThreads (emptyStore, [])).1) (by decide +kernel)
    exact .grant Sample.jwt _ c rfl rfl (mem_callsOf.2 hm) hc rfl
  · obtain ⟨c, hm, hc⟩ := foundClient_mem (i := 2)
      (g := (schedule recordingDet replaySchedule replayThreads (emptyStore, [])).1) (by decide +kernel)
    refine .client b!"tok" Sample.jwt b!"client" c (findClientCredential_none.1 (by decide +kernel)) ?_ rfl rfl
      (mem_callsOf.2 hm) hc rfl
    exact ⟨by decide +kernel, by decide +kernel, by decide +kernel⟩

end Goidc.Props
