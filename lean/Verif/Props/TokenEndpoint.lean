import Verif.Lemmas.TokenFail
import Verif.Sample.World

/-!
# Properties of the token endpoint: C01–C08, C23, C24

`Steps p t` says that `t` is what happened up to some moment of a run of `p` (the process may have
crashed there), `Runs p t o` that the run is complete.  `wrote resp` is the event of sending `resp`.
-/

namespace Goidc.Props
open TokenEndpoint Spec

variable {cfg : TokenCfg} {lib : Lib} {r : Req} {t pre post : List Event} {resp : HttpResp}

/-! ## C01 -/

/-- Non-POST requests: no data call at any point, and nothing but a 405 is sent. -/
theorem C01_non_post_inert (hm : r.method ≠ b!"POST") (h : Steps (handler cfg lib r) t) :
    (∀ e ∈ t, e.q.isData = false) ∧ ∀ resp, wrote resp ∈ t → resp.status = 405 := by
  have ha : AllQ (fun q => q.isData = false ∧ ∀ x, q = .write x → x.status = 405) (handler cfg lib r) := by
    unfold handler
    rw [if_pos hm]
    refine allQ_bind (allQ_ask ⟨rfl, by simp⟩) fun _ => allQ_ask ⟨rfl, ?_⟩
    intro x hx
    cases hx
    rfl
  exact ⟨fun e he => (allQ_steps ha h e he).1, fun x hx => (allQ_steps ha h _ hx).2 x rfl⟩

/-- Non-POST requests: the request is answered. -/
theorem C01_non_post_answered (hm : r.method ≠ b!"POST") {o} (h : Runs (handler cfg lib r) t o) :
    o = .ok () ∧ ∃ pre resp, t = pre ++ [wrote resp] ∧ resp.status = 405 ∧ resp.body = [] := by
  unfold handler at h
  rw [if_pos hm] at h
  obtain ⟨t', rfl, h'⟩ := runs_tlog_bind.1 h
  obtain ⟨rfl, rfl⟩ := runs_respond.1 h'
  exact ⟨rfl, [_], _, rfl, rfl, rfl⟩

example : ∃ r : Req, r.method ≠ b!"POST" ∧ ({} : Sample.World).status (handler Sample.tokenCfg Sample.lib r) = some 405 :=
  ⟨{ Sample.post Sample.codeBody with method := b!"GET" }, by decide, by decide +kernel⟩

/-! ## C02 -/

/-- A 200 answer is only sent after a client authenticated (`t1`), and its body is what the registered
handler, run for that client after the authentication (`t2`), returned; nothing follows but a log
line. -/
theorem C02_authenticated (hs : ∀ h, Registered cfg r h → Silent h)
    (h : Steps (handler cfg lib r) (pre ++ [wrote resp])) (h200 : resp.status = 200) :
    ∃ c t1 now t2 t3, pre = t1 ++ ⟨.now, now⟩ :: t2 ++ t3 ∧ (∀ e ∈ t3, e.q.isLog = true) ∧
      (AuthenticatedBySecret cfg.acceptance r c t1 ∨
        (cfg.acceptClientAssertion = true ∧ AuthenticatedByAssertion lib r c t1)) ∧
      ∃ hf res, Registered cfg r hf ∧ XOk (hf r c now) t2 res ∧ resp.body = res.json := by
  obtain ⟨_, _, hf, c, t1, now, t2, res, hreg, ha, hok, rfl, rfl⟩ := token_200 hs h h200
  refine ⟨c, t1, now, t2, _, rfl, by simp [Query.isLog], ?_, hf, res, hreg, hok, rfl⟩
  cases ha with
  | secret cid sec b hp ht hm hg => exact .inl ⟨cid, sec, b, hp, by simp [ht], hm⟩
  | assertion ca hn hacc hpa hrun =>
    obtain ⟨tk, sub, wall, exp, aud, hv, hsub, _, _, _, _, _, _, rfl⟩ := runs_byAssertion hrun
    exact .inr ⟨hacc, ca, tk, sub, hpa, hv, hsub, by simp⟩

/-- The built-in handlers meet the hypothesis of `C02_authenticated`. -/
theorem allBuiltIn_silent (hb : AllBuiltIn lib cfg) : ∀ h, Registered cfg r h → Silent h :=
  fun h hr => builtIn_silent (hb _ h hr)

theorem sample_allBuiltIn : AllBuiltIn Sample.lib Sample.tokenCfg := by
  intro gt h hl
  unfold lookupHandler Sample.tokenCfg at hl
  split at hl
  · rename_i kv hf
    have := List.mem_of_find?_eq_some hf
    simp only [List.mem_cons, List.not_mem_nil, or_false] at this
    rcases this with rfl | rfl | rfl | rfl | rfl <;> cases hl <;> constructor
  · cases hl

example : ∃ pre resp, Steps (handler Sample.tokenCfg Sample.lib (Sample.post Sample.codeBody))
    (pre ++ [wrote resp]) ∧ resp.status = 200 := ({} : Sample.World).steps (by decide +kernel)
example : ∃ pre resp, Steps (handler Sample.tokenCfg Sample.lib (Sample.postAssertion b!"tok" Sample.ccBody))
    (pre ++ [wrote resp]) ∧ resp.status = 200 := ({} : Sample.World).steps (by decide +kernel)

/-! ## C03 -/

/-- The part of C03 that holds: a client that did not authenticate with a client assertion gets a
token only through a grant type it may use.  Missing: clients that authenticate with an assertion
(`C03_false`). -/
theorem C03_grant_type_allowed_partial (hs : ∀ h, Registered cfg r h → Silent h)
    (h : Steps (handler cfg lib r) (pre ++ [wrote resp])) (h200 : resp.status = 200)
    (hsec : cfg.acceptClientAssertion = false ∨ ∃ cid sec b, Presented cfg.acceptance r cid sec b) :
    ∃ c t1 now t2 t3, pre = t1 ++ ⟨.now, now⟩ :: t2 ++ t3 ∧
      AuthenticatedBySecret cfg.acceptance r c t1 ∧
      c.canUseGrantType (r.formValue b!"grant_type") = true ∧
      ∃ hf res, Registered cfg r hf ∧ XOk (hf r c now) t2 res ∧ resp.body = res.json := by
  obtain ⟨_, _, hf, c, t1, now, t2, res, hreg, ha, hok, rfl, rfl⟩ := token_200 hs h h200
  cases ha with
  | secret cid sec b hp ht hm hg =>
    exact ⟨c, t1, now, t2, _, rfl, ⟨cid, sec, b, hp, by simp [ht], hm⟩, hg, hf, res, hreg, hok, rfl⟩
  | assertion ca hn hacc hpa hrun =>
    rcases hsec with h | ⟨cid, sec, b, hp⟩
    · rw [hacc] at h; cases h
    · exact absurd hp (hn _ _ _)

/-- Whether every client returned in the trace is forbidden the grant type. -/
def noClientMayUse (gt : GoStr) (t : List Event) : Bool :=
  t.all fun e => match e with
    | ⟨.findClientById _, (some c, none)⟩ => !c.canUseGrantType gt
    | _ => true

/-- C03 does not hold in general: a client that authenticates with an assertion is not checked for the
grant type. -/
theorem C03_false : ¬ ∀ (cfg : TokenCfg) (lib : Lib) (r : Req) (pre : List Event) (resp : HttpResp),
    AllBuiltIn lib cfg → Steps (handler cfg lib r) (pre ++ [wrote resp]) → resp.status = 200 →
    ∃ c cid, ⟨.findClientById cid, (some c, none)⟩ ∈ pre ∧
      c.canUseGrantType (r.formValue b!"grant_type") = true := by
  intro hall
  let w : Sample.World := { client := (some { Sample.client with canUseGrantType := fun _ => false }, none) }
  let r := Sample.postAssertion b!"tok" Sample.ccBody
  have hst : (lastWrite (w.run (handler Sample.tokenCfg Sample.lib r)).1).map (·.status) = some 200 := by
    decide +kernel
  have hno : noClientMayUse b!"client_credentials" (w.run (handler Sample.tokenCfg Sample.lib r)).1 = true := by
    decide +kernel
  cases hl : lastWrite (w.run (handler Sample.tokenCfg Sample.lib r)).1 with
  | none => rw [hl] at hst; cases hst
  | some resp =>
    rw [hl] at hst
    obtain ⟨pre, he⟩ := lastWrite_eq hl
    have hr := runs_steps (w.runs (handler Sample.tokenCfg Sample.lib r))
    rw [he] at hr hno
    obtain ⟨c, cid, hmem, hc⟩ := hall _ _ _ _ _ sample_allBuiltIn hr (by simpa using hst)
    have := List.all_eq_true.1 hno _ (List.mem_append_left _ hmem)
    have hg : r.formValue b!"grant_type" = b!"client_credentials" := by decide +kernel
    rw [hg] at hc
    simp [hc] at this

/-! ## C04 -/

/-- With `FromHeader` credentials come from the Authorization header. -/
theorem C04_from_header {cid sec b} (h : Presented .fromHeader r cid sec b) :
    r.basicAuth = some (cid, sec) := by
  cases h with
  | header h => exact h
  | body h => cases h
  | any h => cases h

/-- With `FromHeaderAndPostBody` the URL query plays no part. -/
theorem C04_not_from_query {cid sec b} (q : Params) :
    Presented .fromHeaderAndPostBody r cid sec b ↔
      Presented .fromHeaderAndPostBody { r with query := q } cid sec b := by
  constructor <;> intro h <;> cases h with
  | header h => exact .header _ _ h
  | body h1 h2 h3 h4 h5 h6 => exact .body _ _ h1 h2 h3 h4 h5 h6
  | any h => cases h

/-- A Basic Authorization header takes precedence over everything else. -/
theorem C04_header_wins {m cid sec cid' sec' b} (h : r.basicAuth = some (cid, sec))
    (hp : Presented m r cid' sec' b) : cid' = cid ∧ sec' = sec ∧ b = true := by
  cases hp with
  | header h' => rw [h] at h'; cases h'; exact ⟨rfl, rfl, rfl⟩
  | body _ h' => rw [h] at h'; cases h'
  | any _ h' => rw [h] at h'; cases h'

/-- Body and query credentials need a non-empty id and a non-empty secret. -/
theorem C04_nonempty {m cid sec} (h : Presented m r cid sec false) : cid ≠ [] ∧ sec ≠ [] := by
  cases h with
  | body _ _ _ _ h1 h2 => exact ⟨h1, h2⟩
  | any _ _ _ _ h1 h2 => exact ⟨h1, h2⟩

/-- The endpoint uses exactly the presented credentials: the first data call of the request asks for
the presented client id. -/
theorem C04_policy_used {cid sec b e} (hp : Presented cfg.acceptance r cid sec b)
    (h : Steps (handler cfg lib r) (pre ++ e :: post)) (he : e.q.isData = true)
    (hfirst : ∀ x ∈ pre, x.q.isData = false) : e.q = .findClientById cid := by
  have ha : AllH (fun h q => (∀ x ∈ h, x.q.isData = false) → q.isData = true → q = .findClientById cid) []
      (handler cfg lib r) := by
    have hlr : ∀ {lv gt ev ps} {resp : HttpResp}, AllH (fun h q => (∀ x ∈ h, x.q.isData = false) →
        q.isData = true → q = .findClientById cid) [] (tlog lv gt ev ps >>= fun _ => respond resp) := by
      intro lv gt ev ps resp
      exact allH_of_allQ (Q := fun q => q.isData = false) (allQ_bind (allQ_ask rfl) fun _ => allQ_ask rfl)
        fun t q h _ h' => by rw [h] at h'; cases h'
    unfold handler
    split
    · exact hlr
    · dsimp only
      split
      · exact hlr
      · split
        · exact hlr
        · rw [findClientCredential_iff.2 hp]
          dsimp only
          unfold validateClientBySecret
          simp only [Prog.bind_eq, Prog.bind_assoc]
          refine allH_ask_bind (fun _ _ => rfl) fun res => allH_of_forall fun t q hno => ?_
          have := hno ⟨.findClientById cid, res⟩ (by simp)
          cases this
  exact allH_steps ha h hfirst he

/-- Without acceptable credentials and without an (enabled) client assertion nothing is looked up and
the answer to a request for a registered grant type is a 401 challenge. -/
theorem C04_no_credentials (hp : ∀ cid sec b, ¬ Presented cfg.acceptance r cid sec b)
    (hca : cfg.acceptClientAssertion = false ∨ ∀ ca, ¬ PresentedAssertion r ca)
    (h : Runs (handler cfg lib r) t (.ok ())) :
    (∀ e ∈ t, e.q.isData = false) ∧ ∃ pre resp, t = pre ++ [wrote resp] ∧
      (resp.status = 405 ∨ resp.status = 400 ∨ resp.status = 401) := by
  have hlr : ∀ {lv gt ev ps} {resp : HttpResp} {t}, 
      (resp.status = 405 ∨ resp.status = 400 ∨ resp.status = 401) →
      Runs (tlog lv gt ev ps >>= fun _ => respond resp) t (.ok ()) →
      (∀ e ∈ t, e.q.isData = false) ∧ ∃ pre resp, t = pre ++ [wrote resp] ∧
      (resp.status = 405 ∨ resp.status = 400 ∨ resp.status = 401) := by
    intro lv gt ev ps resp t hst hr
    obtain ⟨t', rfl, hr'⟩ := runs_tlog_bind.1 hr
    obtain ⟨rfl, _⟩ := runs_respond.1 hr'
    exact ⟨by simp [Query.isData], [_], resp, rfl, hst⟩
  unfold handler at h
  split at h
  · exact hlr (.inl rfl) h
  · dsimp only at h
    split at h
    · exact hlr (.inr (.inl rfl)) h
    · split at h
      · exact hlr (.inr (.inl rfl)) h
      · rw [findClientCredential_none.2 hp] at h
        have hno : (if cfg.acceptClientAssertion then findClientAssertion r else none) = none := by
          rcases hca with h | h
          · rw [h]; rfl
          · split
            · cases hf : findClientAssertion r with
              | none => rfl
              | some ca => exact absurd (findClientAssertion_iff.1 hf) (h ca)
            · rfl
        dsimp only at h
        rw [hno] at h
        exact hlr (.inr (.inr rfl)) h

example : Presented .fromHeader (Sample.post Sample.codeBody) b!"client" b!"secret" true :=
  .header _ _ (by decide +kernel)

/-! ## C05 -/

/-- Only registered grant types are executed: otherwise 400 and no data call. -/
theorem C05_unregistered (hm : r.method = b!"POST")
    (hno : r.formValue b!"grant_type" = [] ∨ ∀ h, ¬ Registered cfg r h) {o}
    (h : Runs (handler cfg lib r) t o) :
    o = .ok () ∧ (∀ e ∈ t, e.q.isData = false) ∧ ∃ pre resp uri desc, t = pre ++ [wrote resp] ∧
      resp.status = 400 ∧ resp.body = OAuthError.json
        ⟨if r.formValue b!"grant_type" = [] then .invalidRequest else .unsupportedGrantType, desc, uri⟩ := by
  have hbody : ∀ (e : OAuthError), ∃ uri, (withURI cfg e).json = OAuthError.json ⟨e.type, e.description, uri⟩ := by
    intro e
    unfold withURI
    split
    · split
      · exact ⟨_, rfl⟩
      · exact ⟨e.uri, rfl⟩
    · exact ⟨e.uri, rfl⟩
  unfold handler at h
  rw [if_neg (by simp [hm])] at h
  dsimp only at h
  split at h
  · rename_i hgt
    obtain ⟨t', rfl, h'⟩ := runs_tlog_bind.1 h
    obtain ⟨rfl, rfl⟩ := runs_respond.1 h'
    obtain ⟨uri, hu⟩ := hbody (OAuthError.new .invalidRequest b!"missing 'grant_type' parameter")
    refine ⟨rfl, by simp [Query.isData], [_], _, uri, b!"missing 'grant_type' parameter", rfl, rfl, ?_⟩
    rw [if_pos hgt]
    exact hu
  · rename_i hgt
    have hl : lookupHandler cfg.handlers (r.formValue b!"grant_type") = none := by
      rcases hno with hno | hno
      · exact absurd hno hgt
      · cases hf : lookupHandler cfg.handlers (r.formValue b!"grant_type") with
        | none => rfl
        | some f => exact absurd hf (hno f)
    rw [hl] at h
    obtain ⟨t', rfl, h'⟩ := runs_tlog_bind.1 h
    obtain ⟨rfl, rfl⟩ := runs_respond.1 h'
    obtain ⟨uri, hu⟩ := hbody (OAuthError.new .unsupportedGrantType
      (b!"unsupported 'grant_type' parameter: '" ++ r.formValue b!"grant_type" ++ b!"'"))
    refine ⟨rfl, by simp [Query.isData], [_], _, uri, b!"unsupported 'grant_type' parameter: '" ++ r.formValue b!"grant_type" ++ b!"'", rfl, rfl, ?_⟩
    rw [if_neg hgt]
    exact hu

/-- `Support` registers: the last handler given for a type is the one in force, other types are
unaffected. -/
theorem C05_support (t t' : GoStr) (f : GrantFunc) :
    lookupHandler (support cfg t f).handlers t' =
      if t' = t then some f else lookupHandler cfg.handlers t' := by
  unfold lookupHandler support
  by_cases h : t' = t
  · subst h; simp
  · have h2 : (t == t') = false := by simpa using fun h' => h h'.symm
    simp only [List.find?_cons, h2, h, if_false]
    have : (cfg.handlers.filter (fun kv => kv.1 != t)).find? (fun kv => kv.1 == t') =
        cfg.handlers.find? (fun kv => kv.1 == t') := by
      rw [List.find?_filter]
      congr 1
      funext kv
      by_cases hk : kv.1 = t'
      · simp [hk, h]
      · simp [hk]
    rw [this]

/-- Registering twice is the same as registering the second handler only. -/
theorem C05_last_wins (t : GoStr) (f g : GrantFunc) :
    support (support cfg t f) t g = support cfg t g := by
  unfold support
  simp [List.filter_filter]

example : ∀ h, ¬ Registered Sample.tokenCfg (Sample.post [(b!"grant_type", b!"nope")]) h := by
  intro h
  simp only [Registered]
  have : lookupHandler Sample.tokenCfg.handlers
    ((Sample.post [(b!"grant_type", b!"nope")]).formValue b!"grant_type") = none := by rfl
  rw [this]
  simp

/-! ## C06, C07 -/

/-- Exactly one response is written, as the last thing, by every run that does not panic. -/
theorem C07_exactly_one_response (hb : AllBuiltIn lib cfg) (h : Runs (handler cfg lib r) t (.ok ())) :
    ∃ pre resp, t = pre ++ [wrote resp] ∧ ∀ x, wrote x ∉ pre := by
  rcases (writes_handler (allBuiltIn_silent hb)).ok h with ⟨_, pre, resp, hn, rfl⟩ | ⟨h, _⟩
  · exact ⟨pre, resp, rfl, fun x hx => absurd (hn _ hx) (by simp [Query.isWrite])⟩
  · exact absurd trivial h

/-- Nothing happens after a response has been written, and a panicking run has written none. -/
theorem C07_response_is_last (hb : AllBuiltIn lib cfg) :
    (Steps (handler cfg lib r) (pre ++ wrote resp :: post) → post = []) ∧
    (Runs (handler cfg lib r) t .panic → ∀ x, wrote x ∉ t) :=
  ⟨fun h => (writes_handler (allBuiltIn_silent hb)).last h, fun h x hx =>
    absurd ((writes_handler (allBuiltIn_silent hb)).panic h _ hx) (by simp [Query.isWrite])⟩

/-- What a response of the token endpoint of `realm` must look like: one of four statuses, the three
common headers, a Basic challenge exactly when the status is 401, and no other header. -/
def WellFormedTokenResponse (realm : GoStr) (resp : HttpResp) : Prop :=
  resp.status ∈ [200, 400, 401, 500] ∧
  resp.headers.Perm (
    [(b!"Cache-Control", b!"no-store"), (b!"Pragma", b!"no-cache"),
     (b!"Content-Type", b!"application/json; charset=UTF-8")] ++
    if resp.status = 401 then [(b!"WWW-Authenticate", b!"Basic realm=\"" ++ realm ++ b!"\"")] else [])

theorem wellFormed_fail {cfg : TokenCfg} {e : OAuthError}
    (he : (e.type ∈ grantErrors ∨ e.type = .unauthorizedClient ∨ e.type = .unsupportedGrantType) ∧ e.uri = []) :
    WellFormedTokenResponse cfg.realm ⟨e.statusCode, commonHeaders, (withURI cfg e).json⟩ := by
  have : e.statusCode = 400 ∨ e.statusCode = 500 := by
    unfold OAuthError.statusCode
    replace he := he.1
    simp only [grantErrors, List.mem_cons, List.not_mem_nil, or_false] at he
    rcases he with (h | h | h | h | h) | h | h <;> rw [h] <;> simp [OAuthErrorType.statusCode]
  refine ⟨by rcases this with h | h <;> simp [h], ?_⟩
  dsimp only
  rw [if_neg (by rcases this with h | h <;> simp [h]), List.append_nil]
  exact .refl _

theorem wellFormed_auth {cfg : TokenCfg} {b : GoStr} :
    WellFormedTokenResponse cfg.realm
      ⟨401, (b!"WWW-Authenticate", b!"Basic realm=\"" ++ cfg.realm ++ b!"\"") :: commonHeaders, b⟩ :=
  ⟨by simp, (List.perm_append_singleton (b!"WWW-Authenticate", b!"Basic realm=\"" ++ cfg.realm ++ b!"\"") commonHeaders).symm⟩

/-- The responses to a POST. -/
inductive TokenWrite (cfg : TokenCfg) : HttpResp → Prop
  | granted (res : Response) : TokenWrite cfg ⟨200, commonHeaders, res.json⟩
  | failed {e : OAuthError} (he : (e.type ∈ grantErrors ∨ e.type = .unauthorizedClient ∨ e.type = .unsupportedGrantType) ∧ e.uri = []) :
      TokenWrite cfg ⟨e.statusCode, commonHeaders, (withURI cfg e).json⟩
  | challenge : TokenWrite cfg
      ⟨401, (b!"WWW-Authenticate", b!"Basic realm=\"" ++ cfg.realm ++ b!"\"") :: commonHeaders,
        (withURI cfg (OAuthError.simple .invalidClient)).json⟩

theorem tokenWrite (hb : AllBuiltIn lib cfg) (h : Steps (handler cfg lib r) t) (hx : wrote resp ∈ t)
    (hm : r.method = b!"POST") : TokenWrite cfg resp := by
  let P : Query → Prop := fun q => ∀ x, q = .write x → TokenWrite cfg x
  have hP : ∀ q, q.isWrite = false → P q := by
    intro q hq x hx
    subst hx
    cases hq
  have hl : ∀ l, P (.log l) := fun l => hP _ rfl
  have hfail : ∀ e : OAuthError, ((e.type ∈ grantErrors ∨ e.type = .unauthorizedClient ∨
      e.type = .unsupportedGrantType) ∧ e.uri = []) → AllQ P (fail cfg e) := by
    intro e he
    refine allQ_ask ?_
    intro x hx
    cases hx
    exact .failed he
  have hauth : AllQ P (failWithAuthHeader cfg (OAuthError.simple .invalidClient)) := by
    refine allQ_ask ?_
    intro x hx
    cases hx
    exact .challenge
  have hinv : ∀ b, AllQ P (failByInvalidClientError cfg b) := by
    intro b
    unfold failByInvalidClientError
    split
    · exact hauth
    · exact hfail _ ⟨.inl (by decide), rfl⟩
  have hlf : ∀ {lv gt ev ps} {p : Prog Unit}, AllQ P p →
      AllQ P (tlog lv gt ev ps >>= fun _ => p >>= fun _ => (pure none : Prog (Option Client))) :=
    fun hp => allQ_bind (allQ_tlog hl) fun _ => allQ_bind hp fun _ => trivial
  have hsec : ∀ gt cid sec b, AllQ P (validateClientBySecret cfg r gt cid sec b) := by
    intro gt cid sec b
    unfold validateClientBySecret
    refine allQ_bind (allQ_ask (hP _ rfl)) fun ⟨c, e⟩ => ?_
    rcases e with _ | e
    · rcases c with _ | c
      · exact hlf (hfail _ ⟨.inl (by decide), rfl⟩)
      · dsimp only
        split
        · exact hlf (hinv _)
        · split
          · exact hlf (hfail _ ⟨.inr (.inl rfl), rfl⟩)
          · trivial
    · cases e
      · exact hlf (hfail _ ⟨.inl (by decide), rfl⟩)
      · exact hlf (hfail _ ⟨.inl (by decide), rfl⟩)
      · exact hlf (hinv _)
      · exact hlf (hfail _ ⟨.inl (by decide), rfl⟩)
  have hass : ∀ gt ca, AllQ P (validateClientByAssertion cfg lib gt ca) := by
    intro gt ca
    cases hd : lib.jwtDecode ca with
    | none => rw [panics_byAssertion hd]; trivial
    | some tk =>
      unfold validateClientByAssertion
      refine allQ_bind_runs (allQ_parse (hP _ rfl) fun _ => allQ_assertionKeyFunc hl fun _ => hP _ rfl)
        fun p t hp => allQ_bind_runs (allQ_handle hl (hP _ rfl) fun _ _ _ _ _ => hP _ rfl) fun res t' hr => ?_
      obtain ⟨p', ho, hp1, hc⟩ := parse_assertion_cases hp hd
      cases ho
      have hg : Good (Assertion.handle ca gt p.2.2 p.1 p.2.1) := by
        rcases hc with ⟨_, h1, h2⟩ | ⟨e, l, err, _, _, _, _, hin, hve⟩
        · exact Assertion.good_handle h1 h2 (fun _ => by rw [hp1]; simp)
        · refine Assertion.good_handle ?_ (fun h => ?_) fun _ => by rw [hp1]; simp
          · intro ve h x hx
            rw [hve] at h
            cases h; cases hx
            exact hin
          · have := h _ hve
            simp at this
      cases res with
      | error e => exact allQ_bind (hfail _ ⟨.inl (hg.errs _ _ hr).1, (hg.errs _ _ hr).2⟩) fun _ => trivial
      | ok u =>
        dsimp only
        split <;> trivial
  have hexec : ∀ c gt h, BuiltIn lib h → AllQ P (executeGrantHandler cfg r c gt h) := by
    intro c gt h hbi
    unfold executeGrantHandler
    refine allQ_bind (allQ_ask (hP _ rfl)) fun now => allQ_bind_runs
      (allQ_mono (fun q hq => hP q hq) (allQ_of_runs (builtIn_silent hbi _ _ _))) fun res t' hr => ?_
    cases res with
    | error e => exact hfail _ ⟨.inl ((builtIn_good hbi _ _ _).errs _ _ hr).1, ((builtIn_good hbi _ _ _).errs _ _ hr).2⟩
    | ok a =>
      refine allQ_bind (allQ_tlog hl) fun _ => allQ_ask ?_
      intro x hx
      cases hx
      exact .granted _
  have ha : AllQ P (handler cfg lib r) := by
    unfold handler
    rw [if_neg (by simp [hm])]
    dsimp only
    split
    · exact allQ_bind (allQ_tlog hl) fun _ => hfail _ ⟨.inl (by decide), rfl⟩
    · split
      · exact allQ_bind (allQ_tlog hl) fun _ => hfail _ ⟨.inr (.inr rfl), rfl⟩
      · rename_i h hh
        have hbi := hb _ h hh
        split
        · refine allQ_bind (hsec _ _ _ _) fun o => ?_
          cases o with
          | none => trivial
          | some c => exact hexec _ _ _ hbi
        · split
          · refine allQ_bind (hass _ _) fun o => ?_
            cases o with
            | none => trivial
            | some c => exact hexec _ _ _ hbi
          · exact allQ_bind (allQ_tlog hl) fun _ => hauth
  exact allQ_steps ha h _ hx _ rfl

/-- Every response to a POST has one of the statuses 200, 400, 401, 500, the no-cache headers, a JSON
content type, a challenge exactly when the status is 401, and no other header. -/
theorem C06_well_formed (hb : AllBuiltIn lib cfg) (h : Steps (handler cfg lib r) t) (hx : wrote resp ∈ t) :
    (r.method ≠ b!"POST" ∧ resp.status = 405) ∨ (r.method = b!"POST" ∧ WellFormedTokenResponse cfg.realm resp) := by
  rcases Decidable.em (r.method = b!"POST") with hm | hm
  case inr => exact .inl ⟨hm, (C01_non_post_inert hm h).2 _ hx⟩
  refine .inr ⟨hm, ?_⟩
  cases tokenWrite hb h hx hm with
  | granted res => exact ⟨by simp, by simp only [List.append_nil, commonHeaders]; exact .refl _⟩
  | failed he => exact wellFormed_fail he
  | challenge => exact wellFormed_auth

example : ({} : Sample.World).status (handler Sample.tokenCfg Sample.lib
    { Sample.post Sample.codeBody with headers := [] }) = some 401 := by decide +kernel

/-! ## C08 -/

/-- Exactly when the token endpoint panics: a client assertion that is not even a JWT is presented
where assertions are enabled and no acceptable secret is presented. -/
theorem C08_panics_iff (hb : AllBuiltIn lib cfg) :
    (∃ t, Runs (handler cfg lib r) t .panic) ↔
      r.method = b!"POST" ∧ r.formValue b!"grant_type" ≠ [] ∧ (∃ h, Registered cfg r h) ∧
      (∀ cid sec b, ¬ Presented cfg.acceptance r cid sec b) ∧ cfg.acceptClientAssertion = true ∧
      ∃ ca, PresentedAssertion r ca ∧ lib.jwtDecode ca = none := by
  have hlr : ∀ {lv gt ev ps} {resp : HttpResp} {t},
      ¬ Runs (tlog lv gt ev ps >>= fun _ => respond resp) t .panic := fun {_ _ _ _ _ t} h =>
    noPanic_bind noPanic_ask (fun _ _ _ => noPanic_ask) t h
  have hthen : ∀ {p : Prog (Option Client)} {f : Client → Prog Unit}, NoPanic p → (∀ c, NoPanic (f c)) →
      NoPanic (p >>= fun o => match o with | some c => f c | none => pure ()) := by
    intro p f hp hf
    refine noPanic_bind hp fun o t _ => ?_
    cases o with
    | none => exact noPanic_ret
    | some c => exact hf c
  constructor
  · rintro ⟨t, h⟩
    unfold handler at h
    split at h
    · exact absurd h hlr
    · rename_i hm
      dsimp only at h
      split at h
      · exact absurd h hlr
      · rename_i hgt
        split at h
        · exact absurd h hlr
        · rename_i hf hh
          have hexec : ∀ c, NoPanic (executeGrantHandler cfg r c (r.formValue b!"grant_type") hf) :=
            fun c => noPanic_execute fun now => (builtIn_good (hb _ hf hh) _ _ _).noPanic
          split at h
          · exact absurd h (hthen noPanic_bySecret hexec t)
          · rename_i hc
            split at h
            · rename_i ca hca
              have hacc : cfg.acceptClientAssertion = true ∧ findClientAssertion r = some ca := by
                by_cases ha : cfg.acceptClientAssertion = true
                · rw [if_pos ha] at hca; exact ⟨ha, hca⟩
                · rw [if_neg ha] at hca; cases hca
              refine ⟨Decidable.of_not_not hm, hgt, ⟨hf, hh⟩, findClientCredential_none.1 hc, hacc.1, ca,
                findClientAssertion_iff.1 hacc.2, ?_⟩
              cases hd : lib.jwtDecode ca with
              | none => rfl
              | some tk => exact absurd h (hthen (noPanic_byAssertion hd) hexec t)
            · exact absurd h hlr
  · rintro ⟨hm, hgt, ⟨hf, hh⟩, hp, hacc, ca, hpa, hd⟩
    refine ⟨[], ?_⟩
    unfold handler
    rw [if_neg (by simp [hm])]
    dsimp only
    rw [if_neg hgt, show lookupHandler cfg.handlers (r.formValue b!"grant_type") = some hf from hh,
      findClientCredential_none.2 hp, if_pos hacc, findClientAssertion_iff.2 hpa]
    dsimp only
    rw [panics_byAssertion hd]
    exact ⟨rfl, rfl⟩

/-- The part of C08 that holds.  Missing: malformed client assertions (`C08_false`). -/
theorem C08_never_panics_partial (hb : AllBuiltIn lib cfg)
    (hok : cfg.acceptClientAssertion = false ∨ ∀ ca, PresentedAssertion r ca → lib.jwtDecode ca ≠ none) :
    ¬ Runs (handler cfg lib r) t .panic := by
  intro h
  obtain ⟨_, _, _, _, hacc, ca, hpa, hd⟩ := (C08_panics_iff hb).1 ⟨t, h⟩
  rcases hok with h | h
  · rw [hacc] at h; cases h
  · exact h ca hpa hd

/-- C08 does not hold in general: one unauthenticated request crashes the handler. -/
theorem C08_false : ¬ ∀ (cfg : TokenCfg) (lib : Lib) (r : Req) (t : List Event), AllBuiltIn lib cfg →
    ¬ Runs (handler cfg lib r) t .panic := by
  intro hall
  obtain ⟨t, h⟩ := (C08_panics_iff (r := Sample.postAssertion b!"garbage" Sample.ccBody) sample_allBuiltIn).2
    ⟨by decide, by decide +kernel, ⟨Grant.clientCredentials, rfl⟩, fun cid sec b =>
      (findClientCredential_none (cfg := Sample.tokenCfg)).1 (by decide +kernel) cid sec b, rfl, b!"garbage",
      ⟨by decide +kernel, by decide, by decide +kernel⟩, by decide +kernel⟩
  exact hall _ _ _ _ sample_allBuiltIn h

/-! ## C23 -/

/-- If a data operation fails, nothing but logging follows until one error response.  For `ErrFailed`
it carries the code of that operation (`Query.refusalCode`), with status 401 exactly when the client
lookup failed for credentials from the Authorization header and 400 otherwise; for every other error
kind and for `(nil, nil)` it is 500 `server_error`. -/
theorem C23_backend_errors (hb : AllBuiltIn lib cfg) {e : Event}
    (h : Runs (handler cfg lib r) (pre ++ e :: post) (.ok ())) (he : e.answer ≠ .good) :
    ∃ logs resp, post = logs ++ [wrote resp] ∧ (∀ l ∈ logs, l.q.isLog = true) ∧
      (e.answer = .err .failed →
        (∃ desc uri, resp.body = OAuthError.json ⟨e.q.refusalCode, desc, uri⟩) ∧
        (resp.status = 400 ∨ resp.status = 401) ∧
        (resp.status = 401 ↔ r.basicAuth ≠ none ∧ ∃ cid, e.q = .findClientById cid)) ∧
      (e.answer ≠ .err .failed →
        resp.status = 500 ∧ ∃ uri, resp.body = OAuthError.json ⟨.serverError, [], uri⟩) := by
  obtain ⟨logs, resp, h1, h2, h3⟩ := badEnds_handler (fun h hr => hb _ h hr) _ _ _ _ h he
  refine ⟨logs, resp, h1, h2, fun hf => ?_, fun hf => ?_⟩
  · unfold RespMatches at h3
    rw [hf] at h3
    refine ⟨h3.1, ?_⟩
    have hfc : e.q.isFindClient = true ↔ ∃ cid, e.q = .findClientById cid := by
      cases e.q <;> simp [Query.isFindClient]
    have hbs : r.basicAuth.isSome = true ↔ r.basicAuth ≠ none := Option.isSome_iff_ne_none
    have h4 := h3.2
    split at h4
    · rename_i hc
      rw [hfc, hbs] at hc
      exact ⟨.inr h4, by rw [h4]; exact ⟨fun _ => hc, fun _ => rfl⟩⟩
    · rename_i hc
      rw [hfc, hbs] at hc
      exact ⟨.inl h4, by rw [h4]; exact ⟨fun h => by simp at h, fun h => absurd h hc⟩⟩
  · unfold RespMatches at h3
    split at h3
    · rename_i ha
      exact absurd ha hf
    · exact h3

/-- In particular no such request is answered 200, at whatever point it is observed. -/
theorem C23_no_success (hb : AllBuiltIn lib cfg) {e : Event}
    (h : Steps (handler cfg lib r) (pre ++ [wrote resp])) (h200 : resp.status = 200) (he : e ∈ pre) :
    e.answer = .good := by
  obtain ⟨_, _, hr, _⟩ := (writes_handler (allBuiltIn_silent hb)).complete h
  obtain ⟨a, b, rfl⟩ := List.append_of_mem he
  refine Decidable.byContradiction fun hb' => ?_
  have hr' : Runs (handler cfg lib r) (a ++ e :: (b ++ [wrote resp])) (.ok ()) := by simpa using hr
  obtain ⟨logs, resp', h1, _, h3, h4⟩ := C23_backend_errors hb hr' hb'
  obtain ⟨_, h5⟩ := List.append_inj' h1 rfl
  cases h5
  by_cases hf : e.answer = .err .failed
  · rcases (h3 hf).2.1 with h | h <;> · rw [h200] at h; cases h
  · have := (h4 hf).1
    rw [h200] at this
    cases this

example : ({ disable := some .failed } : Sample.World).status
    (handler Sample.tokenCfg Sample.lib (Sample.post Sample.codeBody)) = some 400 := by decide +kernel
example : ({ info := (none, none) } : Sample.World).status
    (handler Sample.tokenCfg Sample.lib (Sample.post Sample.codeBody)) = some 500 := by decide +kernel

/-! ## C24 -/

/-- Every data call other than the client lookup happens after a client authenticated; so a request
that fails authentication only looks up the client (and, for assertions whose signature verified,
records it and asks for the issuer).  This holds for arbitrary grant handlers. -/
theorem C24_authentication_first {e : Event} (h : Steps (handler cfg lib r) (pre ++ e :: post))
    (hd : e.q.isData = true) (hne : ∀ cid, e.q ≠ .findClientById cid) :
    ∃ c, AuthenticatedBySecret cfg.acceptance r c pre ∨
        (cfg.acceptClientAssertion = true ∧ AuthenticatedByAssertion lib r c pre) := by
  let Auth : List Event → Prop := fun pre => ∃ c, AuthenticatedBySecret cfg.acceptance r c pre ∨
        (cfg.acceptClientAssertion = true ∧ AuthenticatedByAssertion lib r c pre)
  let P : List Event → Query → Prop := fun pre q => q.isData = true → (∀ cid, q ≠ .findClientById cid) → Auth pre
  have hmono : ∀ a b, Auth a → Auth (a ++ b) := by
    rintro a b ⟨c, ⟨cid, sec, ih, h1, h2, h3⟩ | ⟨h0, ca, tk, sub, h1, h2, h3, h4⟩⟩
    · exact ⟨c, .inl ⟨cid, sec, ih, h1, List.mem_append_left _ h2, h3⟩⟩
    · exact ⟨c, .inr ⟨h0, ca, tk, sub, h1, h2, h3, List.mem_append_left _ h4⟩⟩
  have hauth : ∀ {α} {p : Prog α} {h}, Auth h → AllH P h p := fun ha =>
    allH_of_forall fun t q _ _ => hmono _ _ ha
  have hQ : ∀ {α} {p : Prog α} {h}, AllQ (fun q => q.isData = false ∨ ∃ cid, q = .findClientById cid) p →
      AllH P h p := fun hp => allH_of_allQ hp fun t q hq hd hne => by
    rcases hq with hq | ⟨cid, rfl⟩
    · rw [hq] at hd; cases hd
    · exact absurd rfl (hne cid)
  have hlr : ∀ {lv gt ev ps} {resp : HttpResp} {h}, AllH P h (tlog lv gt ev ps >>= fun _ => respond resp) :=
    hQ (allQ_bind (allQ_ask (.inl rfl)) fun _ => allQ_ask (.inl rfl))
  have ha : AllH P [] (handler cfg lib r) := by
    unfold handler
    split
    · exact hlr
    · dsimp only
      split
      · exact hlr
      · split
        · exact hlr
        · split
          · rename_i cid sec b hc
            rw [Prog.bind_eq]
            refine allH_bind (hQ ?_) fun o t ho => ?_
            · have hlf : ∀ {lv gt ev ps} {p : Prog Unit}, 
                  AllQ (fun q => q.isData = false ∨ ∃ cid, q = .findClientById cid) p →
                  AllQ (fun q => q.isData = false ∨ ∃ cid, q = .findClientById cid)
                    (tlog lv gt ev ps >>= fun _ => p >>= fun _ => (pure none : Prog (Option Client))) :=
                fun hp => allQ_bind (allQ_ask (.inl rfl)) fun _ => allQ_bind hp fun _ => trivial
              have hinv : AllQ (fun q => q.isData = false ∨ ∃ cid, q = .findClientById cid)
                  (failByInvalidClientError cfg b) := by
                unfold failByInvalidClientError
                split <;> exact allQ_ask (.inl rfl)
              unfold validateClientBySecret
              refine allQ_bind (allQ_ask (.inr ⟨cid, rfl⟩)) fun ⟨c, e⟩ => ?_
              rcases e with _ | e
              · rcases c with _ | c
                · exact hlf (allQ_ask (.inl rfl))
                · dsimp only
                  split
                  · exact hlf hinv
                  · split
                    · exact hlf (allQ_ask (.inl rfl))
                    · trivial
              · cases e
                · exact hlf (allQ_ask (.inl rfl))
                · exact hlf (allQ_ask (.inl rfl))
                · exact hlf hinv
                · exact hlf (allQ_ask (.inl rfl))
            · cases o with
              | none => trivial
              | some c =>
                obtain ⟨rfl, hms, _⟩ := runs_bySecret.1 ho
                exact hauth ⟨c, .inl ⟨cid, sec, b, findClientCredential_iff.1 hc, by simp, hms⟩⟩
          · split
            · rename_i hc _ ca hca
              have hacc : cfg.acceptClientAssertion = true ∧ findClientAssertion r = some ca := by
                by_cases ha : cfg.acceptClientAssertion = true
                · rw [if_pos ha] at hca; exact ⟨ha, hca⟩
                · rw [if_neg ha] at hca; cases hca
              rw [Prog.bind_eq]
              refine allH_bind ?_ fun o t ho => ?_
              · unfold validateClientByAssertion
                refine allH_bind (hQ (allQ_parse (.inl rfl) fun _ => allQ_assertionKeyFunc
                  (fun _ => .inl rfl) fun c => .inr ⟨c, rfl⟩)) fun p t hp => ?_
                cases hve : p.2.1 with
                | some ve =>
                  refine hQ (allQ_bind ?_ fun res => ?_)
                  · exact allQ_onJwtErr fun _ => .inl rfl
                  · cases res with
                    | error e => exact allQ_bind (allQ_ask (.inl rfl)) fun _ => trivial
                    | ok u => dsimp only; split <;> trivial
                | none =>
                  refine hauth ?_
                  obtain ⟨tok, ve, c0⟩ := p
                  simp only at hve
                  subst hve
                  obtain ⟨tk, k, t1, wall, hd, rfl, hk, rfl, _, hv, _⟩ := parse_ok hp
                  obtain ⟨c, sub, hc0, hsub, hkey, ht1⟩ := assertionKeyFunc_ok hk
                  subst hc0 ht1
                  exact ⟨c, .inr ⟨hacc.1, ca, tk, sub, findClientAssertion_iff.1 hacc.2, ⟨hd, k, hkey, verifies_iff.1 hv⟩,
                    hsub, by simp⟩⟩
              · cases o with
                | none => trivial
                | some c =>
                  obtain ⟨tk, sub, wall, exp, aud, hv, hsub, _, _, _, _, _, _, rfl⟩ := runs_byAssertion ho
                  exact hauth ⟨c, .inr ⟨hacc.1, ca, tk, sub, findClientAssertion_iff.1 hacc.2, hv, hsub, by simp⟩⟩
            · exact hlr
  simpa using allH_steps ha h hd hne

example : ∃ pre resp, Steps (handler Sample.tokenCfg Sample.lib
    { Sample.post Sample.codeBody with headers := [(b!"Authorization", b!"Basic Y2xpZW50Ondyb25n")] })
    (pre ++ [wrote resp]) ∧ resp.status = 401 := ({} : Sample.World).steps (by decide +kernel)

end Goidc.Props
