import Verif.Lemmas.GrantErr

/-! # Failures of the token endpoint -/

namespace Goidc
open TokenEndpoint Spec

theorem parse_assertion_cases {lib ca gt t o tk} (h : Runs (Jwt.parse lib ca none (assertionKeyFunc gt ca)) t o)
    (hd : lib.jwtDecode ca = some tk) :
    ∃ p, o = .ok p ∧ p.1 = some tk ∧
      (((∀ x ∈ t, x.answer = .good) ∧
        (∀ ve, p.2.1 = some ve → ∀ x, ve.inner = some x → PlainErr x) ∧
        ((∀ ve, p.2.1 = some ve → ve.unverifiable = false) → p.2.2 ≠ none)) ∨
       (∃ e l err, t = [e, logged l] ∧ e.answer ≠ .good ∧ e.q.isFindClient = true ∧ Matches e err ∧
        PlainErr err ∧ p.2.1 = some { unverifiable := true, inner := some err })) := by
  unfold Jwt.parse at h
  rw [hd] at h
  dsimp only at h
  split at h
  · obtain ⟨rfl, rfl⟩ := (show _ ∧ _ from h)
    refine ⟨_, rfl, rfl, .inl ⟨by simp, ?_, fun h => ?_⟩⟩
    · rintro ve ⟨⟩ x ⟨⟩
    · have := h _ rfl
      simp at this
  · rename_i fam hfam
    -- the key function
    have hk : ∀ {t1 o1}, Runs (assertionKeyFunc gt ca tk) t1 o1 → ∃ kr c, o1 = .ok (kr, c) ∧
        (((∀ x ∈ t1, x.answer = .good) ∧ (∀ x, kr = .oauthErr x → PlainErr x) ∧
          ((∃ k, kr = .key k) → c ≠ none)) ∨
         (∃ e l err, t1 = [e, logged l] ∧ e.answer ≠ .good ∧ e.q.isFindClient = true ∧
          Matches e err ∧ PlainErr err ∧ kr = .oauthErr err)) := by
      intro t1 o1 h1
      unfold assertionKeyFunc at h1
      split at h1
      · obtain ⟨t', rfl, h2⟩ := runs_tlog_bind.1 h1
        obtain ⟨rfl, rfl⟩ := (show _ ∧ _ from h2)
        refine ⟨_, _, rfl, .inl ⟨by simp [Event.answer], ?_, by simp⟩⟩
        rintro x ⟨⟩
        decide
      · rw [Prog.bind_eq, runs_bind_ask] at h1
        obtain ⟨⟨c1, e1⟩, t5, rfl, h2⟩ := h1
        rcases e1 with _ | e1
        · rcases c1 with _ | c1
          · obtain ⟨t', rfl, h3⟩ := runs_tlog_bind.1 h2
            obtain ⟨rfl, rfl⟩ := (show _ ∧ _ from h3)
            exact ⟨_, _, rfl, .inr ⟨_, _, _, rfl, by simp [Event.answer, Answer.ofPair], rfl, rfl, by decide, rfl⟩⟩
          · dsimp only at h2
            split at h2
            · obtain ⟨t', rfl, h3⟩ := runs_tlog_bind.1 h2
              obtain ⟨rfl, rfl⟩ := (show _ ∧ _ from h3)
              exact ⟨_, _, rfl, .inl ⟨by simp [Event.answer, Answer.ofPair], by simp, by simp⟩⟩
            · obtain ⟨rfl, rfl⟩ := (show _ ∧ _ from h2)
              exact ⟨_, _, rfl, .inl ⟨by simp [Event.answer, Answer.ofPair], by simp, by simp⟩⟩
        · cases e1 <;>
          · obtain ⟨t', rfl, h3⟩ := runs_tlog_bind.1 h2
            obtain ⟨rfl, rfl⟩ := (show _ ∧ _ from h3)
            refine ⟨_, _, rfl, .inr ⟨_, _, _, rfl, by simp [Event.answer, Answer.ofPair], rfl, ?_, ?_, rfl⟩⟩
            · rfl
            · decide
    rw [Prog.bind_eq] at h
    rcases runs_bind.1 h with ⟨⟨kr, c⟩, t1, t2, rfl, h1, h2⟩ | ⟨h1, _⟩
    · obtain ⟨kr', c', ho, hcase⟩ := hk h1
      cases ho
      rcases hcase with ⟨hg, hoe, hkc⟩ | ⟨e, l, err, rfl, hb, hfc, hm, hin, rfl⟩
      · cases kr with
        | key k =>
          dsimp only at h2
          rw [Prog.bind_eq, runs_bind_ask] at h2
          obtain ⟨now, t3, rfl, h3⟩ := h2
          obtain ⟨rfl, rfl⟩ := (show _ ∧ _ from h3)
          refine ⟨_, rfl, rfl, .inl ⟨?_, ?_, fun _ => hkc ⟨k, rfl⟩⟩⟩
          · intro x hx
            simp only [List.mem_append, List.mem_singleton] at hx
            rcases hx with hx | rfl
            · exact hg x hx
            · rfl
          · intro ve hve x hx
            dsimp only at hve
            split at hve
            · cases hve
            · cases hve; cases hx
        | oauthErr x =>
          obtain ⟨rfl, rfl⟩ := (show _ ∧ _ from h2)
          refine ⟨_, rfl, rfl, .inl ⟨by simpa using hg, ?_, fun h => ?_⟩⟩
          · rintro ve ⟨⟩ y ⟨⟩
            exact hoe _ rfl
          · have := h _ rfl
            simp at this
        | err =>
          obtain ⟨rfl, rfl⟩ := (show _ ∧ _ from h2)
          refine ⟨_, rfl, rfl, .inl ⟨by simpa using hg, ?_, fun h => ?_⟩⟩
          · rintro ve ⟨⟩ y ⟨⟩
          · have := h _ rfl
            simp at this
      · obtain ⟨rfl, rfl⟩ := (show _ ∧ _ from h2)
        exact ⟨_, rfl, rfl, .inr ⟨e, l, err, rfl, hb, hfc, hm, hin, rfl⟩⟩
    · obtain ⟨_, _, ho, _⟩ := hk h1
      cases ho

/-- The assertion path never panics on a decodable assertion. -/
theorem noPanic_byAssertion {cfg lib gt ca tk} (hd : lib.jwtDecode ca = some tk) :
    NoPanic (validateClientByAssertion cfg lib gt ca) := by
  unfold validateClientByAssertion
  refine noPanic_bind ?_ fun p t hp => ?_
  · intro t h
    obtain ⟨p, ho, _⟩ := parse_assertion_cases h hd
    cases ho
  · obtain ⟨p', ho, hp1, hc⟩ := parse_assertion_cases hp hd
    cases ho
    have hg : Good (Assertion.handle ca gt p.2.2 p.1 p.2.1) := by
      rcases hc with ⟨_, h1, h2⟩ | ⟨e, l, err, _, _, _, _, hin, hve⟩
      · exact Assertion.good_handle h1 h2 (fun _ => by rw [hp1]; simp)
      · refine Assertion.good_handle ?_ (fun h => ?_) fun _ => by rw [hp1]; simp
        · intro ve h x hx
          rw [hve] at h
          cases h; cases hx
          exact hin
        · have := h _ hve
          simp at this
    refine noPanic_bind hg.noPanic fun res t' hr => ?_
    cases res with
    | error e => exact noPanic_bind noPanic_ask fun _ _ _ => noPanic_ret
    | ok u =>
      obtain ⟨hve, tk', _, hcl⟩ := handle_ok hr
      obtain ⟨cl, _, _, hcl, _⟩ := checkClaims_ok hcl
      dsimp only
      rw [hcl]
      exact noPanic_ret

/-- It always panics on an assertion that does not decode. -/
theorem panics_byAssertion {cfg lib gt ca} (hd : lib.jwtDecode ca = none) :
    validateClientByAssertion cfg lib gt ca = .panic := by
  unfold validateClientByAssertion Jwt.parse
  rw [hd]
  rfl

theorem noPanic_bySecret {cfg r gt cid sec b} : NoPanic (validateClientBySecret cfg r gt cid sec b) := by
  have hl : ∀ {lv gt ev ps} {p : Prog Unit}, NoPanic p →
      NoPanic (tlog lv gt ev ps >>= fun _ => p >>= fun _ => (pure none : Prog (Option Client))) :=
    fun hp => noPanic_bind noPanic_ask fun _ _ _ => noPanic_bind hp fun _ _ _ => noPanic_ret
  have hinv : NoPanic (failByInvalidClientError cfg b) := by
    unfold failByInvalidClientError
    split <;> exact noPanic_ask
  unfold validateClientBySecret
  refine noPanic_bind noPanic_ask fun ⟨c, e⟩ _ _ => ?_
  rcases e with _ | e
  · rcases c with _ | c
    · exact hl noPanic_ask
    · dsimp only
      split
      · exact hl hinv
      · split
        · exact hl noPanic_ask
        · exact noPanic_ret
  · cases e
    · exact hl noPanic_ask
    · exact hl noPanic_ask
    · exact hl hinv
    · exact hl noPanic_ask

theorem noPanic_execute {cfg r c gt h} (hh : ∀ now, NoPanic (h r c now).run) :
    NoPanic (executeGrantHandler cfg r c gt h) := by
  unfold executeGrantHandler
  refine noPanic_bind noPanic_ask fun now _ _ => noPanic_bind (hh now) fun res _ _ => ?_
  cases res with
  | error e => exact noPanic_ask
  | ok a => exact noPanic_bind noPanic_ask fun _ _ _ => noPanic_ask

/-! ## Backend errors -/

/-- What the response must be after the backend call `e` failed; `hdr` says whether the credentials
came in the Authorization header. -/
def RespMatches (hdr : Bool) (e : Event) (resp : HttpResp) : Prop :=
  match e.answer with
  | .err .failed => (∃ desc uri, resp.body = OAuthError.json ⟨e.q.refusalCode, desc, uri⟩) ∧
      resp.status = if hdr = true ∧ e.q.isFindClient = true then 401 else 400
  | _ => resp.status = 500 ∧ ∃ uri, resp.body = OAuthError.json ⟨.serverError, [], uri⟩

theorem withURI_shape (cfg : TokenCfg) (err : OAuthError) : ∃ uri, withURI cfg err = ⟨err.type, err.description, uri⟩ := by
  unfold withURI
  split
  · cases cfg.errorURIBuilder with
    | none => exact ⟨err.uri, rfl⟩
    | some f => exact ⟨f err.type, rfl⟩
  · exact ⟨err.uri, rfl⟩

theorem respMatches_of {cfg : TokenCfg} {hdr : Bool} {e : Event} {err : OAuthError} (h : Matches e err)
    (hf : hdr = true → e.q.isFindClient = false) :
    RespMatches hdr e ⟨err.statusCode, commonHeaders, (withURI cfg err).json⟩ := by
  obtain ⟨uri, hu⟩ := withURI_shape cfg err
  unfold RespMatches
  unfold Matches at h
  split
  · rename_i ha
    rw [ha] at h
    dsimp only at h
    refine ⟨⟨err.description, uri, by rw [hu, h]⟩, ?_⟩
    rw [if_neg (fun hc => by rw [hf hc.1] at hc; cases hc.2)]
    show err.type.statusCode = 400
    rw [h]
    cases e.q <;> rfl
  · rename_i hne
    split at h
    · rename_i ha
      exact absurd ha hne
    · subst h
      exact ⟨rfl, uri, by rw [hu]; rfl⟩

/-- After the failed backend call only logging and one matching response happen. -/
def BadEnds (hdr : Bool) (p : Prog α) : Prop :=
  ∀ t1 e t2 o, Runs p (t1 ++ e :: t2) (.ok o) → e.answer ≠ .good →
    ∃ logs resp, t2 = logs ++ [wrote resp] ∧ (∀ l ∈ logs, l.q.isLog = true) ∧ RespMatches hdr e resp

theorem badEnds_of_good {hdr} {p : Prog α} (h : AllQ (fun q => ∀ r, (⟨q, r⟩ : Event).answer = .good) p) :
    BadEnds hdr p := by
  intro t1 e t2 o hr hb
  exact absurd (allQ_runs h hr e (by simp) e.r) hb

theorem badEnds_execute {hdr cfg r c gt h} (hh : ∀ now, Good (h r c now))
    (hn : ∀ now, AllQ (fun q => q.isFindClient = false) (h r c now).run) :
    BadEnds hdr (executeGrantHandler cfg r c gt h) := by
  intro t1 e t2 o hr hb
  obtain ⟨now, t3, ⟨err, hx, ht⟩ | ⟨res, hx, ht⟩⟩ := runs_execute hr
  · cases t1 with
    | nil =>
      simp only [List.nil_append, List.cons_append, List.cons.injEq] at ht
      obtain ⟨rfl, _⟩ := ht
      exact absurd rfl hb
    | cons x t1 =>
      simp only [List.cons_append, List.cons.injEq] at ht
      obtain ⟨rfl, ht⟩ := ht
      rcases split_append ht with ⟨s, rfl, rfl⟩ | ⟨s, rfl, hs⟩
      · obtain ⟨hl, err', he, hm⟩ := (hh now).bad _ _ _ _ hx hb
        cases he
        exact ⟨s, _, rfl, hl, respMatches_of hm fun _ => allQ_runs (hn now) hx _ (by simp)⟩
      · cases s with
        | nil =>
          simp only [List.nil_append, List.cons.injEq] at hs
          obtain ⟨rfl, _⟩ := hs
          exact absurd rfl hb
        | cons y s => simp at hs
  · cases t1 with
    | nil =>
      simp only [List.nil_append, List.cons_append, List.cons.injEq] at ht
      obtain ⟨rfl, _⟩ := ht
      exact absurd rfl hb
    | cons x t1 =>
      simp only [List.cons_append, List.cons.injEq] at ht
      obtain ⟨rfl, ht⟩ := ht
      rcases split_append ht with ⟨s, rfl, rfl⟩ | ⟨s, rfl, hs⟩
      · obtain ⟨hl, err', he, hm⟩ := (hh now).bad _ _ _ _ hx hb
        cases he
      · have : e ∈ s ++ e :: t2 := by simp
        rw [← hs] at this
        simp only [List.mem_cons, List.not_mem_nil, or_false] at this
        rcases this with rfl | rfl <;> exact absurd rfl hb

theorem badEnds_bySecret {cfg r gt cid sec b} : BadEnds b (validateClientBySecret cfg r gt cid sec b) := by
  intro t1 e t2 o hr hb
  unfold validateClientBySecret at hr
  rw [Prog.bind_eq, runs_bind_ask] at hr
  obtain ⟨⟨c, er⟩, t', ht, hr⟩ := hr
  have hlf : ∀ {lv gt ev ps} {p : Prog Unit} {t o},
      Runs (tlog lv gt ev ps >>= fun _ => p >>= fun _ => (pure none : Prog (Option Client))) t o →
      (∃ resp, p = respond resp) →
      ∃ l resp, t = [logged l, wrote resp] ∧ p = respond resp := by
    rintro lv gt ev ps p t o h ⟨resp, rfl⟩
    obtain ⟨t', rfl, h'⟩ := runs_tlog_bind.1 h
    rw [Prog.bind_eq] at h'
    rcases runs_bind.1 h' with ⟨_, s1, s2, rfl, h1, h2⟩ | ⟨h1, _⟩
    · obtain ⟨rfl, _⟩ := runs_respond.1 h1
      obtain ⟨rfl, _⟩ := (show _ ∧ _ from h2)
      exact ⟨_, resp, rfl, rfl⟩
    · cases (runs_respond.1 h1).2
  have hinv : ∃ resp, failByInvalidClientError cfg b = respond resp ∧
      (∃ desc uri, resp.body = OAuthError.json ⟨.invalidClient, desc, uri⟩) ∧
      resp.status = if b = true ∧ true = true then 401 else 400 := by
    obtain ⟨uri, hu⟩ := withURI_shape cfg (OAuthError.simple .invalidClient)
    cases b
    · exact ⟨_, rfl, ⟨[], uri, by rw [hu]; rfl⟩, rfl⟩
    · exact ⟨_, rfl, ⟨[], uri, by rw [hu]; rfl⟩, rfl⟩
  have hresp : ∀ {a b : HttpResp}, respond a = respond b → a = b := by
    intro a b h
    injection h with h1 _
    injection h1
  -- the first event is the only one that can be bad
  have hfirst : ∀ {l resp}, t' = [logged l, wrote resp] →
      ((⟨.findClientById cid, (c, er)⟩ : Event).answer ≠ .good → RespMatches b ⟨.findClientById cid, (c, er)⟩ resp) →
      ∃ logs resp, t2 = logs ++ [wrote resp] ∧ (∀ l ∈ logs, l.q.isLog = true) ∧ RespMatches b e resp := by
    rintro l resp rfl hm
    cases t1 with
    | nil =>
      simp only [List.nil_append, List.cons.injEq] at ht
      obtain ⟨rfl, rfl⟩ := ht
      exact ⟨[logged l], resp, rfl, by simp [Query.isLog], hm hb⟩
    | cons x t1 =>
      simp only [List.cons_append, List.cons.injEq] at ht
      have : e ∈ t1 ++ e :: t2 := by simp
      rw [ht.2] at this
      simp only [List.mem_cons, List.not_mem_nil, or_false] at this
      rcases this with rfl | rfl <;> exact absurd rfl hb
  have hnil : t' = [] → (⟨.findClientById cid, (c, er)⟩ : Event).answer = .good → 
      ∃ logs resp, t2 = logs ++ [wrote resp] ∧ (∀ l ∈ logs, l.q.isLog = true) ∧ RespMatches b e resp := by
    rintro rfl hg
    cases t1 with
    | nil =>
      simp only [List.nil_append, List.cons.injEq] at ht
      obtain ⟨rfl, _⟩ := ht
      exact absurd hg hb
    | cons x t1 => simp at ht
  have srv : ∀ {e : Event}, e.answer ≠ .err .failed →
      RespMatches b e ⟨OAuthError.statusCode (OAuthError.simple .serverError), commonHeaders,
        (withURI cfg (OAuthError.simple .serverError)).json⟩ := by
    intro e he
    obtain ⟨uri, hu⟩ := withURI_shape cfg (OAuthError.simple .serverError)
    unfold RespMatches
    split
    · rename_i ha; exact absurd ha he
    · exact ⟨rfl, uri, by rw [hu]; rfl⟩
  rcases er with _ | er
  · rcases c with _ | c
    · obtain ⟨l, resp, rfl, he⟩ := hlf hr ⟨_, rfl⟩
      refine hfirst rfl fun _ => ?_
      rw [← hresp he]
      exact srv (e := ⟨.findClientById cid, (none, none)⟩) (by simp [Event.answer, Answer.ofPair])
    · dsimp only at hr
      split at hr
      · obtain ⟨x, hx, _⟩ := hinv
        obtain ⟨l, resp, rfl, he⟩ := hlf hr ⟨x, hx⟩
        exact hfirst rfl fun h => absurd rfl h
      · split at hr
        · obtain ⟨l, resp, rfl, he⟩ := hlf hr ⟨_, rfl⟩
          exact hfirst rfl fun h => absurd rfl h
        · exact hnil (show _ ∧ _ from hr).1 rfl
  · cases er
    · obtain ⟨l, resp, rfl, he⟩ := hlf hr ⟨_, rfl⟩
      refine hfirst rfl fun _ => ?_
      rw [← hresp he]
      exact srv (e := ⟨.findClientById cid, (c, _)⟩) (by simp [Event.answer, Answer.ofPair])
    · obtain ⟨l, resp, rfl, he⟩ := hlf hr ⟨_, rfl⟩
      refine hfirst rfl fun _ => ?_
      rw [← hresp he]
      exact srv (e := ⟨.findClientById cid, (c, _)⟩) (by simp [Event.answer, Answer.ofPair])
    · obtain ⟨x, hx, hst⟩ := hinv
      obtain ⟨l, resp, rfl, he⟩ := hlf hr ⟨x, hx⟩
      refine hfirst rfl fun _ => ?_
      rw [hx] at he
      rw [← hresp he]
      exact hst
    · obtain ⟨l, resp, rfl, he⟩ := hlf hr ⟨_, rfl⟩
      refine hfirst rfl fun _ => ?_
      rw [← hresp he]
      exact srv (e := ⟨.findClientById cid, (c, _)⟩) (by simp [Event.answer, Answer.ofPair])

theorem badEnds_byAssertion {cfg lib gt ca} : BadEnds false (validateClientByAssertion cfg lib gt ca) := by
  intro t1 e t2 o hr hb
  cases hd : lib.jwtDecode ca with
  | none =>
    rw [panics_byAssertion hd] at hr
    cases (show _ ∧ _ from hr).2
  | some tk =>
    unfold validateClientByAssertion at hr
    rw [Prog.bind_eq] at hr
    rcases runs_bind.1 hr with ⟨p, s1, s2, hs, h1, h2⟩ | ⟨_, h⟩
    · obtain ⟨p', ho, hp1, hc⟩ := parse_assertion_cases h1 hd
      cases ho
      rw [Prog.bind_eq] at h2
      rcases runs_bind.1 h2 with ⟨res, s3, s4, rfl, h3, h4⟩ | ⟨_, h⟩
      · have h4' : (∃ err, res = .error err ∧ s4 = [wrote ⟨err.statusCode, commonHeaders, (withURI cfg err).json⟩]) ∨
            (res = .ok () ∧ s4 = []) := by
          cases res with
          | error err =>
            dsimp only at h4
            rw [Prog.bind_eq] at h4
            rcases runs_bind.1 h4 with ⟨_, u1, u2, rfl, h5, h6⟩ | ⟨_, h⟩
            · obtain ⟨rfl, _⟩ := runs_respond.1 h5
              obtain ⟨rfl, _⟩ := (show _ ∧ _ from h6)
              exact .inl ⟨err, rfl, rfl⟩
            · cases h
          | ok u =>
            right
            dsimp only at h4
            split at h4
            · exact ⟨rfl, (show _ ∧ _ from h4).1⟩
            · exact ⟨rfl, (show _ ∧ _ from h4).1⟩
        -- the bad event is in the parse part or in the handle part
        rcases hc with ⟨hg, hi, hcn⟩ | ⟨e', l, err, rfl, hb', hfc, hm, hin, hve⟩
        · have hgood : Good (Assertion.handle ca gt p.2.2 p.1 p.2.1) :=
            Assertion.good_handle hi hcn (fun _ => by rw [hp1]; simp)
          rcases split_append hs with ⟨s, rfl, rfl⟩ | ⟨s, rfl, hs'⟩
          · exact absurd (hg e (by simp)) hb
          · rcases split_append hs'.symm with ⟨u, rfl, rfl⟩ | ⟨u, rfl, hs''⟩
            · obtain ⟨hl, err, he, hm⟩ := hgood.bad _ _ _ _ h3 hb
              cases he
              rcases h4' with ⟨err', he, rfl⟩ | ⟨he, _⟩
              · cases he
                exact ⟨u, _, rfl, hl, respMatches_of hm (by simp)⟩
              · cases he
            · rcases h4' with ⟨err', he, rfl⟩ | ⟨he, rfl⟩
              · have : e ∈ u ++ e :: t2 := by simp
                rw [← hs''] at this
                simp only [List.mem_singleton] at this
                subst this
                exact absurd rfl hb
              · simp at hs''
        · -- handle logs and throws err
          have hh : s3 = [logged ⟨.debug, b!"token_endpoint", gt, .assertionConditionMismatch,
              [(b!"assertion", ca)]⟩] ∧ res = .error err := by
            rw [hve] at h3
            simp only [Assertion.handle, Assertion.onJwtErr, if_true] at h3
            rw [xrun_bind] at h3
            rcases runs_bind.1 h3 with ⟨x, u1, u2, rfl, h5, h6⟩ | ⟨_, h⟩
            · have h5' : Runs (ExceptT.lift (tlog .debug gt .assertionConditionMismatch
                [(b!"assertion", ca)]) : GrantM Unit).run u1 (.ok x) := h5
              rw [xrun_lift] at h5'
              rcases runs_bind.1 h5' with ⟨_, v1, v2, rfl, h7, h8⟩ | ⟨h7, _⟩
              · obtain ⟨_, rfl, _⟩ := runs_ask.1 h7
                obtain ⟨rfl, hx⟩ := (show _ ∧ _ from h8)
                cases hx
                obtain ⟨rfl, hx⟩ := (show _ ∧ _ from h6)
                cases hx
                exact ⟨rfl, rfl⟩
              · exact absurd h7 (noPanic_ask _)
            · cases h
          obtain ⟨rfl, rfl⟩ := hh
          rcases h4' with ⟨err', he, rfl⟩ | ⟨he, rfl⟩
          · cases he
            cases t1 with
            | nil =>
              simp only [List.nil_append, List.cons_append, List.cons.injEq] at hs
              obtain ⟨rfl, rfl⟩ := hs
              exact ⟨[logged l, logged _], _, rfl, by simp [Query.isLog], respMatches_of hm (by simp)⟩
            | cons x t1 =>
              simp only [List.cons_append, List.nil_append, List.cons.injEq] at hs
              have : e ∈ t1 ++ e :: t2 := by simp
              rw [hs.2] at this
              simp only [List.mem_cons, List.not_mem_nil, or_false] at this
              rcases this with rfl | rfl | rfl <;> exact absurd rfl hb
          · cases he
      · cases h
    · cases h

theorem builtIn_noFindClient {lib h} (hb : BuiltIn lib h) {r c now} :
    AllQ (fun q => q.isFindClient = false) (h r c now).run := by
  cases hb
  · apply Grant.allQ_authorizationCode <;> intros <;> rfl
  · apply Grant.allQ_refreshToken <;> intros <;> rfl
  · apply Grant.allQ_password <;> intros <;> rfl
  · apply Grant.allQ_clientCredentials <;> intros <;> rfl
  · apply Grant.allQ_jwt <;> intros <;> rfl

/-- The flag of `findClientCredential` says whether the header was used. -/
theorem findClientCredential_flag {cfg : TokenCfg} {r cid sec b} (h : findClientCredential cfg r = some (cid, sec, b)) :
    b = r.basicAuth.isSome := by
  unfold findClientCredential at h
  split at h
  · rename_i hb
    cases h
    rw [hb]; rfl
  · rename_i hb
    rw [hb]
    split at h
    · cases h
    · dsimp only at h
      split at h <;> cases h
      rfl
    · dsimp only at h
      split at h <;> cases h
      rfl
    · cases h

theorem findClientCredential_none_basic {cfg : TokenCfg} {r} (h : findClientCredential cfg r = none) :
    r.basicAuth = none := by
  unfold findClientCredential at h
  split at h
  · cases h
  · assumption

theorem badEnds_then {hdr} {p : Prog (Option Client)} {f : Client → Prog Unit} (hp : BadEnds hdr p)
    (hg : ∀ t c, Runs p t (.ok (some c)) → NoWrite t)
    (hf : ∀ c, BadEnds hdr (f c)) :
    BadEnds hdr (p >>= fun o => match o with | some c => f c | none => pure ()) := by
  intro t1 e t2 o hr hb
  rcases runs_then hr with h | ⟨c, s1, s2, hs, h1, h2⟩
  · exact hp _ _ _ _ h hb
  · rcases split_append hs with ⟨s, rfl, rfl⟩ | ⟨s, rfl, rfl⟩
    · obtain ⟨logs, resp, rfl, _⟩ := hp _ _ _ _ h1 hb
      have := hg _ _ h1 (wrote resp) (by simp)
      exact absurd this (by simp [Query.isWrite])
    · exact hf c _ _ _ _ h2 hb

theorem badEnds_handler {cfg : TokenCfg} {lib r} (hb : ∀ h, Registered cfg r h → BuiltIn lib h) :
    BadEnds r.basicAuth.isSome (handler cfg lib r) := by
  unfold handler
  have hlr : ∀ {lv gt ev ps} {resp : HttpResp}, BadEnds r.basicAuth.isSome (tlog lv gt ev ps >>= fun _ => respond resp) :=
    badEnds_of_good (allQ_bind (allQ_ask fun _ => rfl) fun _ => allQ_ask fun _ => rfl)
  have hw : ∀ {p : Prog (Option Client)}, Writes (fun o => o = none) p → ∀ t c, Runs p t (.ok (some c)) →
      NoWrite t := by
    intro p hp t c h
    rcases hp.ok h with ⟨h, _⟩ | ⟨_, h⟩
    · cases h
    · exact h
  split
  · exact hlr
  · dsimp only
    split
    · exact hlr
    · split
      · exact hlr
      · rename_i h hh
        split
        · rename_i hcr
          rw [← findClientCredential_flag hcr]
          exact badEnds_then badEnds_bySecret (hw writes_bySecret) fun c =>
            badEnds_execute (fun now => builtIn_good (hb h hh) _ _ _) fun now => builtIn_noFindClient (hb h hh)
        · rename_i hcr
          have hlr' := @hlr
          rw [findClientCredential_none_basic hcr] at hlr' ⊢
          split
          · exact badEnds_then badEnds_byAssertion (hw writes_byAssertion) fun c =>
              badEnds_execute (fun now => builtIn_good (hb h hh) _ _ _) fun now => builtIn_noFindClient (hb h hh)
          · exact hlr'

end Goidc
