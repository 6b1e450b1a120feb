import Verif.Lemmas.TokenJwt

/-! # The token endpoint follows its decision table -/

namespace Goidc

open Spec Props TokenEndpoint

variable {α β : Type} {cfg : TokenCfg} {lib : Lib} {r : Req}

/-! ## Bodies -/

theorem toValid_nil {s : GoStr} : toValid s = [] ↔ s = [] := by
  constructor
  · intro h
    cases s with
    | nil => rfl
    | cons a s =>
      unfold toValid runes at h
      simp only [List.length_cons, runesAux] at h
      split at h
      · simp [utf8_ne_nil] at h
      · simp [utf8_ne_nil] at h
  · rintro rfl; rfl

theorem withURI_eq {e : OAuthError} (hu : e.uri = []) :
    (withURI cfg e).type = e.type ∧ (withURI cfg e).description = e.description ∧
      (withURI cfg e).uri = errorURI cfg.errorURIBuilder e.type := by
  unfold withURI errorURI
  rw [if_pos hu]
  cases cfg.errorURIBuilder with
  | none => exact ⟨rfl, rfl, hu⟩
  | some f => exact ⟨rfl, rfl, rfl⟩

theorem json_valid (e : OAuthError) :
    JsonText e.json (.obj (errorMembers e.type.string (toValid e.description) (toValid e.uri))) := by
  have h := jsonText_of_raw (robj_join _ (by simp [errorFields]) (error_ok e))
  rw [← error_json] at h
  have k1 : toValid b!"error" = b!"error" := by decide +kernel
  have k2 : toValid b!"error_description" = b!"error_description" := by decide +kernel
  have k3 : toValid b!"error_uri" = b!"error_uri" := by decide +kernel
  have hc := value_str (valid_ascii (code_ascii e.type))
  have eq : (Json.obj ((errorFields e).map fun x => (x.key, x.value))).value =
      .obj (errorMembers e.type.string (toValid e.description) (toValid e.uri)) := by
    simp only [Json.value, membersValue_map, List.map_map]
    congr 1
    simp only [Json.value, Spec.JVal.str.injEq, unquote_rawOf] at hc
    unfold errorFields errorMembers
    simp only [toValid_nil]
    split <;> split <;> simp [Field.ofStr, k1, k2, k3, hc, Json.value, unquote_rawOf]
  rw [eq] at h
  exact h

theorem errorBody_withURI {e : OAuthError} (hu : e.uri = []) : ErrorBody cfg e.type e.description (withURI cfg e).json := by
  obtain ⟨h1, h2, h3⟩ := withURI_eq (cfg := cfg) hu
  have h := json_valid (withURI cfg e)
  rw [h1, h2, h3] at h
  exact ⟨_, _, toValid_nil, toValid_of_valid, toValid_nil, toValid_of_valid, h⟩

theorem statusCode_token {e : OAuthErrorType} (h : tokenErr e = true) :
    e.statusCode = if e = .serverError then 500 else 400 := by
  cases e <;> first | rfl | cases h

theorem says_fail {e : OAuthError} (h : OkErr e) :
    Says cfg ⟨e.statusCode, commonHeaders, (withURI cfg e).json⟩ (.refused e.type e.description) :=
  ⟨statusCode_token h.2, List.Perm.refl _, errorBody_withURI h.1⟩

theorem says_challenge :
    Says cfg ⟨401, (b!"WWW-Authenticate", b!"Basic realm=\"" ++ cfg.realm ++ b!"\"") :: commonHeaders,
      (withURI cfg (OAuthError.simple .invalidClient)).json⟩ .challenged :=
  ⟨rfl, List.Perm.refl _, errorBody_withURI (e := OAuthError.simple .invalidClient) rfl⟩

theorem says_success {y : Yield} : Says cfg ⟨200, commonHeaders, (yieldResponse y).json⟩ (.granted y.1 y.2.1 y.2.2) :=
  ⟨rfl, List.Perm.refl _, fun h1 h2 h3 h4 => C61_response (yieldResponse y) rfl h1 h2 h3 h4⟩

/-- What a relation between responses and replies must hold of, for the table to describe the handler. -/
structure Renders (cfg : TokenCfg) (S : HttpResp → Reply → Prop) : Prop where
  fail : ∀ {e : OAuthError}, OkErr e → S ⟨e.statusCode, commonHeaders, (withURI cfg e).json⟩ (.refused e.type e.description)
  challenge : S ⟨401, (b!"WWW-Authenticate", b!"Basic realm=\"" ++ cfg.realm ++ b!"\"") :: commonHeaders,
    (withURI cfg (OAuthError.simple .invalidClient)).json⟩ .challenged
  success : ∀ {y : Yield}, S ⟨200, commonHeaders, (yieldResponse y).json⟩ (.granted y.1 y.2.1 y.2.2)
  wrongMethod : S ⟨405, [], []⟩ .wrongMethod

theorem renders_says : Renders cfg (Says cfg) := ⟨says_fail, says_challenge, says_success, ⟨rfl, rfl, rfl⟩⟩

variable {S : HttpResp → Reply → Prop}

/-! ## Phases -/

/-- A phase that finds the client, or answers the request itself. -/
def CF (S : HttpResp → Reply → Prop) (p : Prog (Option Client)) (R : Table Client) : Prop := ∀ t o, Runs p t o →
  (∀ c, o = .ok (some c) → R (interactions t) (.inl c)) ∧
  (o = .ok none → ∃ calls e, R calls (.inr e) ∧ RepliesBy S t (.ok ()) calls e) ∧
  (o = .panic → R (interactions t) (.inr .crash))

/-- A program that answers the request as the table says. -/
def PF (S : HttpResp → Reply → Prop) (p : Prog Unit) (R : Table Empty) : Prop := ∀ t o, Runs p t o →
  ∃ calls e, R calls (.inr e) ∧ RepliesBy S t o calls e

theorem repliesWith_prepend {t s o calls e} (h : RepliesBy S t o calls e) :
    RepliesBy S (s ++ t) o (interactions s ++ calls) e := by
  rcases h with ⟨resp, h1, h2, h3⟩ | ⟨h1, h2, h3⟩
  · exact .inl ⟨resp, by rw [interactions_append, h1, List.append_assoc], h2, h3⟩
  · exact .inr ⟨h1, by rw [interactions_append, h2], h3⟩

theorem interactions_wrote {resp : HttpResp} : interactions [wrote resp] = [wrote resp] := rfl

theorem pf_respond {resp : HttpResp} {e} (h : S resp e) {R : Table Empty} (hr : R [] (.inr e)) : PF S (respond resp) R := by
  intro t o hx
  obtain ⟨rfl, rfl⟩ := runs_respond.1 hx
  exact ⟨[], e, hr, .inl ⟨resp, rfl, rfl, h⟩⟩

theorem pf_log {lv gt ev ps} {f : Unit → Prog Unit} {R : Table Empty} (h : PF S (f ()) R) :
    PF S (tlog lv gt ev ps >>= f) R := by
  intro t o hr
  obtain ⟨t', rfl, hr'⟩ := runs_tlog_bind.1 hr
  obtain ⟨calls, e, h1, h2⟩ := h t' o hr'
  exact ⟨calls, e, h1, h2⟩

theorem pf_head {p : Prog Unit} {a : α} {R : Table α} {T : α → Table Empty} (h0 : R [] (.inl a)) (h : PF S p (T a)) :
    PF S p (R >>= T) := by
  intro t o hr
  obtain ⟨calls, e, h1, h2⟩ := h t o hr
  exact ⟨calls, e, table_next (c := []) h0 h1, h2⟩

theorem pf_observe {q : Query} {f : q.Resp → Prog Unit} {T : q.Resp → Table Empty} (hq : counts q = true)
    (h : ∀ x, PF S (f x) (T x)) : PF S (ask q >>= f) (observe q >>= T) := by
  intro t o hr
  rw [Prog.bind_eq, runs_bind_ask] at hr
  obtain ⟨x, t', rfl, hr'⟩ := hr
  obtain ⟨calls, e, h1, h2⟩ := h x t' o hr'
  refine ⟨⟨q, x⟩ :: calls, e, table_next (c := [⟨q, x⟩]) ⟨x, rfl, rfl⟩ h1, ?_⟩
  have := repliesWith_prepend (s := [⟨q, x⟩]) h2
  rwa [interactions_cons hq] at this

theorem pf_client {p : Prog (Option Client)} {f : Client → Prog Unit} {R : Table Client} {T : Client → Table Empty}
    (h : CF S p R) (hf : ∀ c, PF S (f c) (T c)) :
    PF S (p >>= fun o => match o with | some c => f c | none => pure ()) (R >>= T) := by
  intro t o hr
  rw [Prog.bind_eq, runs_bind] at hr
  rcases hr with ⟨x, t1, t2, rfl, h1, h2⟩ | ⟨h1, rfl⟩
  · cases x with
    | none =>
      obtain ⟨rfl, rfl⟩ := h2
      obtain ⟨calls, e, k1, k2⟩ := (h _ _ h1).2.1 rfl
      rw [List.append_nil]
      exact ⟨calls, e, table_end k1, k2⟩
    | some c =>
      have k := (h _ _ h1).1 c rfl
      obtain ⟨calls, e, k1, k2⟩ := hf c t2 o h2
      exact ⟨_, e, table_next k k1, repliesWith_prepend k2⟩
  · exact ⟨_, _, table_end ((h _ _ h1).2.2 rfl), .inr ⟨rfl, rfl, rfl⟩⟩

/-! ### Answers of a phase -/

theorem cf_answer {lv gt ev ps} {q : Query} {x : q.Resp} {p : Prog Unit} {R : Table Client} {e : Reply}
    (hq : counts q = true) (hp : ∀ t o, Runs p t o → ∃ resp, t = [wrote resp] ∧ o = .ok () ∧ S resp e)
    (h : R [⟨q, x⟩] (.inr e)) {t o}
    (hr : Runs (tlog lv gt ev ps >>= fun _ => p >>= fun _ => (pure none : Prog (Option Client))) t o) :
    (∀ c, o = .ok (some c) → R (interactions (⟨q, x⟩ :: t)) (.inl c)) ∧
    (o = .ok none → ∃ calls e, R calls (.inr e) ∧ RepliesBy S (⟨q, x⟩ :: t) (.ok ()) calls e) ∧
    (o = .panic → R (interactions (⟨q, x⟩ :: t)) (.inr .crash)) := by
  obtain ⟨t', rfl, hr'⟩ := runs_tlog_bind.1 hr
  rw [Prog.bind_eq, runs_bind] at hr'
  rcases hr' with ⟨_, t1, t2, rfl, h1, rfl, rfl⟩ | ⟨h1, rfl⟩
  · obtain ⟨resp, rfl, _, hs⟩ := hp _ _ h1
    refine ⟨by rintro _ ⟨⟩, fun _ => ⟨_, e, h, .inl ⟨resp, ?_, rfl, hs⟩⟩, by rintro ⟨⟩⟩
    rw [interactions_cons hq]
    rfl
  · obtain ⟨_, _, h2, _⟩ := hp _ _ h1
    cases h2

theorem answers_fail (hS : Renders cfg S) {e : OAuthError} (h : OkErr e) {t o} (hr : Runs (fail cfg e) t o) :
    ∃ resp, t = [wrote resp] ∧ o = .ok () ∧ S resp (.refused e.type e.description) := by
  obtain ⟨rfl, rfl⟩ := runs_respond.1 hr
  exact ⟨_, rfl, rfl, hS.fail h⟩

theorem answers_invalid (hS : Renders cfg S) {b : Bool} {t o} (hr : Runs (failByInvalidClientError cfg b) t o) :
    ∃ resp, t = [wrote resp] ∧ o = .ok () ∧ S resp (if b then .challenged else .refused .invalidClient []) := by
  unfold failByInvalidClientError at hr
  cases b with
  | true =>
    obtain ⟨rfl, rfl⟩ := runs_respond.1 hr
    exact ⟨_, rfl, rfl, hS.challenge⟩
  | false => exact answers_fail hS ⟨rfl, rfl⟩ hr

theorem cf_bySecret (hS : Renders cfg S) {cid sec b} :
    CF S (validateClientBySecret cfg r (r.formValue b!"grant_type") cid sec b) (clientBySecret r cid sec b) := by
  intro t o hr
  unfold validateClientBySecret at hr
  rw [Prog.bind_eq, runs_bind_ask] at hr
  obtain ⟨⟨v, err⟩, t', rfl, hr'⟩ := hr
  have hok : ∀ {e : OAuthErrorType}, tokenErr e = true → OkErr (OAuthError.simple e) := fun h => ⟨rfl, h⟩
  cases err with
  | some err =>
    cases err with
    | failed =>
      refine cf_answer (by rfl) (fun _ _ => answers_invalid hS) ?_ hr'
      exact table_end (.refused rfl)
    | unsupported =>
      exact cf_answer (by rfl) (fun _ _ => answers_fail hS ⟨rfl, rfl⟩) (table_end (.failed rfl (by simp))) hr'
    | serverError =>
      exact cf_answer (by rfl) (fun _ _ => answers_fail hS ⟨rfl, rfl⟩) (table_end (.failed rfl (by simp))) hr'
    | other n =>
      exact cf_answer (by rfl) (fun _ _ => answers_fail hS ⟨rfl, rfl⟩) (table_end (.failed rfl (by simp))) hr'
  | none =>
    cases v with
    | none => exact cf_answer (by rfl) (fun _ _ => answers_fail hS ⟨rfl, rfl⟩) (table_end (.nothing rfl)) hr'
    | some c =>
      have h0 : Obtain (.findClientById cid) id (if b then Reply.challenged else .refused .invalidClient [])
          [⟨.findClientById cid, (some c, none)⟩] (.inl c) := .value rfl
      dsimp only at hr'
      split at hr'
      · rename_i hm
        refine cf_answer (by rfl) (fun _ _ => answers_invalid hS) ?_ hr'
        exact table_next (c' := []) h0 (table_end (endIf_pos hm))
      · rename_i hm
        split at hr'
        · rename_i hg
          refine cf_answer (by rfl) (fun _ _ => answers_fail hS ⟨rfl, rfl⟩) ?_ hr'
          exact table_next (c' := []) h0 (table_next (c := []) (endIf_neg hm) (table_end (endIf_pos hg)))
        · rename_i hg
          obtain ⟨rfl, rfl⟩ := hr'
          refine ⟨?_, by rintro ⟨⟩, by rintro ⟨⟩⟩
          rintro _ ⟨⟩
          exact table_next (c' := []) h0 (table_next (c := []) (endIf_neg hm)
            (table_next (c := []) (endIf_neg hg) table_pure))

theorem byAssertion_eq {gt ca} : validateClientByAssertion cfg lib gt ca =
    ((assertedClient lib gt ca).run >>= fun x => match x with
      | .error e => fail cfg e >>= fun _ => pure none
      | .ok c => pure (some c)) := by
  unfold validateClientByAssertion assertedClient
  rw [xrun_bind, xrun_lift]
  simp only [Prog.bind_eq, Prog.bind_assoc]
  congr 1
  funext p
  show _ = Prog.bind (ExceptT.run (_ >>= _)) _
  rw [xrun_bind, Prog.bind_assoc]
  congr 1
  funext x
  cases x with
  | error e => rfl
  | ok u => cases p.2.2 <;> rfl

theorem cf_byAssertion (hS : Renders cfg S) {gt ca} : CF S (validateClientByAssertion cfg lib gt ca) (clientByAssertion lib ca) := by
  intro t o hr
  rw [byAssertion_eq, Prog.bind_eq, runs_bind] at hr
  rcases hr with ⟨x, t1, t2, rfl, h1, h2⟩ | ⟨h1, rfl⟩
  · cases x with
    | ok c =>
      obtain ⟨rfl, rfl⟩ := h2
      rw [List.append_nil]
      refine ⟨?_, by rintro ⟨⟩, by rintro ⟨⟩⟩
      rintro _ ⟨⟩
      exact (gf_assertedClient _ _ h1).1 c rfl
    | error e =>
      obtain ⟨k1, k2⟩ := (gf_assertedClient _ _ h1).2.1 e rfl
      dsimp only at h2
      rw [Prog.bind_eq, runs_bind] at h2
      rcases h2 with ⟨_, t3, t4, rfl, h3, rfl, rfl⟩ | ⟨h3, rfl⟩
      · obtain ⟨resp, rfl, _, hs⟩ := answers_fail hS k1 h3
        refine ⟨by rintro _ ⟨⟩, fun _ => ⟨_, _, k2, .inl ⟨resp, ?_, rfl, hs⟩⟩, by rintro ⟨⟩⟩
        rw [interactions_append]
        rfl
      · obtain ⟨_, _, h, _⟩ := answers_fail hS k1 h3
        cases h
  · refine ⟨by rintro _ ⟨⟩, by rintro ⟨⟩, fun _ => (gf_assertedClient _ _ h1).2.2 rfl⟩

/-! ## The handler -/

theorem pf_execute (hS : Renders cfg S) {c : Client} {gt : GoStr} (kind : GrantKind) :
    PF S (executeGrantHandler cfg r c gt (kind.handler lib)) (do
      let now ← observe .now
      let y ← grantTable lib r c now kind
      reply (.granted y.1 y.2.1 y.2.2)) := by
  unfold executeGrantHandler
  refine pf_observe rfl fun now => ?_
  intro t o hr
  rw [Prog.bind_eq, runs_bind] at hr
  rcases hr with ⟨x, t1, t2, rfl, h1, h2⟩ | ⟨h1, rfl⟩
  · cases x with
    | ok res =>
      have k := (gy_grant kind _ _ h1).1 res rfl
      rw [table_bind] at k
      rcases k with ⟨_, k, _⟩ | ⟨c1, c2, y, hc, k1, rfl, k2⟩
      · cases k
      · cases k2
        rw [List.append_nil] at hc
        obtain ⟨t3, rfl, h3⟩ := runs_tlog_bind.1 h2
        obtain ⟨rfl, rfl⟩ := runs_respond.1 h3
        refine ⟨c1, _, ?_, .inl ⟨_, ?_, rfl, hS.success (y := y)⟩⟩
        · have := table_next (S := fun y => reply (.granted y.1 y.2.1 y.2.2)) (c' := []) k1 ⟨rfl, rfl⟩
          rwa [List.append_nil] at this
        · rw [interactions_append, hc]
          rfl
    | error e =>
      obtain ⟨k1, k2⟩ := (gy_grant kind _ _ h1).2.1 e rfl
      obtain ⟨resp, rfl, rfl, hs⟩ := answers_fail hS k1 h2
      rw [table_bind] at k2
      rcases k2 with ⟨e', ⟨⟩, k2⟩ | ⟨c1, c2, y, hc, _, _, k2⟩
      · refine ⟨_, _, table_end k2, .inl ⟨resp, ?_, rfl, hs⟩⟩
        rw [interactions_append]
        rfl
      · cases k2
  · have k := (gy_grant kind _ _ h1).2.2 rfl
    rw [table_bind] at k
    rcases k with ⟨e', ⟨⟩, k2⟩ | ⟨c1, c2, y, hc, _, _, k2⟩
    · exact ⟨_, _, table_end k2, .inr ⟨rfl, rfl, rfl⟩⟩
    · cases k2

theorem pf_handler (hS : Renders cfg S) {kind : GrantKind} (hk : ∀ h, Registered cfg r h → h = kind.handler lib) :
    PF S (handler cfg lib r) (tokenTable cfg lib r kind) := by
  unfold handler tokenTable
  split
  · rename_i hm
    exact pf_log (pf_respond hS.wrongMethod (table_end (endIf_pos hm)))
  · rename_i hm
    refine pf_head (endIf_neg hm) ?_
    dsimp only
    split
    · rename_i hg
      exact pf_log (pf_respond (hS.fail ⟨rfl, rfl⟩) (table_end (endIf_pos hg)))
    · rename_i hg
      refine pf_head (endIf_neg hg) ?_
      split
      · rename_i hh
        refine pf_log (pf_respond (hS.fail ⟨rfl, rfl⟩) (table_end (endIf_pos ?_)))
        intro h hr
        have hr : lookupHandler cfg.handlers (r.formValue b!"grant_type") = some h := hr
        rw [hh] at hr
        cases hr
      · rename_i hf hh
        cases hk hf hh
        refine pf_head (endIf_neg fun hx => hx _ hh) ?_
        unfold clientOf
        split
        · rename_i cid sec b hc
          rw [table_assoc]
          refine pf_head (a := .secret cid sec b) (find_some (a := Credential.secret cid sec b) (findClientCredential_iff.1 hc)) ?_
          exact pf_client (cf_bySecret hS) fun c => pf_execute hS kind
        · rename_i hc
          split
          · rename_i ca hca
            have hacc : cfg.acceptClientAssertion = true ∧ findClientAssertion r = some ca := by
              by_cases ha : cfg.acceptClientAssertion = true
              · rw [if_pos ha] at hca; exact ⟨ha, hca⟩
              · rw [if_neg ha] at hca; cases hca
            rw [table_assoc]
            refine pf_head (a := .assertion ca) (find_some (a := Credential.assertion ca) ⟨findClientCredential_none.1 hc, hacc.1,
              findClientAssertion_iff.1 hacc.2⟩) ?_
            exact pf_client (cf_byAssertion hS) fun c => pf_execute hS kind
          · rename_i hca
            refine pf_log (pf_respond hS.challenge (table_end (table_end (find_none ?_))))
            rintro (⟨cid, sec, b⟩ | ⟨a⟩) hx
            · exact findClientCredential_none.1 hc cid sec b hx
            · obtain ⟨_, h2, h3⟩ := hx
              rw [if_pos h2, findClientAssertion_iff.2 h3] at hca
              cases hca

end Goidc
