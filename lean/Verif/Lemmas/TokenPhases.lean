import Verif.Lemmas.GrantAnatomy

/-! # The two phases of a token request, for arbitrary runs -/

namespace Goidc

open Spec TokenEndpoint

variable {cfg : TokenCfg} {lib : Lib} {r : Req} {pre post t : List Event} {resp : HttpResp}

/-- A call made before a client is authenticated (or to answer). -/
def PhaseOne (q : Query) : Prop := IsAuthCall q ∨ q = .wallNow ∨ q.isLog = true ∨ q.isWrite = true

theorem allQ_bySecret {P : Query → Prop} (hl : ∀ l, P (.log l)) (hw : ∀ x, P (.write x)) (hf : ∀ c, P (.findClientById c))
    {gt cid sec b} : AllQ P (validateClientBySecret cfg r gt cid sec b) := by
  have hlf : ∀ {lv gt ev ps} {p : Prog Unit}, AllQ P p →
      AllQ P (tlog lv gt ev ps >>= fun _ => p >>= fun _ => (pure none : Prog (Option Client))) :=
    fun hp => allQ_bind (allQ_tlog hl) fun _ => allQ_bind hp fun _ => trivial
  have hfail : ∀ e, AllQ P (fail cfg e) := fun e => allQ_ask (hw _)
  have hinv : AllQ P (failByInvalidClientError cfg b) := by
    unfold failByInvalidClientError
    split
    · exact allQ_ask (hw _)
    · exact hfail _
  unfold validateClientBySecret
  refine allQ_bind (allQ_ask (hf _)) fun ⟨c, e⟩ => ?_
  rcases e with _ | e
  · rcases c with _ | c
    · exact hlf (hfail _)
    · dsimp only
      split
      · exact hlf hinv
      · split
        · exact hlf (hfail _)
        · trivial
  · cases e
    · exact hlf (hfail _)
    · exact hlf (hfail _)
    · exact hlf hinv
    · exact hlf (hfail _)

theorem phaseOne_bySecret {gt cid sec b} : AllQ PhaseOne (validateClientBySecret cfg r gt cid sec b) :=
  allQ_bySecret (fun _ => .inr (.inr (.inl rfl))) (fun _ => .inr (.inr (.inr rfl))) fun _ => .inl trivial

theorem phaseOne_byAssertion {gt ca} : AllQ PhaseOne (validateClientByAssertion cfg lib gt ca) := by
  have hl : ∀ l, PhaseOne (.log l) := fun _ => .inr (.inr (.inl rfl))
  unfold validateClientByAssertion
  refine allQ_bind (allQ_parse (.inr (.inl rfl)) fun _ => allQ_assertionKeyFunc hl fun _ => .inl trivial)
    fun p => allQ_bind (allQ_handle hl (.inl trivial) fun _ _ _ _ _ => .inl trivial) fun res => ?_
  cases res with
  | error e => exact allQ_bind (allQ_ask (.inr (.inr (.inr rfl)))) fun _ => trivial
  | ok u => dsimp only; split <;> trivial

theorem runs_then' {p : Prog (Option Client)} {f : Client → Prog Unit} {t : List Event} {o}
    (h : Runs (p >>= fun o => match o with | some c => f c | none => pure ()) t o) :
    (Runs p t (.ok none) ∨ Runs p t .panic) ∨
      ∃ c t1 t2, t = t1 ++ t2 ∧ Runs p t1 (.ok (some c)) ∧ Runs (f c) t2 o := by
  rw [Prog.bind_eq] at h
  rcases runs_bind.1 h with ⟨x, t1, t2, rfl, h1, h2⟩ | ⟨h, _⟩
  · cases x with
    | none =>
      obtain ⟨rfl, _⟩ := h2
      exact .inl (.inl (by simpa using h1))
    | some c => exact .inr ⟨c, t1, t2, rfl, h1, h2⟩
  · exact .inl (.inr h)

/-- Every run: refused in the first phase, or authenticated and handed to the grant handler. -/
theorem runs_phases {o} (h : Runs (handler cfg lib r) t o) :
    (∀ e ∈ t, PhaseOne e.q) ∨
    (r.method = b!"POST" ∧ r.formValue b!"grant_type" ≠ [] ∧ ∃ hf c t1 t2,
      Registered cfg r hf ∧ t = t1 ++ t2 ∧ AuthTrace cfg lib r c t1 ∧
      Runs (executeGrantHandler cfg r c (r.formValue b!"grant_type") hf) t2 o) := by
  have hl : ∀ l, PhaseOne (.log l) := fun _ => .inr (.inr (.inl rfl))
  have hlr : ∀ {lv gt ev ps} {resp : HttpResp} {t o},
      Runs (tlog lv gt ev ps >>= fun _ => respond resp) t o → ∀ e ∈ t, PhaseOne e.q :=
    fun hr => allQ_runs (allQ_bind (allQ_tlog hl) fun _ => allQ_ask (.inr (.inr (.inr rfl)))) hr
  unfold handler at h
  split at h
  · exact .inl (hlr h)
  · rename_i hm
    dsimp only at h
    split at h
    · exact .inl (hlr h)
    · rename_i hgt
      split at h
      · exact .inl (hlr h)
      · rename_i hf hh
        split at h
        · rename_i cid sec b hc
          rcases runs_then' h with h | ⟨c, t1, t2, rfl, h1, h2⟩
          · exact .inl (h.elim (allQ_runs phaseOne_bySecret) (allQ_runs phaseOne_bySecret))
          · obtain ⟨rfl, hms, hcg⟩ := runs_bySecret.1 h1
            exact .inr ⟨Decidable.of_not_not hm, hgt, hf, c, _, t2, hh, rfl,
              .secret cid sec b (findClientCredential_iff.1 hc) rfl hms hcg, h2⟩
        · rename_i hc
          split at h
          · rename_i ca hca
            have hacc : cfg.acceptClientAssertion = true ∧ findClientAssertion r = some ca := by
              by_cases ha : cfg.acceptClientAssertion = true
              · rw [if_pos ha] at hca; exact ⟨ha, hca⟩
              · rw [if_neg ha] at hca; cases hca
            rcases runs_then' h with h | ⟨c, t1, t2, rfl, h1, h2⟩
            · exact .inl (h.elim (allQ_runs phaseOne_byAssertion) (allQ_runs phaseOne_byAssertion))
            · exact .inr ⟨Decidable.of_not_not hm, hgt, hf, c, t1, t2, hh, rfl,
                .assertion ca (findClientCredential_none.1 hc) hacc.1
                  (findClientAssertion_iff.1 hacc.2) h1, h2⟩
          · exact .inl (hlr h)

/-- A call made in the second phase: the client authenticated before it. -/
theorem phase_two {e : Event} (h : Steps (handler cfg lib r) (pre ++ e :: post)) (he : ¬ PhaseOne e.q) :
    ∃ hf c t1 mid, Registered cfg r hf ∧ pre = t1 ++ mid ∧ AuthTrace cfg lib r c t1 ∧
      Steps (executeGrantHandler cfg r c (r.formValue b!"grant_type") hf) (mid ++ e :: post) := by
  obtain ⟨t', o, hr⟩ := steps_complete h
  rcases runs_phases hr with h1 | ⟨_, _, hf, c, t1, t2, hreg, heq, ha, hx⟩
  · exact absurd (h1 e (by simp)) he
  · have hne : e ∉ t1 := fun hm => by
      rcases (authTrace_authenticated ha).2 e hm with h | h
      · exact he (.inl h)
      · exact he (.inr (.inl h))
    rw [List.append_assoc] at heq
    rcases List.append_eq_append_iff.1 heq with ⟨as, h1, h2⟩ | ⟨bs, h1, h2⟩
    · cases as with
      | nil =>
        refine ⟨hf, c, t1, [], hreg, by simpa using h1.symm, ha, ?_⟩
        have : t2 = (e :: post) ++ t' := by simpa using h2.symm
        rw [this] at hx
        exact steps_of_append (t' := t') (by simpa using runs_steps hx)
      | cons a as =>
        simp only [List.cons_append, List.cons.injEq] at h2
        exact absurd (by rw [h1, h2.1]; simp) hne
    · refine ⟨hf, c, t1, bs, hreg, h1, ha, ?_⟩
      rw [h2] at hx
      exact steps_of_append (t' := t') (by simpa using runs_steps hx)

end Goidc
