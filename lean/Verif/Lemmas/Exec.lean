import Verif.Lemmas.Writes

/-! # Running a program against a concrete outside world

Used to exhibit reachable states next to the theorems and to state the negation of false properties. -/

namespace Goidc

variable {α σ : Type}

/-- Run `p` against a world with state `s` and answering function `h`. -/
def exec (h : σ → (q : Query) → q.Resp × σ) : Prog α → σ → List Event × Outcome α × σ
  | .ret a, s => ([], .ok a, s)
  | .panic, s => ([], .panic, s)
  | .call q k, s =>
    let (r, s') := h s q
    let (t, o, s'') := exec h (k r) s'
    (⟨q, r⟩ :: t, o, s'')

theorem exec_runs (h : σ → (q : Query) → q.Resp × σ) (p : Prog α) (s : σ) :
    Runs p (exec h p s).1 (exec h p s).2.1 := by
  induction p generalizing s with
  | ret a => exact ⟨rfl, rfl⟩
  | panic => exact ⟨rfl, rfl⟩
  | call q k ih => exact ⟨_, _, rfl, ih _ _⟩

/-- A world without state. -/
def pureWorld (h : (q : Query) → q.Resp) : Unit → (q : Query) → q.Resp × Unit := fun _ q => (h q, ())

/-- In a world without state every call is answered by its answering function. -/
theorem exec_answers (h : (q : Query) → q.Resp) (p : Prog α) :
    ∀ e ∈ (exec (pureWorld h) p ()).1, e.r = h e.q := by
  induction p with
  | ret a => simp [exec]
  | panic => simp [exec]
  | call q k ih =>
    intro e he
    simp only [exec, pureWorld, List.mem_cons] at he
    rcases he with rfl | he
    · rfl
    · exact ih _ _ he

/-- The response written last, if the last call is a write. -/
def lastWrite (t : List Event) : Option HttpResp :=
  match t.getLast? with
  | some ⟨.write r, _⟩ => some r
  | _ => none

theorem lastWrite_eq {t : List Event} {r : HttpResp} (h : lastWrite t = some r) :
    ∃ pre, t = pre ++ [wrote r] := by
  unfold lastWrite at h
  rcases List.eq_nil_or_concat t with rfl | ⟨pre, ⟨q, a⟩, rfl⟩
  · simp at h
  · rw [List.concat_eq_append, List.getLast?_concat] at h
    cases q <;> simp at h
    subst h
    exact ⟨pre, List.concat_eq_append ..⟩

/-- A run ending with a written response. -/
theorem exec_wrote {h : σ → (q : Query) → q.Resp × σ} {p : Prog α} {s : σ} {P : HttpResp → Prop}
    (hw : ∃ r, lastWrite (exec h p s).1 = some r ∧ P r) :
    ∃ pre resp, Steps p (pre ++ [wrote resp]) ∧ P resp := by
  obtain ⟨r, hr, hp⟩ := hw
  obtain ⟨pre, he⟩ := lastWrite_eq hr
  exact ⟨pre, r, by rw [← he]; exact runs_steps (exec_runs h p s), hp⟩

/-- Same, from a decidable check. -/
theorem exec_status {h : σ → (q : Query) → q.Resp × σ} {p : Prog α} {s : σ} {n : Nat}
    (hw : (lastWrite (exec h p s).1).map (·.status) = some n) :
    ∃ pre resp, Steps p (pre ++ [wrote resp]) ∧ resp.status = n := by
  apply exec_wrote (h := h) (s := s)
  cases hl : lastWrite (exec h p s).1 with
  | none => rw [hl] at hw; simp at hw
  | some r => rw [hl] at hw; exact ⟨r, rfl, by simpa using hw⟩

end Goidc
