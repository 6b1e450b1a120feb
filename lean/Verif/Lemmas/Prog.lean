import Verif.Model.Prog
import Verif.Spec.Calls

/-! # Reasoning about runs of programs -/

namespace Goidc

variable {α β ε : Type}

@[simp] theorem Prog.pure_eq (a : α) : (pure a : Prog α) = .ret a := rfl
@[simp] theorem Prog.bind_eq (p : Prog α) (f : α → Prog β) : (p >>= f) = p.bind f := rfl

theorem Prog.bind_ret (p : Prog α) : p.bind .ret = p := by
  induction p with
  | ret a => rfl
  | panic => rfl
  | call q k ih => simp only [Prog.bind]; congr; funext r; exact ih r

theorem Prog.bind_assoc {γ : Type} (p : Prog α) (f : α → Prog β) (g : β → Prog γ) :
    (p.bind f).bind g = p.bind fun a => (f a).bind g := by
  induction p with
  | ret a => rfl
  | panic => rfl
  | call q k ih => simp only [Prog.bind]; congr; funext r; exact ih r

instance : LawfulMonad Prog := LawfulMonad.mk' (m := Prog)
  (id_map := fun x => by
    show Prog.bind x (fun a => .ret (id a)) = x
    exact Prog.bind_ret x)
  (pure_bind := fun _ _ => rfl)
  (bind_assoc := fun x f g => Prog.bind_assoc x f g)

/-! ## Runs -/

@[simp] theorem runs_ret {a : α} {t o} : Runs (.ret a) t o ↔ t = [] ∧ o = .ok a := Iff.rfl
@[simp] theorem runs_pure {a : α} {t o} : Runs (pure a : Prog α) t o ↔ t = [] ∧ o = .ok a := Iff.rfl
@[simp] theorem runs_panic {t} {o : Outcome α} : Runs .panic t o ↔ t = [] ∧ o = .panic := Iff.rfl
theorem runs_call {q} {k : q.Resp → Prog α} {t o} :
    Runs (.call q k) t o ↔ ∃ r t', t = ⟨q, r⟩ :: t' ∧ Runs (k r) t' o := Iff.rfl
@[simp] theorem runs_ask {q : Query} {t o} : Runs (ask q) t o ↔ ∃ r, t = [⟨q, r⟩] ∧ o = .ok r := by
  simp only [ask, Runs]
  constructor
  · rintro ⟨r, t', rfl, rfl, rfl⟩; exact ⟨r, rfl, rfl⟩
  · rintro ⟨r, rfl, rfl⟩; exact ⟨r, [], rfl, rfl, rfl⟩

theorem runs_bind {p : Prog α} {f : α → Prog β} {t o} :
    Runs (p.bind f) t o ↔
      (∃ a t1 t2, t = t1 ++ t2 ∧ Runs p t1 (.ok a) ∧ Runs (f a) t2 o) ∨
      (Runs p t .panic ∧ o = .panic) := by
  induction p generalizing t with
  | ret a =>
    constructor
    · intro h; exact .inl ⟨a, [], t, rfl, ⟨rfl, rfl⟩, h⟩
    · rintro (⟨a', t1, t2, rfl, ⟨rfl, h⟩, h2⟩ | ⟨⟨_, h⟩, _⟩)
      · cases h; exact h2
      · cases h
  | panic =>
    constructor
    · rintro ⟨rfl, rfl⟩; exact .inr ⟨⟨rfl, rfl⟩, rfl⟩
    · rintro (⟨a', t1, t2, rfl, ⟨_, h⟩, _⟩ | ⟨⟨rfl, _⟩, rfl⟩)
      · cases h
      · exact ⟨rfl, rfl⟩
  | call q k ih =>
    simp only [Prog.bind, Runs]
    constructor
    · rintro ⟨r, t', rfl, h⟩
      rcases (ih r).1 h with ⟨a, t1, t2, rfl, h1, h2⟩ | ⟨h1, rfl⟩
      · exact .inl ⟨a, ⟨q, r⟩ :: t1, t2, rfl, ⟨r, t1, rfl, h1⟩, h2⟩
      · exact .inr ⟨⟨r, t', rfl, h1⟩, rfl⟩
    · rintro (⟨a, t1, t2, rfl, ⟨r, t', rfl, h1⟩, h2⟩ | ⟨⟨r, t', rfl, h1⟩, rfl⟩)
      · exact ⟨r, t' ++ t2, rfl, (ih r).2 (.inl ⟨a, t', t2, rfl, h1, h2⟩)⟩
      · exact ⟨r, t', rfl, (ih r).2 (.inr ⟨h1, rfl⟩)⟩

theorem runs_bind_ask {q : Query} {f : q.Resp → Prog β} {t o} :
    Runs ((ask q).bind f) t o ↔ ∃ r t', t = ⟨q, r⟩ :: t' ∧ Runs (f r) t' o := by
  simp only [ask, Prog.bind, Runs]

/-- A run is determined by its trace. -/
theorem runs_det {p : Prog α} {t o1 o2} (h1 : Runs p t o1) (h2 : Runs p t o2) : o1 = o2 := by
  induction p generalizing t with
  | ret a => rw [h1.2, h2.2]
  | panic => rw [h1.2, h2.2]
  | call q k ih =>
    obtain ⟨r, t', rfl, h1⟩ := h1
    obtain ⟨r2, t2, h, h2⟩ := h2
    injection h with ha hb
    injection ha with _ hr
    subst hb; cases hr
    exact ih r h1 h2

/-! ## Prefixes -/

theorem runs_steps {p : Prog α} {t o} (h : Runs p t o) : Steps p t := by
  induction p generalizing t with
  | ret a => exact h.1
  | panic => exact h.1
  | call q k ih =>
    obtain ⟨r, t', rfl, h⟩ := h
    exact .inr ⟨r, t', rfl, ih r h⟩

/-- Every unfinished run can be continued to a complete one. -/
theorem steps_complete {p : Prog α} {t} (h : Steps p t) : ∃ t' o, Runs p (t ++ t') o := by
  induction p generalizing t with
  | ret a => cases h; exact ⟨[], .ok a, rfl, rfl⟩
  | panic => cases h; exact ⟨[], .panic, rfl, rfl⟩
  | call q k ih =>
    rcases h with rfl | ⟨r, t', rfl, h⟩
    · have hs : Steps (k default) [] := by cases hk : k default <;> simp [Steps]
      obtain ⟨t', o, h⟩ := ih default hs
      exact ⟨⟨q, default⟩ :: t', o, default, t', rfl, h⟩
    · obtain ⟨t'', o, h⟩ := ih r h
      exact ⟨t'', o, r, t' ++ t'', rfl, h⟩

theorem steps_nil {p : Prog α} : Steps p [] := by cases p <;> simp [Steps]

theorem steps_of_append {p : Prog α} {t t'} (h : Steps p (t ++ t')) : Steps p t := by
  induction p generalizing t with
  | ret a => have h' : t ++ t' = [] := h; simp [Steps, List.append_eq_nil_iff.1 h']
  | panic => have h' : t ++ t' = [] := h; simp [Steps, List.append_eq_nil_iff.1 h']
  | call q k ih =>
    cases t with
    | nil => exact .inl rfl
    | cons e t =>
      rcases h with h | ⟨r, t1, h, h2⟩
      · simp at h
      · simp only [List.cons_append, List.cons.injEq] at h
        obtain ⟨rfl, rfl⟩ := h
        exact .inr ⟨r, t, rfl, ih r h2⟩

/-! ## Properties of all calls of a program -/

/-- Every call a program can make satisfies `P`. -/
def AllQ (P : Query → Prop) : Prog α → Prop
  | .ret _ => True
  | .panic => True
  | .call q k => P q ∧ ∀ r, AllQ P (k r)

theorem allQ_ret {P} {a : α} : AllQ P (.ret a : Prog α) := trivial
theorem allQ_pure {P} {a : α} : AllQ P (pure a : Prog α) := trivial
theorem allQ_panic {P} : AllQ P (.panic : Prog α) := trivial
theorem allQ_ask {P} {q} (h : P q) : AllQ P (ask q) := ⟨h, fun _ => trivial⟩

theorem allQ_bind {P} {p : Prog α} {f : α → Prog β} (h : AllQ P p) (hf : ∀ a, AllQ P (f a)) :
    AllQ P (p.bind f) := by
  induction p with
  | ret a => exact hf a
  | panic => trivial
  | call q k ih => exact ⟨h.1, fun r => ih r (h.2 r)⟩

theorem allQ_bind' {P} {p : Prog α} {f : α → Prog β} (h : AllQ P p) (hf : ∀ a, AllQ P (f a)) :
    AllQ P (p >>= f) := allQ_bind h hf

theorem allQ_mono {P P' : Query → Prop} {p : Prog α} (hp : ∀ q, P q → P' q) (h : AllQ P p) :
    AllQ P' p := by
  induction p with
  | ret a => trivial
  | panic => trivial
  | call q k ih => exact ⟨hp _ h.1, fun r => ih r (h.2 r)⟩

theorem allQ_runs {P} {p : Prog α} (h : AllQ P p) {t o} (hr : Runs p t o) : ∀ e ∈ t, P e.q := by
  induction p generalizing t with
  | ret a => cases hr.1; simp
  | panic => cases hr.1; simp
  | call q k ih =>
    obtain ⟨r, t', rfl, hr⟩ := hr
    intro e he
    rcases List.mem_cons.1 he with rfl | he
    · exact h.1
    · exact ih r (h.2 r) hr e he

theorem allQ_steps {P} {p : Prog α} (h : AllQ P p) {t} (hs : Steps p t) : ∀ e ∈ t, P e.q := by
  obtain ⟨t', o, hr⟩ := steps_complete hs
  intro e he
  exact allQ_runs h hr e (by simp [he])

/-! ## Programs that may also end with an exception -/

theorem xrun_bind (p : ExceptT ε Prog α) (f : α → ExceptT ε Prog β) :
    (p >>= f).run = p.run.bind fun r => match r with
      | .ok a => (f a).run
      | .error e => .ret (.error e) := by
  rw [ExceptT.run_bind]
  show Prog.bind _ _ = _
  congr 1
  funext r
  cases r <;> rfl

@[simp] theorem xok_pure {a b : α} {t} : XOk (pure a : ExceptT ε Prog α) t b ↔ t = [] ∧ b = a := by
  show Runs (.ret (Except.ok a : Except ε α)) t _ ↔ _
  simp
@[simp] theorem xerr_pure {a : α} {t} {e : ε} : XErr (pure a : ExceptT ε Prog α) t e ↔ False := by
  show Runs (.ret (Except.ok a : Except ε α)) t _ ↔ _
  simp
@[simp] theorem xpanic_pure {a : α} {t} : XPanic (pure a : ExceptT ε Prog α) t ↔ False := by
  show Runs (.ret (Except.ok a : Except ε α)) t _ ↔ _
  simp
@[simp] theorem xok_throw {e : ε} {b : α} {t} : XOk (throw e : ExceptT ε Prog α) t b ↔ False := by
  show Runs (.ret (Except.error e : Except ε α)) t _ ↔ _
  simp
@[simp] theorem xerr_throw {e e' : ε} {t} :
    XErr (throw e : ExceptT ε Prog α) t e' ↔ t = [] ∧ e' = e := by
  show Runs (.ret (Except.error e : Except ε α)) t _ ↔ _
  simp
@[simp] theorem xpanic_throw {e : ε} {t} : XPanic (throw e : ExceptT ε Prog α) t ↔ False := by
  show Runs (.ret (Except.error e : Except ε α)) t _ ↔ _
  simp

theorem xok_bind {p : ExceptT ε Prog α} {f : α → ExceptT ε Prog β} {t b} :
    XOk (p >>= f) t b ↔ ∃ a t1 t2, t = t1 ++ t2 ∧ XOk p t1 a ∧ XOk (f a) t2 b := by
  unfold XOk
  rw [xrun_bind, runs_bind]
  constructor
  · rintro (⟨r, t1, t2, rfl, h1, h2⟩ | ⟨_, h⟩)
    · cases r with
      | ok a => exact ⟨a, t1, t2, rfl, h1, h2⟩
      | error e => simp at h2
    · cases h
  · rintro ⟨a, t1, t2, rfl, h1, h2⟩
    exact .inl ⟨.ok a, t1, t2, rfl, h1, h2⟩

theorem xerr_bind {p : ExceptT ε Prog α} {f : α → ExceptT ε Prog β} {t e} :
    XErr (p >>= f) t e ↔ XErr p t e ∨ ∃ a t1 t2, t = t1 ++ t2 ∧ XOk p t1 a ∧ XErr (f a) t2 e := by
  unfold XErr XOk
  rw [xrun_bind, runs_bind]
  constructor
  · rintro (⟨r, t1, t2, rfl, h1, h2⟩ | ⟨_, h⟩)
    · cases r with
      | ok a => exact .inr ⟨a, t1, t2, rfl, h1, h2⟩
      | error e' => simp at h2; obtain ⟨rfl, rfl⟩ := h2; exact .inl (by simpa using h1)
    · cases h
  · rintro (h | ⟨a, t1, t2, rfl, h1, h2⟩)
    · exact .inl ⟨.error e, t, [], by simp, h, by simp⟩
    · exact .inl ⟨.ok a, t1, t2, rfl, h1, h2⟩

theorem xpanic_bind {p : ExceptT ε Prog α} {f : α → ExceptT ε Prog β} {t} :
    XPanic (p >>= f) t ↔ XPanic p t ∨ ∃ a t1 t2, t = t1 ++ t2 ∧ XOk p t1 a ∧ XPanic (f a) t2 := by
  unfold XPanic XOk
  rw [xrun_bind, runs_bind]
  constructor
  · rintro (⟨r, t1, t2, rfl, h1, h2⟩ | ⟨h, _⟩)
    · cases r with
      | ok a => exact .inr ⟨a, t1, t2, rfl, h1, h2⟩
      | error e' => simp at h2
    · exact .inl h
  · rintro (h | ⟨a, t1, t2, rfl, h1, h2⟩)
    · exact .inr ⟨h, rfl⟩
    · exact .inl ⟨.ok a, t1, t2, rfl, h1, h2⟩

theorem xrun_lift (p : Prog α) : (ExceptT.lift p : ExceptT ε Prog α).run = p.bind fun a => .ret (.ok a) :=
  rfl

theorem xok_lift {p : Prog α} {t a} : XOk (ExceptT.lift p : ExceptT ε Prog α) t a ↔ Runs p t (.ok a) := by
  unfold XOk
  rw [xrun_lift, runs_bind]
  constructor
  · rintro (⟨r, t1, t2, rfl, h1, rfl, h2⟩ | ⟨_, h⟩)
    · cases h2; simpa using h1
    · cases h
  · intro h; exact .inl ⟨a, t, [], by simp, h, rfl, rfl⟩

theorem xerr_lift {p : Prog α} {t} {e : ε} : XErr (ExceptT.lift p : ExceptT ε Prog α) t e ↔ False := by
  unfold XErr
  rw [xrun_lift, runs_bind]
  constructor
  · rintro (⟨r, t1, t2, rfl, h1, rfl, h2⟩ | ⟨_, h⟩)
    · cases h2
    · cases h
  · exact False.elim

theorem xpanic_lift {p : Prog α} {t} :
    XPanic (ExceptT.lift p : ExceptT ε Prog α) t ↔ Runs p t .panic := by
  unfold XPanic
  rw [xrun_lift, runs_bind]
  constructor
  · rintro (⟨r, t1, t2, rfl, h1, rfl, h2⟩ | ⟨h, _⟩)
    · cases h2
    · exact h
  · intro h; exact .inr ⟨h, rfl⟩

theorem allQ_xbind {P} {p : ExceptT ε Prog α} {f : α → ExceptT ε Prog β} (h : AllQ P p.run)
    (hf : ∀ a, AllQ P (f a).run) : AllQ P (p >>= f).run := by
  rw [xrun_bind]
  exact allQ_bind h fun r => by cases r <;> first | exact hf _ | trivial

theorem allQ_xpure {P} {a : α} : AllQ P (pure a : ExceptT ε Prog α).run := trivial
theorem allQ_xthrow {P} {e : ε} : AllQ P (throw e : ExceptT ε Prog α).run := trivial
theorem allQ_xlift {P} {p : Prog α} (h : AllQ P p) : AllQ P (ExceptT.lift p : ExceptT ε Prog α).run := by
  rw [xrun_lift]; exact allQ_bind h fun _ => trivial

end Goidc

namespace Goidc

variable {α β ε : Type}

/-- Bind rule for `AllQ` that remembers how the first part ended. -/
theorem allQ_bind_runs {P} {p : Prog α} {f : α → Prog β} (h : AllQ P p)
    (hf : ∀ a t, Runs p t (.ok a) → AllQ P (f a)) : AllQ P (p.bind f) := by
  induction p with
  | ret a => exact hf a [] ⟨rfl, rfl⟩
  | panic => trivial
  | call q k ih => exact ⟨h.1, fun r => ih r (h.2 r) fun a t hr => hf a (⟨q, r⟩ :: t) ⟨r, t, rfl, hr⟩⟩

theorem allQ_xbind_ok {P} {p : ExceptT ε Prog α} {f : α → ExceptT ε Prog β} (h : AllQ P p.run)
    (hf : ∀ a t, XOk p t a → AllQ P (f a).run) : AllQ P (p >>= f).run := by
  rw [xrun_bind]
  refine allQ_bind_runs h fun r t hr => ?_
  cases r with
  | ok a => exact hf a t hr
  | error e => trivial

/-- A property of all calls that holds of every complete run holds of the program. -/
theorem allQ_of_runs {P : Query → Prop} {p : Prog α} (h : ∀ t o, Runs p t o → ∀ e ∈ t, P e.q) :
    AllQ P p := by
  induction p with
  | ret a => trivial
  | panic => trivial
  | call q k ih =>
    refine ⟨?_, fun r => ih r fun t o hr e he => h (⟨q, r⟩ :: t) o ⟨r, t, rfl, hr⟩ e (by simp [he])⟩
    obtain ⟨t', o, hr⟩ := steps_complete (steps_nil (p := k default))
    exact h (⟨q, default⟩ :: t') o ⟨default, t', rfl, by simpa using hr⟩ ⟨q, default⟩ (by simp)

end Goidc
