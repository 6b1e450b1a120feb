import Verif.Lemmas.Exec
import Verif.Spec.Concurrency

/-! # Interleavings -/

namespace Goidc

open Spec

theorem mem_callsOf {i : Nat} {e : Event} {g : List (Nat × Event)} : e ∈ callsOf i g ↔ (i, e) ∈ g := by
  unfold callsOf
  simp only [List.mem_map, List.mem_filter, decide_eq_true_eq]
  constructor
  · rintro ⟨⟨j, e'⟩, ⟨hm, hj⟩, he⟩
    simp only at hj he
    subst hj he
    exact hm
  · intro h; exact ⟨(i, e), ⟨h, rfl⟩, rfl⟩

theorem callsOf_append {i : Nat} {g g' : List (Nat × Event)} :
    callsOf i (g ++ g') = callsOf i g ++ callsOf i g' := by
  simp [callsOf]

theorem callsOf_cons_self {i : Nat} {e : Event} {g : List (Nat × Event)} :
    callsOf i ((i, e) :: g) = e :: callsOf i g := by
  simp [callsOf]

theorem callsOf_cons_ne {i j : Nat} (h : j ≠ i) {e : Event} {g : List (Nat × Event)} :
    callsOf i ((j, e) :: g) = callsOf i g := by
  simp [callsOf, h]

/-- Two different members of a list occur one after the other. -/
theorem two_mem {α : Type} {x y : α} {g : List α} (hx : x ∈ g) (hy : y ∈ g) (hne : x ≠ y) :
    (∃ a b c, g = a ++ x :: b ++ y :: c) ∨ (∃ a b c, g = a ++ y :: b ++ x :: c) := by
  obtain ⟨a, b, rfl⟩ := List.append_of_mem hx
  simp only [List.mem_append, List.mem_cons] at hy
  rcases hy with hy | hy | hy
  · obtain ⟨a1, a2, rfl⟩ := List.append_of_mem hy
    exact .inr ⟨a1, a2, b, by simp⟩
  · exact absurd hy.symm hne
  · obtain ⟨b1, b2, rfl⟩ := List.append_of_mem hy
    exact .inl ⟨a, b1, b2, by simp⟩

/-! ## Executing a schedule against a store -/

variable {σ : Type}

theorem chain_append {st : σ → Event → σ → Prop} {s s' : σ} {t u : List Event} :
    Chain st s (t ++ u) s' ↔ ∃ m, Chain st s t m ∧ Chain st m u s' := by
  induction t generalizing s with
  | nil =>
    constructor
    · intro h; exact ⟨s, .nil s, h⟩
    · rintro ⟨m, h1, h2⟩; cases h1; exact h2
  | cons e t ih =>
    constructor
    · intro h
      cases h with
      | cons h1 h2 =>
        obtain ⟨m, h3, h4⟩ := ih.1 h2
        exact ⟨m, .cons h1 h3, h4⟩
    · rintro ⟨m, h1, h2⟩
      cases h1 with
      | cons h1 h3 => exact .cons h1 (ih.2 ⟨m, h3, h2⟩)

/-- Replace the body of one request. -/
def setThread (ths : Nat → Prog Unit) (i : Nat) (p : Prog Unit) : Nat → Prog Unit :=
  fun j => if j = i then p else ths j

/-- Let the requests make one call each in the given order, against a store with state `s`.  A call the
store does not answer (it panics) stops the execution. -/
def schedule (h : σ → (q : Query) → Option (q.Resp × σ)) :
    List Nat → (Nat → Prog Unit) → σ → List (Nat × Event) × σ
  | [], _, s => ([], s)
  | i :: is, ths, s =>
    match ths i with
    | .call q k =>
      match h s q with
      | some (r, s') =>
        let (g, s'') := schedule h is (setThread ths i (k r)) s'
        ((i, ⟨q, r⟩) :: g, s'')
      | none => ([], s)
    | _ => schedule h is ths s

theorem schedule_interleaves (h : σ → (q : Query) → Option (q.Resp × σ)) (is : List Nat)
    (ths : Nat → Prog Unit) (s : σ) :
    Interleaves (fun i => ⟨ths i⟩) (schedule h is ths s).1 := by
  induction is generalizing ths s with
  | nil => intro i; exact steps_nil
  | cons i is ih =>
    intro j
    unfold schedule
    cases hi : ths i with
    | ret a => exact ih ths s j
    | panic => exact ih ths s j
    | call q k =>
      dsimp only
      cases hh : h s q with
      | none => exact steps_nil
      | some rs =>
        obtain ⟨r, s'⟩ := rs
        have hj := ih (setThread ths i (k r)) s' j
        dsimp only
        by_cases hij : i = j
        · subst hij
          rw [callsOf_cons_self]
          simp only [setThread, if_true] at hj
          show Steps (ths i) _
          rw [hi]
          exact .inr ⟨_, _, rfl, hj⟩
        · rw [callsOf_cons_ne hij]
          simp only [setThread, if_neg (fun he : j = i => hij he.symm)] at hj
          exact hj

theorem schedule_chain {h : σ → (q : Query) → Option (q.Resp × σ)} {st : σ → Event → σ → Prop}
    (hst : ∀ s q r s', h s q = some (r, s') → st s ⟨q, r⟩ s') (is : List Nat)
    (ths : Nat → Prog Unit) (s : σ) :
    Chain st s ((schedule h is ths s).1.map (·.2)) (schedule h is ths s).2 := by
  induction is generalizing ths s with
  | nil => exact .nil s
  | cons i is ih =>
    unfold schedule
    cases hi : ths i with
    | ret a => exact ih ths s
    | panic => exact ih ths s
    | call q k =>
      dsimp only
      cases hh : h s q with
      | none => exact .nil s
      | some rs =>
        obtain ⟨r, s'⟩ := rs
        exact .cons (hst _ _ _ _ hh) (ih _ _)

end Goidc
