import Verif.Lemmas.Sim

/-! # Programs that answer to each other call by call, with related results -/

namespace Goidc

variable {α β γ δ : Type} {f : Event → Event}

/-- Every run of the first program is, event by event under `f`, a run of the second that ends in a related
result. -/
def SimR (f : Event → Event) (R : α → β → Prop) : Prog α → Prog β → Prop
  | .ret a, p' => ∃ b, p' = .ret b ∧ R a b
  | .panic, p' => p' = .panic
  | .call q k, p' => ∀ r, ∃ q' k' r', p' = .call q' k' ∧ f ⟨q, r⟩ = ⟨q', r'⟩ ∧ SimR f R (k r) (k' r')

theorem simR_runs {R : α → β → Prop} {p : Prog α} {p' : Prog β} (h : SimR f R p p') {t : List Event} {o : Outcome α}
    (hr : Runs p t o) :
    (∃ a b, o = .ok a ∧ R a b ∧ Runs p' (t.map f) (.ok b)) ∨ (o = .panic ∧ Runs p' (t.map f) .panic) := by
  induction p generalizing p' t with
  | ret a =>
    obtain ⟨b, rfl, h⟩ := h
    obtain ⟨rfl, rfl⟩ := hr
    exact .inl ⟨a, b, rfl, h, rfl, rfl⟩
  | panic =>
    have h : p' = .panic := h
    obtain ⟨rfl, rfl⟩ := hr
    rw [h]
    exact .inr ⟨rfl, rfl, rfl⟩
  | call q k ih =>
    obtain ⟨x, t', rfl, hr⟩ := hr
    obtain ⟨q', k', x', rfl, he, hs⟩ := h x
    rcases ih x hs hr with ⟨a, b, rfl, h, hr'⟩ | ⟨rfl, hr'⟩
    · exact .inl ⟨a, b, rfl, h, x', t'.map f, by rw [List.map_cons, he], hr'⟩
    · exact .inr ⟨rfl, x', t'.map f, by rw [List.map_cons, he], hr'⟩

/-- With equal results. -/
theorem simR_runs_eq {p p' : Prog α} (h : SimR f Eq p p') {t : List Event} {o : Outcome α} (hr : Runs p t o) :
    Runs p' (t.map f) o := by
  rcases simR_runs h hr with ⟨a, b, rfl, rfl, hr'⟩ | ⟨rfl, hr'⟩ <;> exact hr'

theorem simR_bind {R : α → β → Prop} {S : γ → δ → Prop} {p : Prog α} {p' : Prog β} {g : α → Prog γ} {g' : β → Prog δ}
    (h : SimR f R p p') (hg : ∀ a b, R a b → SimR f S (g a) (g' b)) : SimR f S (p >>= g) (p' >>= g') := by
  induction p generalizing p' with
  | ret a => obtain ⟨b, rfl, h⟩ := h; exact hg a b h
  | panic => have h : p' = .panic := h; rw [h]; rfl
  | call q k ih =>
    intro x
    obtain ⟨q', k', x', rfl, he, hs⟩ := h x
    exact ⟨q', fun r => (k' r).bind g', x', rfl, he, ih x hs⟩

/-- The first part of both programs is the same and `f` leaves its calls alone. -/
theorem simR_same {S : γ → δ → Prop} {p : Prog α} {g : α → Prog γ} {g' : α → Prog δ}
    (h : AllQ (fun q => ∀ x, f ⟨q, x⟩ = ⟨q, x⟩) p) (hg : ∀ a, SimR f S (g a) (g' a)) : SimR f S (p >>= g) (p >>= g') := by
  induction p with
  | ret a => exact hg a
  | panic => rfl
  | call q k ih => exact fun x => ⟨q, fun x => (k x).bind g', x, rfl, h.1 x, ih x (h.2 x)⟩

theorem simR_refl {p : Prog α} (h : AllQ (fun q => ∀ x, f ⟨q, x⟩ = ⟨q, x⟩) p) : SimR f Eq p p := by
  induction p with
  | ret a => exact ⟨a, rfl, rfl⟩
  | panic => rfl
  | call q k ih => exact fun x => ⟨q, k, x, rfl, h.1 x, ih x (h.2 x)⟩

/-- Results of programs with exceptions, related on success and equal on failure. -/
def ExceptRel {ε : Type} (R : α → β → Prop) : Except ε α → Except ε β → Prop
  | .ok a, .ok b => R a b
  | .error e, .error e' => e = e'
  | _, _ => False

theorem simR_xbind {ε : Type} {R : α → β → Prop} {S : γ → δ → Prop} {p : ExceptT ε Prog α} {p' : ExceptT ε Prog β}
    {g : α → ExceptT ε Prog γ} {g' : β → ExceptT ε Prog δ} (h : SimR f (ExceptRel R) p.run p'.run)
    (hg : ∀ a b, R a b → SimR f (ExceptRel S) (g a).run (g' b).run) :
    SimR f (ExceptRel S) (p >>= g).run (p' >>= g').run := by
  rw [xrun_bind, xrun_bind]
  refine simR_bind h fun a b hab => ?_
  cases a <;> cases b
  · have : _ = _ := hab
    subst this
    exact ⟨_, rfl, rfl⟩
  · exact hab.elim
  · exact hab.elim
  · exact hg _ _ hab

theorem exceptRel_eq {ε : Type} {a b : Except ε α} : ExceptRel Eq a b ↔ a = b := by
  cases a <;> cases b <;> simp [ExceptRel]

theorem simR_mono {R S : α → β → Prop} {p : Prog α} {p' : Prog β} (hRS : ∀ a b, R a b → S a b) (h : SimR f R p p') :
    SimR f S p p' := by
  induction p generalizing p' with
  | ret a => obtain ⟨b, rfl, h⟩ := h; exact ⟨b, rfl, hRS _ _ h⟩
  | panic => exact h
  | call q k ih =>
    intro x
    obtain ⟨q', k', x', rfl, he, hs⟩ := h x
    exact ⟨q', k', x', rfl, he, ih x hs⟩

theorem simR_xrefl {ε : Type} {p : ExceptT ε Prog α} (h : AllQ (fun q => ∀ x, f ⟨q, x⟩ = ⟨q, x⟩) p.run) :
    SimR f (ExceptRel Eq) p.run p.run := simR_mono (fun _ _ h => exceptRel_eq.2 h) (simR_refl h)

theorem simR_xsame {ε : Type} {S : γ → δ → Prop} {p : ExceptT ε Prog α}
    {g : α → ExceptT ε Prog γ} {g' : α → ExceptT ε Prog δ} (h : AllQ (fun q => ∀ x, f ⟨q, x⟩ = ⟨q, x⟩) p.run)
    (hg : ∀ a, SimR f (ExceptRel S) (g a).run (g' a).run) :
    SimR f (ExceptRel S) (p >>= g).run (p >>= g').run :=
  simR_xbind (simR_xrefl h) fun a b hab => by
    have : a = b := hab
    subst this
    exact hg a

end Goidc
