import Verif.Lemmas.SimR
import Verif.Spec.Issued

/-! # Programs whose calls are related one by one -/

namespace Goidc

open Spec

variable {α β γ δ : Type} {E : Event → Event → Prop}

/-- Every run of the first program goes along with a run of the second, event by event under `E`, and ends in
a related result. -/
def SimE (E : Event → Event → Prop) (R : α → β → Prop) : Prog α → Prog β → Prop
  | .ret a, p' => ∃ b, p' = .ret b ∧ R a b
  | .panic, p' => p' = .panic
  | .call q k, p' => ∀ r, ∃ q' k' r', p' = .call q' k' ∧ E ⟨q, r⟩ ⟨q', r'⟩ ∧ SimE E R (k r) (k' r')

theorem simE_runs {R : α → β → Prop} {p : Prog α} {p' : Prog β} (h : SimE E R p p') {t : List Event} {o : Outcome α}
    (hr : Runs p t o) : ∃ t', Alongside E t t' ∧
    ((∃ a b, o = .ok a ∧ R a b ∧ Runs p' t' (.ok b)) ∨ (o = .panic ∧ Runs p' t' .panic)) := by
  induction p generalizing p' t with
  | ret a =>
    obtain ⟨b, rfl, h⟩ := h
    obtain ⟨rfl, rfl⟩ := hr
    exact ⟨[], .nil, .inl ⟨a, b, rfl, h, rfl, rfl⟩⟩
  | panic =>
    have h : p' = .panic := h
    obtain ⟨rfl, rfl⟩ := hr
    rw [h]
    exact ⟨[], .nil, .inr ⟨rfl, rfl, rfl⟩⟩
  | call q k ih =>
    obtain ⟨x, t', rfl, hr⟩ := hr
    obtain ⟨q', k', x', rfl, he, hs⟩ := h x
    obtain ⟨u, hu, h⟩ := ih x hs hr
    refine ⟨⟨q', x'⟩ :: u, .cons he hu, ?_⟩
    rcases h with ⟨a, b, rfl, h, hr'⟩ | ⟨rfl, hr'⟩
    · exact .inl ⟨a, b, rfl, h, x', u, rfl, hr'⟩
    · exact .inr ⟨rfl, x', u, rfl, hr'⟩

/-- With equal results. -/
theorem simE_runs_eq {p p' : Prog α} (h : SimE E Eq p p') {t : List Event} {o : Outcome α} (hr : Runs p t o) :
    ∃ t', Alongside E t t' ∧ Runs p' t' o := by
  obtain ⟨t', ha, ⟨a, b, rfl, rfl, hr'⟩ | ⟨rfl, hr'⟩⟩ := simE_runs h hr <;> exact ⟨t', ha, hr'⟩

theorem simE_bind {R : α → β → Prop} {S : γ → δ → Prop} {p : Prog α} {p' : Prog β} {g : α → Prog γ} {g' : β → Prog δ}
    (h : SimE E R p p') (hg : ∀ a b, R a b → SimE E S (g a) (g' b)) : SimE E S (p >>= g) (p' >>= g') := by
  induction p generalizing p' with
  | ret a => obtain ⟨b, rfl, h⟩ := h; exact hg a b h
  | panic => have h : p' = .panic := h; rw [h]; rfl
  | call q k ih =>
    intro x
    obtain ⟨q', k', x', rfl, he, hs⟩ := h x
    exact ⟨q', fun r => (k' r).bind g', x', rfl, he, ih x hs⟩

theorem simE_refl {p : Prog α} (h : AllQ (fun q => ∀ x, E ⟨q, x⟩ ⟨q, x⟩) p) : SimE E Eq p p := by
  induction p with
  | ret a => exact ⟨a, rfl, rfl⟩
  | panic => rfl
  | call q k ih => exact fun x => ⟨q, k, x, rfl, h.1 x, ih x (h.2 x)⟩

/-- The first part of both programs is the same. -/
theorem simE_same {S : γ → δ → Prop} {p : Prog α} {g : α → Prog γ} {g' : α → Prog δ}
    (h : AllQ (fun q => ∀ x, E ⟨q, x⟩ ⟨q, x⟩) p) (hg : ∀ a, SimE E S (g a) (g' a)) : SimE E S (p >>= g) (p >>= g') :=
  simE_bind (simE_refl h) fun a b hab => by subst hab; exact hg a

theorem simE_mono {R S : α → β → Prop} {p : Prog α} {p' : Prog β} (hRS : ∀ a b, R a b → S a b) (h : SimE E R p p') :
    SimE E S p p' := by
  induction p generalizing p' with
  | ret a => obtain ⟨b, rfl, h⟩ := h; exact ⟨b, rfl, hRS _ _ h⟩
  | panic => exact h
  | call q k ih =>
    intro x
    obtain ⟨q', k', x', rfl, he, hs⟩ := h x
    exact ⟨q', k', x', rfl, he, ih x hs⟩

theorem simE_xbind {ε : Type} {R : α → β → Prop} {S : γ → δ → Prop} {p : ExceptT ε Prog α} {p' : ExceptT ε Prog β}
    {g : α → ExceptT ε Prog γ} {g' : β → ExceptT ε Prog δ} (h : SimE E (ExceptRel R) p.run p'.run)
    (hg : ∀ a b, R a b → SimE E (ExceptRel S) (g a).run (g' b).run) :
    SimE E (ExceptRel S) (p >>= g).run (p' >>= g').run := by
  rw [xrun_bind, xrun_bind]
  refine simE_bind h fun a b hab => ?_
  cases a <;> cases b
  · have : _ = _ := hab
    subst this
    exact ⟨_, rfl, rfl⟩
  · exact hab.elim
  · exact hab.elim
  · exact hg _ _ hab

theorem simE_xrefl {ε : Type} {p : ExceptT ε Prog α} (h : AllQ (fun q => ∀ x, E ⟨q, x⟩ ⟨q, x⟩) p.run) :
    SimE E (ExceptRel Eq) p.run p.run := simE_mono (fun _ _ h => exceptRel_eq.2 h) (simE_refl h)

theorem simE_xsame {ε : Type} {S : γ → δ → Prop} {p : ExceptT ε Prog α}
    {g : α → ExceptT ε Prog γ} {g' : α → ExceptT ε Prog δ} (h : AllQ (fun q => ∀ x, E ⟨q, x⟩ ⟨q, x⟩) p.run)
    (hg : ∀ a, SimE E (ExceptRel S) (g a).run (g' a).run) :
    SimE E (ExceptRel S) (p >>= g).run (p >>= g').run :=
  simE_xbind (simE_xrefl h) fun a b hab => by
    have : a = b := hab
    subst this
    exact hg a

end Goidc
