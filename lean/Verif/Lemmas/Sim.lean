import Verif.Lemmas.Prog

/-! # Programs that answer to each other call by call -/

namespace Goidc

variable {α β ε : Type} {ok : Event → Prop} {f : Event → Event}

/-- Every run of the first program whose events are all `ok` is, event by event under `f`, a run of the
second. -/
def Sim (ok : Event → Prop) (f : Event → Event) : Prog α → Prog α → Prop
  | .ret a, p' => p' = .ret a
  | .panic, p' => p' = .panic
  | .call q k, p' => ∀ r, ok ⟨q, r⟩ → ∃ q' k' r', p' = .call q' k' ∧ f ⟨q, r⟩ = ⟨q', r'⟩ ∧ Sim ok f (k r) (k' r')

theorem sim_runs {p p' : Prog α} (h : Sim ok f p p') {t : List Event} {o : Outcome α} (hr : Runs p t o)
    (ht : ∀ e ∈ t, ok e) : Runs p' (t.map f) o := by
  induction p generalizing p' t with
  | ret a =>
    have h : p' = .ret a := h
    obtain ⟨rfl, rfl⟩ := hr
    rw [h]; exact ⟨rfl, rfl⟩
  | panic =>
    have h : p' = .panic := h
    obtain ⟨rfl, rfl⟩ := hr
    rw [h]; exact ⟨rfl, rfl⟩
  | call q k ih =>
    obtain ⟨r, t', rfl, hr⟩ := hr
    obtain ⟨q', k', r', rfl, he, hs⟩ := h r (ht _ List.mem_cons_self)
    exact ⟨r', t'.map f, by rw [List.map_cons, he], ih r hs hr fun e he => ht e (List.mem_cons_of_mem _ he)⟩

theorem sim_bind {p p' : Prog α} {g g' : α → Prog β} (h : Sim ok f p p') (hg : ∀ a, Sim ok f (g a) (g' a)) :
    Sim ok f (p.bind g) (p'.bind g') := by
  induction p generalizing p' with
  | ret a => have h : p' = .ret a := h; rw [h]; exact hg a
  | panic => have h : p' = .panic := h; rw [h]; rfl
  | call q k ih =>
    intro r hr
    obtain ⟨q', k', r', rfl, he, hs⟩ := h r hr
    exact ⟨q', fun r => (k' r).bind g', r', rfl, he, ih r hs⟩

theorem sim_refl {p : Prog α} (h : AllQ (fun q => ∀ r, f ⟨q, r⟩ = ⟨q, r⟩) p) : Sim ok f p p := by
  induction p with
  | ret a => rfl
  | panic => rfl
  | call q k ih => exact fun r _ => ⟨q, k, r, rfl, h.1 r, ih r (h.2 r)⟩

theorem sim_id {p : Prog α} : Sim ok id p p := by
  induction p with
  | ret a => rfl
  | panic => rfl
  | call q k ih => exact fun r _ => ⟨q, k, r, rfl, rfl, ih r⟩

theorem sim_xbind {p p' : ExceptT ε Prog α} {g g' : α → ExceptT ε Prog β} (h : Sim ok f p.run p'.run)
    (hg : ∀ a, Sim ok f (g a).run (g' a).run) : Sim ok f (p >>= g).run (p' >>= g').run := by
  rw [xrun_bind, xrun_bind]
  refine sim_bind h fun r => ?_
  cases r with
  | ok a => exact hg a
  | error e => rfl

end Goidc
