/-! # Lists that grow at their end -/

namespace Goidc

/-- A list grows at its end. -/
theorem snoc_induction {α : Type} {P : List α → Prop} (h0 : P []) (h1 : ∀ l a, P l → P (l ++ [a])) : ∀ l, P l := by
  have : ∀ l : List α, P l.reverse := by
    intro l
    induction l with
    | nil => exact h0
    | cons a l ih => rw [List.reverse_cons]; exact h1 _ _ ih
  intro l
  rw [← List.reverse_reverse l]
  exact this _

/-- Where an element of a list with one more element is. -/
theorem snoc_split {α : Type} {l a b : List α} {x y : α} :
    l ++ [y] = a ++ x :: b ↔ (b = [] ∧ a = l ∧ x = y) ∨ ∃ b', b = b' ++ [y] ∧ l = a ++ x :: b' := by
  rcases List.eq_nil_or_concat b with rfl | ⟨b', z, rfl⟩
  · constructor
    · intro h
      obtain ⟨h1, h2⟩ := List.append_inj' h rfl
      exact .inl ⟨rfl, h1.symm, by simpa using h2.symm⟩
    · rintro (⟨_, rfl, rfl⟩ | ⟨b', h, _⟩)
      · rfl
      · simp at h
  · constructor
    · intro h
      rw [List.concat_eq_append, ← List.cons_append, ← List.append_assoc] at h
      obtain ⟨h1, h2⟩ := List.append_inj' h rfl
      simp only [List.cons.injEq, and_true] at h2
      exact .inr ⟨b', by simp [h2], h1⟩
    · rintro (⟨h, _⟩ | ⟨b'', h, rfl⟩)
      · simp at h
      · rw [h]; simp

end Goidc
