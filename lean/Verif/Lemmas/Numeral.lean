import Verif.Lemmas.Decimal

/-! # Numerals are determined by their value -/

namespace Goidc

open Spec

theorem digitsValue_snoc (l : GoStr) (c : UInt8) : digitsValue (l ++ [c]) = 10 * digitsValue l + (c.toNat - 48) := by
  simp [digitsValue, List.foldl_append]

theorem digits_snoc {l : GoStr} (h : l ≠ []) : ∃ l' c, l = l' ++ [c] :=
  ⟨l.dropLast, l.getLast h, (List.dropLast_concat_getLast h).symm⟩

/-- Digits without a leading zero, and no digits at all, are determined by their value. -/
theorem digits_unique_aux : ∀ (k : Nat) (a b : GoStr), a.length ≤ k → (∀ c ∈ a, 48 ≤ c ∧ c ≤ 57) → (∀ c ∈ b, 48 ≤ c ∧ c ≤ 57) →
    a.head? ≠ some 48 → b.head? ≠ some 48 → digitsValue a = digitsValue b → a = b := by
  have zero : ∀ (k : Nat) (a : GoStr), a.length ≤ k → (∀ c ∈ a, 48 ≤ c ∧ c ≤ 57) → a.head? ≠ some 48 → digitsValue a = 0 → a = [] := by
    intro k
    induction k with
    | zero => intro a h _ _ _; exact List.eq_nil_of_length_eq_zero (by omega)
    | succ k ih =>
      intro a h ha hz hv
      by_cases hn : a = []
      · exact hn
      obtain ⟨l, c, rfl⟩ := digits_snoc hn
      rw [digitsValue_snoc] at hv
      have hc := ha c (by simp)
      have h1 := UInt8.le_iff_toNat_le.1 hc.1
      have hl : l = [] := by
        refine ih l (by simp at h; omega) (fun c hc => ha c (by simp [hc])) (fun he => hz ?_) (by omega)
        rw [List.head?_append, he]; rfl
      subst hl
      have : c.toNat = 48 := by
        have : (48 : UInt8).toNat = 48 := rfl
        omega
      exact absurd (by simpa using UInt8.toNat_inj.1 (by rw [this]; rfl)) hz
  intro k
  induction k with
  | zero =>
    intro a b h _ hb _ zb hv
    obtain rfl := List.eq_nil_of_length_eq_zero (l := a) (by omega)
    exact (zero _ b (Nat.le_refl _) hb zb hv.symm).symm
  | succ k ih =>
    intro a b h ha hb za zb hv
    by_cases hn : a = []
    · subst hn; exact (zero _ b (Nat.le_refl _) hb zb hv.symm).symm
    by_cases hm : b = []
    · subst hm; exact zero _ a (Nat.le_refl _) ha za hv
    obtain ⟨l, c, rfl⟩ := digits_snoc hn
    obtain ⟨m, d, rfl⟩ := digits_snoc hm
    rw [digitsValue_snoc, digitsValue_snoc] at hv
    have e48 : (48 : UInt8).toNat = 48 := rfl
    have e57 : (57 : UInt8).toNat = 57 := rfl
    have h1 := UInt8.le_iff_toNat_le.1 (ha c (by simp)).1
    have h2 := UInt8.le_iff_toNat_le.1 (ha c (by simp)).2
    have h3 := UInt8.le_iff_toNat_le.1 (hb d (by simp)).1
    have h4 := UInt8.le_iff_toNat_le.1 (hb d (by simp)).2
    have hl : l = m := by
      refine ih l m (by simp at h; omega) (fun c hc => ha c (by simp [hc])) (fun c hc => hb c (by simp [hc]))
        (fun he => za ?_) (fun he => zb ?_) (by omega)
      · rw [List.head?_append, he]; rfl
      · rw [List.head?_append, he]; rfl
    subst hl
    have : c = d := UInt8.toNat_inj.1 (by omega)
    rw [this]

/-- Numerals without superfluous leading zeros are determined by their value. -/
theorem digits_unique {a b : GoStr} (ha : IsDigits a) (hb : IsDigits b) (za : a.head? = some 48 → a = [48])
    (zb : b.head? = some 48 → b = [48]) (h : digitsValue a = digitsValue b) : a = b := by
  have e : digitsValue [48] = digitsValue [] := by decide
  by_cases h1 : a.head? = some 48 <;> by_cases h2 : b.head? = some 48
  · rw [za h1, zb h2]
  · rw [za h1, e] at h
    exact absurd (digits_unique_aux _ [] b (Nat.le_refl _) (by simp) hb.2 (by simp) h2 h).symm hb.1
  · rw [zb h2, e] at h
    exact absurd (digits_unique_aux _ a [] (Nat.le_refl _) ha.2 (by simp) h1 (by simp) h) ha.1
  · exact digits_unique_aux _ a b (Nat.le_refl _) ha.2 hb.2 h1 h2 h

end Goidc
