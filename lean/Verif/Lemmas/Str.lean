import Verif.Model.GoStr
import Verif.Spec.Words

/-! # Lemmas on byte strings: split, join, sort -/

namespace Goidc

open Spec

theorem join_eq_intercalate (sep : UInt8) : ∀ l : List GoStr, join sep l = List.intercalate [sep] l
  | [] => rfl
  | [s] => by simp [join, List.intercalate]
  | s :: t :: l => by
    rw [join, join_eq_intercalate sep (t :: l)]
    simp [List.intercalate, List.intersperse]

theorem split_ne_nil (sep : UInt8) : ∀ s, split sep s ≠ []
  | [] => by simp [split]
  | c :: cs => by
    unfold split
    by_cases h : c = sep
    · simp [h]
    · rw [if_neg h]; split <;> simp

theorem split_no_sep (sep : UInt8) : ∀ s, ∀ w ∈ split sep s, sep ∉ w
  | [] => by simp [split]
  | c :: cs => by
    have ih := split_no_sep sep cs
    unfold split
    by_cases h : c = sep
    · rw [if_pos h]
      intro w hw
      rcases List.mem_cons.1 hw with rfl | hw
      · simp
      · exact ih w hw
    · rw [if_neg h]
      have hc : sep ≠ c := fun e => h e.symm
      split
      · simp [hc]
      · rename_i hd tl he
        intro w hw
        rw [he] at ih
        rcases List.mem_cons.1 hw with rfl | hw
        · have := ih hd (by simp)
          simp [hc, this]
        · exact ih w (by simp [hw])

theorem join_split (sep : UInt8) : ∀ s, join sep (split sep s) = s
  | [] => rfl
  | c :: cs => by
    have ih := join_split sep cs
    unfold split
    by_cases h : c = sep
    · rw [if_pos h]
      cases hs : split sep cs with
      | nil => exact absurd hs (split_ne_nil sep cs)
      | cons a l => rw [hs] at ih; simp [join, ih, h]
    · rw [if_neg h]
      cases hs : split sep cs with
      | nil => exact absurd hs (split_ne_nil sep cs)
      | cons a l =>
        rw [hs] at ih
        cases l with
        | nil => simp only [join] at ih ⊢; rw [ih]
        | cons b l => simp only [join] at ih ⊢; rw [List.cons_append, ih]

theorem split_of_no_sep (sep : UInt8) : ∀ w : GoStr, sep ∉ w → split sep w = [w]
  | [], _ => rfl
  | c :: cs, h => by
    simp only [List.mem_cons, not_or] at h
    unfold split
    rw [if_neg (fun e => h.1 e.symm), split_of_no_sep sep cs h.2]

theorem split_append_sep (sep : UInt8) (r : GoStr) :
    ∀ w : GoStr, sep ∉ w → split sep (w ++ sep :: r) = w :: split sep r
  | [], _ => by simp [split]
  | c :: cs, h => by
    simp only [List.mem_cons, not_or] at h
    rw [List.cons_append]
    conv => lhs; unfold split
    rw [if_neg (fun e => h.1 e.symm), split_append_sep sep r cs h.2]

theorem split_join (sep : UInt8) : ∀ l : List GoStr, l ≠ [] → (∀ w ∈ l, sep ∉ w) →
    split sep (join sep l) = l
  | [], h, _ => absurd rfl h
  | [s], _, h => split_of_no_sep sep s (h s (by simp))
  | s :: t :: l, _, h => by
    rw [join, split_append_sep sep _ s (h s (by simp)),
      split_join sep (t :: l) (by simp) (fun w hw => h w (by simp [hw]))]

/-- `split` computes the fields, and they are unique. -/
theorem fields_iff {sep : UInt8} {s : GoStr} {ws : List GoStr} :
    Fields sep s ws ↔ split sep s = ws := by
  constructor
  · rintro ⟨hne, hno, rfl⟩
    rw [← join_eq_intercalate]
    exact split_join sep ws hne hno
  · rintro rfl
    exact ⟨split_ne_nil sep s, split_no_sep sep s, by rw [← join_eq_intercalate, join_split]⟩

/-! ## Sorting -/

theorem strLe_refl : ∀ s, strLe s s = true
  | [] => rfl
  | a :: s => by simp [strLe, strLe_refl s]

theorem strLe_total : ∀ s t, strLe s t = true ∨ strLe t s = true
  | [], t => .inl (by simp [strLe])
  | _ :: _, [] => .inr (by simp [strLe])
  | a :: s, b :: t => by
    unfold strLe
    rcases UInt8.lt_or_lt_or_eq a b with h | h | h
    · simp [h]
    · simp [h]
    · subst h; simpa using strLe_total s t
where
  UInt8.lt_or_lt_or_eq (a b : UInt8) : a < b ∨ b < a ∨ a = b := by
    rcases UInt8.lt_or_le a b with h | h
    · exact .inl h
    · rcases UInt8.lt_or_eq_of_le h with h | h
      · exact .inr (.inl h)
      · exact .inr (.inr h.symm)

theorem strLe_antisymm : ∀ s t, strLe s t = true → strLe t s = true → s = t
  | [], [], _, _ => rfl
  | [], _ :: _, _, h => by simp [strLe] at h
  | _ :: _, [], h, _ => by simp [strLe] at h
  | a :: s, b :: t, h1, h2 => by
    unfold strLe at h1 h2
    rcases strLe_total.UInt8.lt_or_lt_or_eq a b with h | h | h
    · have := UInt8.lt_asymm h; simp [h, this] at h2
    · have := UInt8.lt_asymm h; simp [h, this] at h1
    · subst h
      have hirr : ¬ a < a := UInt8.lt_irrefl a
      simp only [hirr, if_false] at h1 h2
      rw [strLe_antisymm s t h1 h2]

theorem strLe_trans : ∀ s t u, strLe s t = true → strLe t u = true → strLe s u = true
  | [], _, _, _, _ => by simp [strLe]
  | _ :: _, [], _, h, _ => by simp [strLe] at h
  | _ :: _, _ :: _, [], _, h => by simp [strLe] at h
  | a :: s, b :: t, c :: u, h1, h2 => by
    unfold strLe at h1 h2 ⊢
    rcases strLe_total.UInt8.lt_or_lt_or_eq a b with h | h | h
    · rcases strLe_total.UInt8.lt_or_lt_or_eq b c with h' | h' | h'
      · simp [UInt8.lt_trans h h']
      · have := UInt8.lt_asymm h'; simp [h', this] at h2
      · subst h'; simp [h]
    · have := UInt8.lt_asymm h; simp [h, this] at h1
    · subst h
      have hirr : ¬ a < a := UInt8.lt_irrefl a
      simp only [hirr, if_false] at h1
      rcases strLe_total.UInt8.lt_or_lt_or_eq a c with h' | h' | h'
      · simp [h']
      · have := UInt8.lt_asymm h'; simp [h', this] at h2
      · subst h'
        simp only [hirr, if_false] at h2 ⊢
        exact strLe_trans s t u h1 h2

theorem insertStr_perm (x : GoStr) : ∀ l, (insertStr x l).Perm (x :: l)
  | [] => .refl _
  | y :: ys => by
    unfold insertStr
    by_cases h : strLe x y = true
    · simp [h]
    · simp only [h]
      exact ((insertStr_perm x ys).cons y).trans (.swap x y ys)

theorem sortStrings_perm : ∀ l, (sortStrings l).Perm l
  | [] => .refl _
  | x :: xs => (insertStr_perm x _).trans ((sortStrings_perm xs).cons x)

/-- Sorted in Go's string order. -/
abbrev StrSorted (l : List GoStr) : Prop := l.Pairwise fun a b => strLe a b = true

theorem insertStr_sorted (x : GoStr) : ∀ l, StrSorted l → StrSorted (insertStr x l)
  | [], _ => by simp [insertStr]
  | y :: ys, h => by
    unfold insertStr
    by_cases hx : strLe x y = true
    · simp only [hx, if_true]
      refine List.pairwise_cons.2 ⟨?_, h⟩
      intro b hb
      rcases List.mem_cons.1 hb with rfl | hb
      · exact hx
      · exact strLe_trans _ _ _ hx ((List.pairwise_cons.1 h).1 b hb)
    · simp only [hx]
      refine List.pairwise_cons.2 ⟨?_, insertStr_sorted x ys (List.pairwise_cons.1 h).2⟩
      intro b hb
      rcases List.mem_cons.1 ((insertStr_perm x ys).mem_iff.1 hb) with rfl | hb
      · exact (strLe_total b y).resolve_left hx
      · exact (List.pairwise_cons.1 h).1 b hb

theorem sortStrings_sorted : ∀ l, StrSorted (sortStrings l)
  | [] => .nil
  | x :: xs => insertStr_sorted x _ (sortStrings_sorted xs)

/-- A sorted permutation is unique: any correct sort gives the same list. -/
theorem sorted_perm_unique : ∀ {l1 l2 : List GoStr}, l1.Perm l2 → StrSorted l1 → StrSorted l2 → l1 = l2
  | [], l2, hp, _, _ => (List.nil_perm.1 hp).symm
  | a :: l1, [], hp, _, _ => by simpa using hp.length_eq
  | a :: l1, b :: l2, hp, h1, h2 => by
    have h1' := List.pairwise_cons.1 h1
    have h2' := List.pairwise_cons.1 h2
    have hab : strLe a b = true := by
      have hb : b ∈ a :: l1 := hp.mem_iff.2 (by simp)
      rcases List.mem_cons.1 hb with rfl | hb
      · exact strLe_refl _
      · exact h1'.1 b hb
    have hba : strLe b a = true := by
      have ha : a ∈ b :: l2 := hp.mem_iff.1 (by simp)
      rcases List.mem_cons.1 ha with rfl | ha
      · exact strLe_refl _
      · exact h2'.1 a ha
    have he : a = b := strLe_antisymm _ _ hab hba
    subst he
    rw [sorted_perm_unique (List.perm_cons a |>.1 hp) h1'.2 h2'.2]

theorem sortStrings_eq_iff {l1 l2 : List GoStr} : sortStrings l1 = sortStrings l2 ↔ l1.Perm l2 := by
  constructor
  · intro h
    exact ((sortStrings_perm l1).symm.trans (h ▸ sortStrings_perm l2 : (sortStrings l1).Perm l2))
  · intro h
    exact sorted_perm_unique ((sortStrings_perm l1).trans (h.trans (sortStrings_perm l2).symm))
      (sortStrings_sorted l1) (sortStrings_sorted l2)

theorem join_inj {sep : UInt8} {l1 l2 : List GoStr} (h1 : l1 ≠ []) (h2 : l2 ≠ [])
    (n1 : ∀ w ∈ l1, sep ∉ w) (n2 : ∀ w ∈ l2, sep ∉ w) (h : join sep l1 = join sep l2) : l1 = l2 := by
  rw [← split_join sep l1 h1 n1, h, split_join sep l2 h2 n2]

theorem sortStrings_ne_nil {l : List GoStr} (h : l ≠ []) : sortStrings l ≠ [] := by
  intro e
  have := (sortStrings_perm l).length_eq
  rw [e] at this
  exact h (List.length_eq_zero_iff.1 this.symm)

/-- Sorting and re-joining two strings gives equal results iff their fields agree up to order. -/
theorem join_sort_split_eq_iff {sep : UInt8} {s t : GoStr} :
    join sep (sortStrings (split sep s)) = join sep (sortStrings (split sep t)) ↔
      (split sep s).Perm (split sep t) := by
  rw [← sortStrings_eq_iff]
  constructor
  · intro h
    refine join_inj (sortStrings_ne_nil (split_ne_nil sep s)) (sortStrings_ne_nil (split_ne_nil sep t))
      ?_ ?_ h <;>
    · intro w hw
      exact split_no_sep sep _ w ((sortStrings_perm _).mem_iff.1 hw)
  · intro h; rw [h]

end Goidc
