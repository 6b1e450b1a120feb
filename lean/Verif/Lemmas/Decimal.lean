import Verif.Model.GoStr
import Verif.Spec.Encoding

/-! # Decimal numerals -/

namespace Goidc

open Spec

theorem ofNat_digit_toNat {d : Nat} (h : d < 10) : (UInt8.ofNat (48 + d)).toNat = 48 + d := by
  rw [UInt8.toNat_ofNat']; omega

theorem ofNat_digit_range {d : Nat} (h : d < 10) :
    48 ≤ UInt8.ofNat (48 + d) ∧ UInt8.ofNat (48 + d) ≤ 57 := by
  rw [UInt8.le_iff_toNat_le, UInt8.le_iff_toNat_le, ofNat_digit_toNat h]
  simp only [UInt8.reduceToNat]; omega

theorem digitsAux_ne_nil (fuel n : Nat) : digitsAux (fuel + 1) n ≠ [] := by
  unfold digitsAux; split <;> simp

theorem digitsAux_digits : ∀ fuel n, ∀ c ∈ digitsAux fuel n, 48 ≤ c ∧ c ≤ 57
  | 0, n, c, h => by simp [digitsAux] at h
  | fuel + 1, n, c, h => by
    unfold digitsAux at h
    split at h
    · rename_i hn
      simp only [List.mem_singleton] at h
      subst h; exact ofNat_digit_range hn
    · rcases List.mem_append.1 h with h | h
      · exact digitsAux_digits fuel _ c h
      · simp only [List.mem_singleton] at h
        subst h; exact ofNat_digit_range (by omega)

theorem digitsAux_value : ∀ fuel n, n < 10 ^ fuel → digitsValue (digitsAux fuel n) = n
  | 0, n, h => by simp at h; simp [digitsAux, digitsValue, h]
  | fuel + 1, n, h => by
    unfold digitsAux
    split
    · rename_i hn
      simp only [digitsValue, List.foldl_cons, List.foldl_nil, ofNat_digit_toNat hn]; omega
    · have hq : n / 10 < 10 ^ fuel := by rw [Nat.pow_succ] at h; omega
      have ih := digitsAux_value fuel (n / 10) hq
      unfold digitsValue at ih ⊢
      rw [List.foldl_append, ih]
      simp only [List.foldl_cons, List.foldl_nil]
      rw [ofNat_digit_toNat (by omega)]
      omega

theorem digitsAux_head : ∀ fuel n, n < 10 ^ fuel → (digitsAux fuel n).head? = some 48 →
    digitsAux fuel n = [48] ∧ n = 0
  | 0, n, _, h => by simp [digitsAux] at h
  | fuel + 1, n, hlt, h => by
    unfold digitsAux at h ⊢
    split at h
    · rename_i hn
      have h0 : n = 0 := by
        simp only [List.head?_cons, Option.some.injEq] at h
        have := congrArg UInt8.toNat h
        rw [ofNat_digit_toNat hn] at this
        simp only [UInt8.reduceToNat] at this; omega
      subst h0; simp
    · rename_i hn
      exfalso
      have hq : n / 10 < 10 ^ fuel := by rw [Nat.pow_succ] at hlt; omega
      cases fuel with
      | zero => simp at hq; omega
      | succ fuel =>
        have hne := digitsAux_ne_nil fuel (n / 10)
        have hh : (digitsAux (fuel + 1) (n / 10)).head? = some 48 := by
          cases hd : digitsAux (fuel + 1) (n / 10) with
          | nil => exact absurd hd hne
          | cons c l => rw [hd] at h; simpa using h
        have := (digitsAux_head (fuel + 1) (n / 10) hq hh).2
        omega

theorem int64_natAbs_lt (n : Int64) : n.toInt.natAbs < 10 ^ 20 := by
  have h1 := n.toInt_lt
  have h2 := n.le_toInt
  omega

theorem itoa_digits (n : Int64) :
    ∃ ds, IsDigits ds ∧ digitsValue ds = n.toInt.natAbs ∧ (ds.head? = some 48 → ds = [48] ∧ n.toInt = 0) ∧
      itoa n = if n.toInt < 0 then 45 :: ds else ds := by
  refine ⟨digitsAux 20 n.toInt.natAbs, ⟨digitsAux_ne_nil 19 _, digitsAux_digits _ _⟩,
    digitsAux_value _ _ (int64_natAbs_lt n), ?_, rfl⟩
  intro h
  obtain ⟨h1, h2⟩ := digitsAux_head _ _ (int64_natAbs_lt n) h
  exact ⟨h1, by omega⟩

/-- A digit string starts with a digit. -/
theorem isDigits_head {ds : GoStr} (h : IsDigits ds) : ds.head? ≠ some 43 ∧ ds.head? ≠ some 45 := by
  cases ds with
  | nil => exact absurd rfl h.1
  | cons c cs =>
    have := h.2 c (by simp)
    simp only [List.head?_cons, Option.some.injEq, ne_eq]
    constructor <;> rintro rfl <;> exact absurd this.1 (by decide)

/-- `%d` prints the canonical decimal numeral. -/
theorem itoa_canonical (n : Int64) : CanonicalDecimal (itoa n) n.toInt := by
  obtain ⟨ds, hd, hv, hz, hi⟩ := itoa_digits n
  have hh := isDigits_head hd
  rw [hi]
  by_cases hn : n.toInt < 0
  · rw [if_pos hn]
    refine ⟨⟨ds, hd, .inr (.inr ⟨rfl, by omega⟩)⟩, by simp, by simp [hn], ?_⟩
    rintro (h | ⟨_, h⟩)
    · simp at h
    · exact absurd (hz h).2 (by omega)
  · rw [if_neg hn]
    refine ⟨⟨ds, hd, .inl ⟨rfl, by omega⟩⟩, hh.1, ?_, ?_⟩
    · simp [hh.2, hn]
    · rintro (h | ⟨h, _⟩)
      · exact (hz h).1
      · exact absurd h hh.2

theorem parseDigits_eq : ∀ (ds : GoStr) (acc : Nat),
    parseDigits acc ds = if ∀ c ∈ ds, 48 ≤ c ∧ c ≤ 57
      then some (ds.foldl (fun n c => 10 * n + (c.toNat - 48)) acc) else none
  | [], acc => by simp [parseDigits]
  | c :: cs, acc => by
    unfold parseDigits
    by_cases h : 48 ≤ c ∧ c ≤ 57
    · rw [if_pos h, parseDigits_eq cs]
      simp only [List.mem_cons, forall_eq_or_imp, h, true_and, List.foldl_cons, and_self]
      rw [Nat.mul_comm]
    · rw [if_neg h, if_neg]
      intro hall; exact h (hall c (by simp))

theorem isDigits_parse {ds : GoStr} (h : IsDigits ds) : parseDigits 0 ds = some (digitsValue ds) := by
  rw [parseDigits_eq, if_pos h.2]; rfl

theorem parseDigits_some {ds : GoStr} {n : Nat} (hne : ds ≠ []) (h : parseDigits 0 ds = some n) :
    IsDigits ds ∧ n = digitsValue ds := by
  rw [parseDigits_eq] at h
  split at h
  · rename_i hd
    exact ⟨⟨hne, hd⟩, (Option.some.inj h).symm⟩
  · simp at h

theorem toInt_ofInt_of {z : Int} (h1 : -2 ^ 63 ≤ z) (h2 : z < 2 ^ 63) : (Int64.ofInt z).toInt = z := by
  rw [Int64.toInt_ofInt]
  simp only [Int.bmod, Int64.size]
  omega

/-- `strconv.Atoi` on a 64-bit platform accepts exactly the optionally signed decimal numerals of
integers that fit, with their value. -/
theorem atoi_iff (s : GoStr) (n : Int64) : atoi s = some n ↔ SignedDecimal s n.toInt := by
  have hlo := n.le_toInt
  have hhi := n.toInt_lt
  constructor
  · intro h
    unfold atoi at h
    simp only at h
    by_cases h45 : s.head? = some 45
    · cases s with
      | nil => simp at h45
      | cons c cs =>
        simp only [List.head?_cons, Option.some.injEq] at h45
        subst h45
        simp only [List.head?_cons, true_or, if_true, List.tail_cons] at h
        by_cases hcs : cs = []
        · simp [hcs] at h
        · rw [if_neg hcs] at h
          split at h
          · simp at h
          · rename_i v hv
            split at h
            · simp only [Option.some.injEq] at h
              obtain ⟨hd, rfl⟩ := parseDigits_some hcs hv
              refine ⟨cs, hd, .inr (.inr ⟨rfl, ?_⟩)⟩
              rw [← h, toInt_ofInt_of (by omega) (by omega)]
            · simp at h
    · simp only [h45, false_or, if_false] at h
      by_cases h43 : s.head? = some 43
      · cases s with
        | nil => simp at h43
        | cons c cs =>
          simp only [List.head?_cons, Option.some.injEq] at h43
          subst h43
          simp only [List.head?_cons, if_true, List.tail_cons] at h
          by_cases hcs : cs = []
          · simp [hcs] at h
          · rw [if_neg hcs] at h
            split at h
            · simp at h
            · rename_i v hv
              split at h
              · simp only [Option.some.injEq] at h
                obtain ⟨hd, rfl⟩ := parseDigits_some hcs hv
                refine ⟨cs, hd, .inr (.inl ⟨rfl, ?_⟩)⟩
                rw [← h, toInt_ofInt_of (by omega) (by omega)]
              · simp at h
      · simp only [h43, if_false] at h
        by_cases hcs : s = []
        · simp [hcs] at h
        · rw [if_neg hcs] at h
          split at h
          · simp at h
          · rename_i v hv
            split at h
            · simp only [Option.some.injEq] at h
              obtain ⟨hd, rfl⟩ := parseDigits_some hcs hv
              refine ⟨s, hd, .inl ⟨rfl, ?_⟩⟩
              rw [← h, toInt_ofInt_of (by omega) (by omega)]
            · simp at h
  · rintro ⟨ds, hd, h⟩
    have hh := isDigits_head hd
    have hp := isDigits_parse hd
    unfold atoi
    rcases h with ⟨rfl, hz⟩ | ⟨rfl, hz⟩ | ⟨rfl, hz⟩
    · simp only [hh.1, hh.2, or_self, if_false, hd.1, hp]
      rw [if_pos (by omega), ← hz, Int64.ofInt_toInt]
    · simp only [List.head?_cons, Option.some.injEq, List.tail_cons, or_true, if_true, hd.1, if_false, hp,
        show ¬ ((43 : UInt8) = 45) by decide]
      rw [if_pos (by omega), ← hz, Int64.ofInt_toInt]
    · simp only [List.head?_cons, List.tail_cons, true_or, if_true, hd.1, if_false, hp]
      rw [if_pos (by omega), ← hz, Int64.ofInt_toInt]

/-- Reading back what `%d` printed. -/
theorem atoi_itoa (n : Int64) : atoi (itoa n) = some n :=
  (atoi_iff _ _).2 (itoa_canonical n).1

theorem itoa_injective {a b : Int64} (h : itoa a = itoa b) : a = b := by
  have := atoi_itoa a
  rw [h, atoi_itoa b] at this
  exact (Option.some.inj this).symm

theorem itoa_ne_nil (n : Int64) : itoa n ≠ [] := by
  intro h
  have := (itoa_canonical n).1
  rw [h] at this
  obtain ⟨ds, hd, h⟩ := this
  rcases h with ⟨h, _⟩ | ⟨h, _⟩ | ⟨h, _⟩
  · exact hd.1 h.symm
  · simp at h
  · simp at h

theorem itoa_mem (n : Int64) : ∀ c ∈ itoa n, (48 ≤ c ∧ c ≤ 57) ∨ c = 45 := by
  obtain ⟨ds, hd, _, _, hi⟩ := itoa_digits n
  rw [hi]
  intro c hc
  split at hc
  · rcases List.mem_cons.1 hc with rfl | hc
    · exact .inr rfl
    · exact .inl (hd.2 c hc)
  · exact .inl (hd.2 c hc)

/-- A string is the decimal of at most one integer. -/
theorem signedDecimal_unique {s : GoStr} {a b : Int} (ha : SignedDecimal s a) (hb : SignedDecimal s b) : a = b := by
  obtain ⟨ds, hd, h1⟩ := ha
  obtain ⟨es, he, h2⟩ := hb
  have hd' := isDigits_head hd
  have he' := isDigits_head he
  rcases h1 with ⟨rfl, rfl⟩ | ⟨rfl, rfl⟩ | ⟨rfl, rfl⟩ <;> rcases h2 with ⟨h, rfl⟩ | ⟨h, rfl⟩ | ⟨h, rfl⟩ <;>
    first
    | (subst h; simp at hd' he' ⊢; done)
    | (simp at h; subst h; rfl)
    | (simp at h)

end Goidc
