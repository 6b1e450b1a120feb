import Verif.Model.Encoding
import Verif.Spec.Json

/-! # UTF-8 -/

namespace Goidc

open Spec

theorem toNat_ofNat_lt {n : Nat} (h : n < 256) : (UInt8.ofNat n).toNat = n := by
  rw [UInt8.toNat_ofNat']; omega

theorem utf8_ne_nil (cp : Nat) : utf8 cp ≠ [] := by
  unfold utf8; split <;> (try split) <;> (try split) <;> simp

theorem decodeRune_utf8 {cp : Nat} (h : IsScalar cp) (rest : GoStr) :
    decodeRune (utf8 cp ++ rest) = some (cp, (utf8 cp).length) := by
  unfold IsScalar at h
  unfold utf8
  split
  · rename_i h1
    simp only [List.cons_append, List.nil_append, decodeRune, toNat_ofNat_lt (show cp < 256 by omega), if_pos h1,
      List.length_cons, List.length_nil]
  · split
    · rename_i h1 h2
      simp only [List.cons_append, List.nil_append, decodeRune, inRange,
        toNat_ofNat_lt (show 0xC0 + cp / 64 < 256 by omega), toNat_ofNat_lt (show 0x80 + cp % 64 < 256 by omega)]
      rw [if_neg (by omega), if_neg (by omega), if_pos (by omega), if_pos (by simp; omega)]
      simp; omega
    · split
      · rename_i h1 h2 h3
        simp only [List.cons_append, List.nil_append, decodeRune, inRange,
          toNat_ofNat_lt (show 0xE0 + cp / 4096 < 256 by omega), toNat_ofNat_lt (show 0x80 + cp / 64 % 64 < 256 by omega),
          toNat_ofNat_lt (show 0x80 + cp % 64 < 256 by omega)]
        rw [if_neg (by omega), if_neg (by omega), if_neg (by omega), if_pos (by omega), if_pos (by
          simp only [Bool.and_eq_true, decide_eq_true_eq]
          split <;> split <;> omega)]
        simp; omega
      · rename_i h1 h2 h3
        simp only [List.cons_append, List.nil_append, decodeRune, inRange,
          toNat_ofNat_lt (show 0xF0 + cp / 262144 < 256 by omega),
          toNat_ofNat_lt (show 0x80 + cp / 4096 % 64 < 256 by omega),
          toNat_ofNat_lt (show 0x80 + cp / 64 % 64 < 256 by omega),
          toNat_ofNat_lt (show 0x80 + cp % 64 < 256 by omega)]
        rw [if_neg (by omega), if_neg (by omega), if_neg (by omega), if_neg (by omega), if_pos (by omega), if_pos (by
          simp only [Bool.and_eq_true, decide_eq_true_eq]
          split <;> split <;> omega)]
        simp; omega

theorem byte_eq {a : UInt8} {n : Nat} (h : n = a.toNat) : a = UInt8.ofNat n := by
  rw [h, UInt8.ofNat_toNat]

theorem decodeRune_some {s : GoStr} {r w : Nat} (h : decodeRune s = some (r, w)) :
    IsScalar r ∧ w = (utf8 r).length ∧ s.take w = utf8 r ∧ w ≤ s.length := by
  unfold decodeRune at h
  unfold IsScalar
  cases s with
  | nil => cases h
  | cons a rest =>
    dsimp only at h
    have ha := a.toNat_lt
    split at h
    · rename_i h1
      simp only [Option.some.injEq, Prod.mk.injEq] at h
      obtain ⟨rfl, rfl⟩ := h
      unfold utf8
      rw [if_pos h1]
      refine ⟨by omega, rfl, ?_, by simp⟩
      simp
    · split at h
      · cases h
      · split at h
        · cases rest with
          | nil => cases h
          | cons b rest =>
            dsimp only at h
            have hb := b.toNat_lt
            split at h
            · rename_i h1 h2 h3 h4
              simp only [Option.some.injEq, Prod.mk.injEq] at h
              simp only [inRange, Bool.and_eq_true, decide_eq_true_eq] at h4
              obtain ⟨rfl, rfl⟩ := h
              unfold utf8
              rw [if_neg (by omega), if_pos (by omega)]
              refine ⟨by omega, rfl, ?_, by simp⟩
              simp only [List.take_succ_cons, List.take_zero, List.cons.injEq, and_true]
              exact ⟨byte_eq (by omega), byte_eq (by omega)⟩
            · cases h
        · split at h
          · rcases rest with _ | ⟨b, _ | ⟨c, rest⟩⟩
            · cases h
            · cases h
            · dsimp only at h
              have hb := b.toNat_lt
              have hc := c.toNat_lt
              generalize hlo : (if a.toNat = 0xE0 then 0xA0 else 0x80) = lo at h
              generalize hhi : (if a.toNat = 0xED then 0x9F else 0xBF) = hi at h
              split at h
              · rename_i h1 h2 h3 h4 h5
                simp only [Option.some.injEq, Prod.mk.injEq] at h
                simp only [inRange, Bool.and_eq_true, decide_eq_true_eq] at h5
                obtain ⟨rfl, rfl⟩ := h
                have k1 : (a.toNat = 224 → 160 ≤ b.toNat) ∧ 128 ≤ b.toNat := by
                  split at hlo <;> omega
                have k3 : (a.toNat = 237 → b.toNat ≤ 159) ∧ b.toNat ≤ 191 := by
                  split at hhi <;> omega
                have k5 := h5.2
                clear h5
                unfold utf8
                rw [if_neg (by omega), if_neg (by omega), if_pos (by omega)]
                refine ⟨by omega, rfl, ?_, by simp⟩
                simp only [List.take_succ_cons, List.take_zero, List.cons.injEq, and_true]
                exact ⟨byte_eq (by omega), byte_eq (by omega), byte_eq (by omega)⟩
              · cases h
          · split at h
            · rcases rest with _ | ⟨b, _ | ⟨c, _ | ⟨d, rest⟩⟩⟩
              · cases h
              · cases h
              · cases h
              · dsimp only at h
                have hb := b.toNat_lt
                have hc := c.toNat_lt
                have hd := d.toNat_lt
                generalize hlo : (if a.toNat = 0xF0 then 0x90 else 0x80) = lo at h
                generalize hhi : (if a.toNat = 0xF4 then 0x8F else 0xBF) = hi at h
                split at h
                · rename_i h1 h2 h3 h4 h5 h6
                  simp only [Option.some.injEq, Prod.mk.injEq] at h
                  simp only [inRange, Bool.and_eq_true, decide_eq_true_eq] at h6
                  obtain ⟨rfl, rfl⟩ := h
                  have k1 : (a.toNat = 240 → 144 ≤ b.toNat) ∧ 128 ≤ b.toNat := by
                    split at hlo <;> omega
                  have k3 : (a.toNat = 244 → b.toNat ≤ 143) ∧ b.toNat ≤ 191 := by
                    split at hhi <;> omega
                  have k5 := h6.1.2
                  have k6 := h6.2
                  clear h6
                  unfold utf8
                  rw [if_neg (by omega), if_neg (by omega), if_neg (by omega)]
                  refine ⟨by omega, rfl, ?_, by simp⟩
                  simp only [List.take_succ_cons, List.take_zero, List.cons.injEq, and_true]
                  exact ⟨byte_eq (by omega), byte_eq (by omega), byte_eq (by omega), byte_eq (by omega)⟩
                · cases h
            · cases h

/-- More fuel does not change the chunks. -/
theorem runesAux_fuel : ∀ (n m : Nat) (s : GoStr), s.length ≤ n → s.length ≤ m → runesAux n s = runesAux m s
  | 0, 0, _, _, _ => rfl
  | 0, m + 1, s, h, _ => by
    have : s = [] := List.eq_nil_of_length_eq_zero (by omega)
    subst this; rfl
  | n + 1, 0, s, _, h => by
    have : s = [] := List.eq_nil_of_length_eq_zero (by omega)
    subst this; rfl
  | n + 1, m + 1, [], _, _ => rfl
  | n + 1, m + 1, a :: rest, h1, h2 => by
    simp only [runesAux]
    simp only [List.length_cons] at h1 h2
    cases hd : decodeRune (a :: rest) with
    | none => simp only [runesAux_fuel n m rest (by omega) (by omega)]
    | some x =>
      obtain ⟨r, w⟩ := x
      obtain ⟨_, hw, _⟩ := decodeRune_some hd
      have hpos : 0 < w := by rw [hw]; exact List.length_pos_iff.2 (utf8_ne_nil r)
      have hl : ((a :: rest).drop w).length ≤ rest.length := by simp; omega
      simp only [runesAux_fuel n m ((a :: rest).drop w) (by omega) (by omega)]

theorem runes_nil : runes [] = [] := rfl

/-- The chunks of a string starting with a valid encoding. -/
theorem runes_utf8 {cp : Nat} (h : IsScalar cp) (rest : GoStr) :
    runes (utf8 cp ++ rest) = (some cp, utf8 cp) :: runes rest := by
  have hd := decodeRune_utf8 h rest
  cases hs : utf8 cp ++ rest with
  | nil => exact absurd (List.append_eq_nil_iff.1 hs).1 (utf8_ne_nil cp)
  | cons a t =>
    rw [hs] at hd
    have ht : (a :: t).take (utf8 cp).length = utf8 cp := by rw [← hs]; simp
    have hdr : (a :: t).drop (utf8 cp).length = rest := by rw [← hs]; simp
    unfold runes
    simp only [List.length_cons, runesAux, hd, ht, hdr]
    congr 1
    apply runesAux_fuel
    · rw [← hdr]; simp only [List.length_drop, List.length_cons]
      have := List.length_pos_iff.2 (utf8_ne_nil cp); omega
    · exact Nat.le_refl _

/-- The chunks of a string starting with an invalid byte. -/
theorem runes_invalid {a : UInt8} {rest : GoStr} (h : decodeRune (a :: rest) = none) :
    runes (a :: rest) = (none, [a]) :: runes rest := by
  unfold runes
  simp only [List.length_cons, runesAux, h]

/-- Induction along the chunks of a string. -/
theorem runes_induction {P : GoStr → Prop} (hnil : P [])
    (hvalid : ∀ cp rest, IsScalar cp → P rest → P (utf8 cp ++ rest))
    (hinvalid : ∀ a rest, decodeRune (a :: rest) = none → P rest → P (a :: rest)) (s : GoStr) : P s := by
  suffices ∀ n (s : GoStr), s.length ≤ n → P s from this _ s (Nat.le_refl _)
  intro n
  induction n with
  | zero =>
    intro s h
    have : s = [] := List.eq_nil_of_length_eq_zero (by omega)
    subst this; exact hnil
  | succ n ih =>
    intro s h
    cases s with
    | nil => exact hnil
    | cons a rest =>
      cases hd : decodeRune (a :: rest) with
      | none => exact hinvalid a rest hd (ih rest (by simpa using h))
      | some x =>
        obtain ⟨r, w⟩ := x
        obtain ⟨h1, h2, h3, h4⟩ := decodeRune_some hd
        have := hvalid r ((a :: rest).drop w) h1 (ih _ (by
          have := List.length_pos_iff.2 (utf8_ne_nil r)
          simp only [List.length_drop, List.length_cons] at h ⊢; omega))
        rwa [← h3, List.take_append_drop] at this

/-- The chunks make up the string. -/
theorem runes_flatten (s : GoStr) : (runes s).flatMap (·.2) = s := by
  induction s using runes_induction with
  | hnil => rfl
  | hvalid cp rest h ih => rw [runes_utf8 h, List.flatMap_cons, ih]
  | hinvalid a rest h ih => rw [runes_invalid h, List.flatMap_cons, ih]; rfl

/-- The chunks of valid UTF-8. -/
theorem runes_encode : ∀ cps : List Nat, (∀ cp ∈ cps, IsScalar cp) →
    runes (cps.flatMap utf8) = cps.map fun cp => (some cp, utf8 cp)
  | [], _ => rfl
  | cp :: cps, h => by
    rw [List.flatMap_cons, runes_utf8 (h cp List.mem_cons_self),
      runes_encode cps fun x hx => h x (List.mem_cons_of_mem _ hx), List.map_cons]

/-- A string with every invalid byte replaced by U+FFFD (Go `strings.ToValidUTF8` per byte). -/
def toValid (s : GoStr) : GoStr := (runes s).flatMap fun c => utf8 (c.1.getD 0xFFFD)

/-- The characters of a string, invalid bytes read as U+FFFD. -/
def chars (s : GoStr) : List Nat := (runes s).map fun c => c.1.getD 0xFFFD

theorem toValid_eq (s : GoStr) : toValid s = (chars s).flatMap utf8 := by
  unfold toValid chars
  rw [List.flatMap_map]

theorem chars_scalar (s : GoStr) : ∀ cp ∈ chars s, IsScalar cp := by
  induction s using runes_induction with
  | hnil => simp [chars, runes_nil]
  | hvalid cp rest h ih =>
    unfold chars at ih ⊢
    rw [runes_utf8 h]
    intro x hx
    rcases List.mem_cons.1 hx with rfl | hx
    · exact h
    · exact ih x hx
  | hinvalid a rest h ih =>
    unfold chars at ih ⊢
    rw [runes_invalid h]
    intro x hx
    rcases List.mem_cons.1 hx with rfl | hx
    · exact .inr ⟨by show 57344 ≤ 65533; omega, by show 65533 < 1114112; omega⟩
    · exact ih x hx

theorem toValid_valid (s : GoStr) : ValidUtf8 (toValid s) := ⟨chars s, chars_scalar s, toValid_eq s⟩

theorem toValid_of_valid {s : GoStr} (h : ValidUtf8 s) : toValid s = s := by
  obtain ⟨cps, h, rfl⟩ := h
  unfold toValid
  rw [runes_encode cps h, List.flatMap_map]
  rfl

theorem validUtf8_iff (s : GoStr) : validUtf8 s = true ↔ ValidUtf8 s := by
  constructor
  · intro h
    induction s using runes_induction with
    | hnil => exact ⟨[], by simp, rfl⟩
    | hvalid cp rest hc ih =>
      unfold validUtf8 at h ih
      rw [runes_utf8 hc, List.all_cons, Bool.and_eq_true] at h
      obtain ⟨cps, h1, h2⟩ := ih h.2
      refine ⟨cp :: cps, ?_, by rw [List.flatMap_cons, h2]⟩
      intro x hx
      rcases List.mem_cons.1 hx with rfl | hx
      · exact hc
      · exact h1 x hx
    | hinvalid a rest hc ih =>
      unfold validUtf8 at h
      rw [runes_invalid hc, List.all_cons] at h
      simp at h
  · rintro ⟨cps, h, rfl⟩
    unfold validUtf8
    rw [runes_encode cps h, List.all_map]
    simp

/-- ASCII strings are valid. -/
theorem valid_ascii {s : GoStr} (h : ∀ c ∈ s, c.toNat < 128) : ValidUtf8 s := by
  refine ⟨s.map (·.toNat), ?_, ?_⟩
  · intro cp hcp
    obtain ⟨c, hc, rfl⟩ := List.mem_map.1 hcp
    have := h c hc
    exact .inl (by omega)
  · induction s with
    | nil => rfl
    | cons a s ih =>
      have ha := h a List.mem_cons_self
      rw [List.map_cons, List.flatMap_cons, ← ih fun c hc => h c (List.mem_cons_of_mem _ hc)]
      unfold utf8
      rw [if_pos ha, UInt8.ofNat_toNat]
      rfl

end Goidc
