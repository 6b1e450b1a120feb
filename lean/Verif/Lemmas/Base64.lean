import Verif.Model.Encoding
import Verif.Spec.Encoding
import Verif.Lemmas.Str

/-! # base64 -/

namespace Goidc

open Spec

/-- To prove something of all bytes, check the 256 values. -/
theorem forall_byte {P : UInt8 → Prop} (h : ∀ n, n < 256 → P (UInt8.ofNat n)) (b : UInt8) : P b := by
  have := h b.toNat b.toNat_lt
  rwa [UInt8.ofNat_toNat] at this

theorem b64Val_char (url : Bool) : ∀ n < 64, b64Val url (b64Char url n) = some n := by
  cases url <;> decide

theorem b64Char_ne_pad (url : Bool) : ∀ n < 64, b64Char url n ≠ 61 := by cases url <;> decide
theorem b64Char_ne_lf (url : Bool) : ∀ n < 64, b64Char url n ≠ 10 ∧ b64Char url n ≠ 13 := by
  cases url <;> decide
theorem b64Char_url : ∀ n < 64, b64Char true n = base64urlAlphabet.getD n 0 := by decide
theorem b64Char_std : ∀ n < 64, b64Char false n = base64Alphabet.getD n 0 := by decide

/-- Encoding without the padding. -/
def b64Raw (url : Bool) : List UInt8 → GoStr
  | [] => []
  | [a] => [b64Char url (a.toNat / 4), b64Char url (a.toNat % 4 * 16)]
  | [a, b] =>
    [b64Char url (a.toNat / 4), b64Char url (a.toNat % 4 * 16 + b.toNat / 16),
     b64Char url (b.toNat % 16 * 4)]
  | a :: b :: c :: rest =>
    b64Char url (a.toNat / 4) :: b64Char url (a.toNat % 4 * 16 + b.toNat / 16) ::
    b64Char url (b.toNat % 16 * 4 + c.toNat / 64) :: b64Char url (c.toNat % 64) ::
    b64Raw url rest

theorem b64Raw_length (url : Bool) : ∀ d, (b64Raw url d).length = (4 * d.length + 2) / 3
  | [] => by simp [b64Raw]
  | [_] => by simp [b64Raw]
  | [_, _] => by simp [b64Raw]
  | a :: b :: c :: rest => by
    simp only [b64Raw, List.length_cons, b64Raw_length url rest]; omega

theorem b64Encode_eq (url : Bool) : ∀ d, b64Encode url d = b64Raw url d ++ padding (b64Raw url d).length
  | [] => by simp [b64Raw, b64Encode, padding]
  | [_] => by simp [b64Raw, b64Encode, padding]
  | [_, _] => by simp [b64Raw, b64Encode, padding]
  | a :: b :: c :: rest => by
    simp only [b64Encode, b64Raw, b64Encode_eq url rest, List.cons_append, List.length_cons, padding]
    congr 6
    omega

theorem b64Raw_mem (url : Bool) : ∀ d, ∀ c ∈ b64Raw url d, ∃ n < 64, c = b64Char url n
  | [], c, h => by simp [b64Raw] at h
  | [a], c, h => by
    have ha := a.toNat_lt
    simp only [b64Raw, List.mem_cons, List.not_mem_nil, or_false] at h
    rcases h with rfl | rfl <;> exact ⟨_, by omega, rfl⟩
  | [a, b], c, h => by
    have ha := a.toNat_lt
    have hb := b.toNat_lt
    simp only [b64Raw, List.mem_cons, List.not_mem_nil, or_false] at h
    rcases h with rfl | rfl | rfl <;> exact ⟨_, by omega, rfl⟩
  | a :: b :: e :: rest, c, h => by
    have ha := a.toNat_lt
    have hb := b.toNat_lt
    have he := e.toNat_lt
    simp only [b64Raw, List.mem_cons] at h
    rcases h with rfl | rfl | rfl | rfl | h
    · exact ⟨_, by omega, rfl⟩
    · exact ⟨_, by omega, rfl⟩
    · exact ⟨_, by omega, rfl⟩
    · exact ⟨_, by omega, rfl⟩
    · exact b64Raw_mem url rest c h

theorem b64Raw_no_pad (url : Bool) (d : List UInt8) : (61 : UInt8) ∉ b64Raw url d := by
  intro h
  obtain ⟨n, hn, he⟩ := b64Raw_mem url d _ h
  exact b64Char_ne_pad url n hn he.symm

theorem split_replicate_sep (sep : UInt8) : ∀ (w : GoStr) (k : Nat), sep ∉ w →
    ∃ l, split sep (w ++ List.replicate k sep) = w :: l
  | w, 0, h => ⟨[], by simp [split_of_no_sep sep w h]⟩
  | w, k + 1, h => ⟨_, by rw [List.replicate_succ, split_append_sep sep _ w h]⟩

theorem ofNat_eq {n : Nat} {a : UInt8} (h : n = a.toNat) : UInt8.ofNat n = a := by
  rw [h, UInt8.ofNat_toNat]

theorem b64DecodeQ_encode (url : Bool) : ∀ d, b64DecodeQ url (b64Encode url d) = (d, true)
  | [] => rfl
  | [a] => by
    have ha := a.toNat_lt
    have e1 := b64Val_char url (a.toNat / 4) (by omega)
    have e2 := b64Val_char url (a.toNat % 4 * 16) (by omega)
    have e3 : b64Val url 61 = none := by cases url <;> decide
    simp only [b64Encode, b64DecodeQ, e1, e2, e3, and_self, if_true, List.isEmpty_nil]
    congr 2
    exact ofNat_eq (by omega)
  | [a, b] => by
    have ha := a.toNat_lt
    have hb := b.toNat_lt
    have e1 := b64Val_char url (a.toNat / 4) (by omega)
    have e2 := b64Val_char url (a.toNat % 4 * 16 + b.toNat / 16) (by omega)
    have e3 := b64Val_char url (b.toNat % 16 * 4) (by omega)
    have e4 : b64Val url 61 = none := by cases url <;> decide
    simp only [b64Encode, b64DecodeQ, e1, e2, e3, e4, if_true, List.isEmpty_nil]
    congr 2
    · exact ofNat_eq (by omega)
    · congr 1; exact ofNat_eq (by omega)
  | a :: b :: c :: rest => by
    have ha := a.toNat_lt
    have hb := b.toNat_lt
    have hc := c.toNat_lt
    have e1 := b64Val_char url (a.toNat / 4) (by omega)
    have e2 := b64Val_char url (a.toNat % 4 * 16 + b.toNat / 16) (by omega)
    have e3 := b64Val_char url (b.toNat % 16 * 4 + c.toNat / 64) (by omega)
    have e4 := b64Val_char url (c.toNat % 64) (by omega)
    simp only [b64Encode, b64DecodeQ, e1, e2, e3, e4, b64DecodeQ_encode url rest]
    congr 2
    · exact ofNat_eq (by omega)
    · congr 1
      · exact ofNat_eq (by omega)
      · congr 1; exact ofNat_eq (by omega)

theorem b64Encode_mem (url : Bool) (d : List UInt8) (c : UInt8) (h : c ∈ b64Encode url d) :
    (∃ n < 64, c = b64Char url n) ∨ c = 61 := by
  rw [b64Encode_eq] at h
  rcases List.mem_append.1 h with h | h
  · exact .inl (b64Raw_mem url d c h)
  · exact .inr (List.eq_of_mem_replicate h)

/-- Decoding undoes encoding. -/
theorem b64Decode_encode (url : Bool) (d : List UInt8) : b64Decode url (b64Encode url d) = (d, true) := by
  unfold b64Decode
  rw [List.filter_eq_self.2]
  · exact b64DecodeQ_encode url d
  · intro c hc
    rcases b64Encode_mem url d c hc with ⟨n, hn, rfl⟩ | rfl
    · have := b64Char_ne_lf url n hn
      simp [this.1, this.2]
    · decide

/-! ## Agreement with the bit-level specification -/

theorem bits_hi6 (a : UInt8) : bitsValue ((bits a).take 6) = a.toNat / 4 := by
  revert a; apply forall_byte; decide +kernel
theorem bits_mid (a b : UInt8) : bitsValue ((bits a).drop 6 ++ (bits b).take 4) =
    a.toNat % 4 * 16 + b.toNat / 16 := by
  have h1 : bitsValue ((bits a).drop 6) = a.toNat % 4 := by revert a; apply forall_byte; decide +kernel
  have h2 : bitsValue ((bits b).take 4) = b.toNat / 16 := by revert b; apply forall_byte; decide +kernel
  rw [← h1, ← h2]
  simp [bits, bitsValue]; omega
theorem bits_mid2 (a b : UInt8) : bitsValue ((bits a).drop 4 ++ (bits b).take 2) =
    a.toNat % 16 * 4 + b.toNat / 64 := by
  have h1 : bitsValue ((bits a).drop 4) = a.toNat % 16 := by revert a; apply forall_byte; decide +kernel
  have h2 : bitsValue ((bits b).take 2) = b.toNat / 64 := by revert b; apply forall_byte; decide +kernel
  rw [← h1, ← h2]
  simp [bits, bitsValue]; omega
theorem bits_lo6 (a : UInt8) : bitsValue ((bits a).drop 2) = a.toNat % 64 := by
  revert a; apply forall_byte; decide +kernel
theorem bits_lo2 (a : UInt8) :
    bitsValue ((bits a).drop 6 ++ [false, false, false, false]) = a.toNat % 4 * 16 := by
  revert a; apply forall_byte; decide +kernel
theorem bits_lo4 (a : UInt8) : bitsValue ((bits a).drop 4 ++ [false, false]) = a.toNat % 16 * 4 := by
  revert a; apply forall_byte; decide +kernel

theorem sextets3 (a b c : UInt8) (rest : List Bool) :
    sextets (bits a ++ (bits b ++ (bits c ++ rest))) =
      bitsValue ((bits a).take 6) :: bitsValue ((bits a).drop 6 ++ (bits b).take 4) ::
      bitsValue ((bits b).drop 4 ++ (bits c).take 2) :: bitsValue ((bits c).drop 2) :: sextets rest := rfl

theorem b64Raw_spec (url : Bool) (al : List UInt8) (hal : ∀ n < 64, b64Char url n = al.getD n 0) :
    ∀ d, b64Raw url d = base64Raw al d
  | [] => rfl
  | [a] => by
    have ha := a.toNat_lt
    have h : base64Raw al [a] = [al.getD (bitsValue ((bits a).take 6)) 0,
      al.getD (bitsValue ((bits a).drop 6 ++ [false, false, false, false])) 0] := rfl
    rw [h, bits_hi6, bits_lo2, b64Raw, hal _ (by omega), hal _ (by omega)]
  | [a, b] => by
    have ha := a.toNat_lt
    have hb := b.toNat_lt
    have h : base64Raw al [a, b] = [al.getD (bitsValue ((bits a).take 6)) 0,
      al.getD (bitsValue ((bits a).drop 6 ++ (bits b).take 4)) 0,
      al.getD (bitsValue ((bits b).drop 4 ++ [false, false])) 0] := rfl
    rw [h, bits_hi6, bits_mid, bits_lo4, b64Raw, hal _ (by omega), hal _ (by omega), hal _ (by omega)]
  | a :: b :: c :: rest => by
    have ha := a.toNat_lt
    have hb := b.toNat_lt
    have hc := c.toNat_lt
    have ih := b64Raw_spec url al hal rest
    unfold base64Raw at ih ⊢
    simp only [List.flatMap_cons, sextets3, List.map_cons, ← ih]
    rw [bits_hi6, bits_mid, bits_mid2, bits_lo6, b64Raw, hal _ (by omega), hal _ (by omega),
      hal _ (by omega), hal _ (by omega)]

/-- The standard encoding is RFC 4648 base64 with padding. -/
theorem b64Encode_std_spec (d : List UInt8) : b64Encode false d = Spec.base64 d := by
  rw [b64Encode_eq, b64Raw_spec false base64Alphabet b64Char_std]; rfl

end Goidc
