import Verif.Model.Encoding
import Verif.Lemmas.Base64

/-! # URL and HTML escaping -/

namespace Goidc

theorem queryUnescape_escapeByte (c : UInt8) : ∀ rest,
    queryUnescape (queryEscapeByte c ++ rest) = (queryUnescape rest).map (c :: ·) := by
  intro rest
  have key : ∀ c : UInt8,
      (isUnreserved c = true ∧ c ≠ 37 ∧ c ≠ 43) ∨ (isUnreserved c = false ∧ c = 32) ∨
      (isUnreserved c = false ∧ c ≠ 32 ∧ unhex (hexUpper (c.toNat / 16)) = some (c.toNat / 16) ∧
        unhex (hexUpper (c.toNat % 16)) = some (c.toNat % 16)) := by
    apply forall_byte; decide +kernel
  rcases key c with ⟨h, h37, h43⟩ | ⟨h, rfl⟩ | ⟨h, h32, h1, h2⟩
  · have he : queryEscapeByte c = [c] := by simp [queryEscapeByte, h]
    rw [he, List.singleton_append, queryUnescape.eq_def]
    simp only [h37, h43, if_false]
  · have he : queryEscapeByte 32 = [43] := by decide
    rw [he, List.singleton_append, queryUnescape.eq_def]
    simp
  · have he : queryEscapeByte c = [37, hexUpper (c.toNat / 16), hexUpper (c.toNat % 16)] := by
      simp [queryEscapeByte, h, h32]
    rw [he]
    simp only [List.cons_append, List.nil_append]
    rw [queryUnescape.eq_def]
    simp only [if_true, h1, h2]
    have hb := c.toNat_lt
    rw [ofNat_eq (a := c) (by omega)]

/-- `QueryUnescape` undoes `QueryEscape`. -/
theorem queryUnescape_escape : ∀ s, queryUnescape (queryEscape s) = some s
  | [] => by simp [queryEscape, queryUnescape]
  | c :: cs => by
    have ih := queryUnescape_escape cs
    simp only [queryEscape, List.flatMap_cons] at ih ⊢
    rw [queryUnescape_escapeByte, ih]; rfl

/-- Bytes that survive `QueryEscape`. -/
def isEscaped (c : UInt8) : Bool := isUnreserved c || c == 43 || c == 37

theorem queryEscape_mem (s : GoStr) : ∀ c ∈ queryEscape s, isEscaped c = true := by
  have key : ∀ b : UInt8, ∀ c ∈ queryEscapeByte b, isEscaped c = true := by
    apply forall_byte; decide +kernel
  intro c hc
  obtain ⟨b, _, hb⟩ := List.mem_flatMap.1 hc
  exact key b c hb

theorem queryEscape_not_mem {s : GoStr} {c : UInt8} (h : isEscaped c = false) : c ∉ queryEscape s := by
  intro hc
  rw [queryEscape_mem s c hc] at h
  simp at h

theorem queryEscape_eq_nil {s : GoStr} : queryEscape s = [] ↔ s = [] := by
  constructor
  · intro h
    have := queryUnescape_escape s
    rw [h] at this
    simpa [queryUnescape] using this.symm
  · rintro rfl; rfl

theorem queryEscape_injective {s t : GoStr} (h : queryEscape s = queryEscape t) : s = t := by
  have := queryUnescape_escape s
  rw [h, queryUnescape_escape] at this
  exact (Option.some.inj this).symm

theorem cut_append (sep : UInt8) (r : GoStr) : ∀ w : GoStr, sep ∉ w →
    cut sep (w ++ sep :: r) = (w, r, true)
  | [], _ => by simp [cut]
  | c :: cs, h => by
    simp only [List.mem_cons, not_or] at h
    rw [List.cons_append]
    unfold cut
    rw [if_neg (fun e => h.1 e.symm), cut_append sep r cs h.2]

theorem cut_none (sep : UInt8) : ∀ w : GoStr, sep ∉ w → cut sep w = (w, [], false)
  | [], _ => rfl
  | c :: cs, h => by
    simp only [List.mem_cons, not_or] at h
    unfold cut
    rw [if_neg (fun e => h.1 e.symm), cut_none sep cs h.2]

theorem insertPair_perm (x : GoStr × GoStr) : ∀ l, (insertPair x l).Perm (x :: l)
  | [] => .refl _
  | y :: ys => by
    unfold insertPair
    by_cases h : strLe x.1 y.1 = true
    · simp [h]
    · simp only [h]
      exact ((insertPair_perm x ys).cons y).trans (.swap x y ys)

theorem sortPairs_perm : ∀ l, (sortPairs l).Perm l
  | [] => .refl _
  | x :: xs => (insertPair_perm x _).trans ((sortPairs_perm xs).cons x)

theorem parsePiece_encode (kv : GoStr × GoStr) :
    parsePiece (queryEscape kv.1 ++ 61 :: queryEscape kv.2) = some kv := by
  unfold parsePiece
  have h59 : (queryEscape kv.1 ++ 61 :: queryEscape kv.2).contains 59 = false := by
    have h1 := queryEscape_not_mem (s := kv.1) (c := 59) (by decide)
    have h2 := queryEscape_not_mem (s := kv.2) (c := 59) (by decide)
    simp [h1, h2]
  have hne : queryEscape kv.1 ++ 61 :: queryEscape kv.2 ≠ [] := by simp
  have h61 := queryEscape_not_mem (s := kv.1) (c := 61) (by decide)
  simp only [h59, hne, cut_append 61 _ _ h61, queryUnescape_escape, if_false, Bool.false_eq_true]

/-- Parsing an encoded parameter list gives the parameters, sorted by key. -/
theorem parseQuery_valuesEncode (ps : Params) : parseQuery (valuesEncode ps) = sortPairs ps := by
  unfold parseQuery valuesEncode
  cases hs : sortPairs ps with
  | nil => simp [join, split, parsePiece]
  | cons a l =>
    rw [split_join 38 _ (by simp)]
    · rw [List.filterMap_map]
      have : (parsePiece ∘ fun kv : GoStr × GoStr => queryEscape kv.1 ++ 61 :: queryEscape kv.2) = some := by
        funext kv; exact parsePiece_encode kv
      rw [this, List.filterMap_some]
    · intro w hw
      obtain ⟨kv, _, rfl⟩ := List.mem_map.1 hw
      have h1 := queryEscape_not_mem (s := kv.1) (c := 38) (by decide)
      have h2 := queryEscape_not_mem (s := kv.2) (c := 38) (by decide)
      simp [h1, h2]

theorem valuesEncode_mem (ps : Params) : ∀ c ∈ valuesEncode ps, isEscaped c = true ∨ c = 61 ∨ c = 38 := by
  unfold valuesEncode
  generalize sortPairs ps = l
  induction l with
  | nil => simp [join]
  | cons a l ih =>
    have ha : ∀ c ∈ queryEscape a.1 ++ 61 :: queryEscape a.2, isEscaped c = true ∨ c = 61 ∨ c = 38 := by
      intro c hc
      rcases List.mem_append.1 hc with hc | hc
      · exact .inl (queryEscape_mem _ c hc)
      · rcases List.mem_cons.1 hc with rfl | hc
        · simp
        · exact .inl (queryEscape_mem _ c hc)
    cases l with
    | nil => simpa [join] using ha
    | cons b l =>
      simp only [List.map_cons, join] at ih ⊢
      intro c hc
      rcases List.mem_append.1 hc with hc | hc
      · exact ha c hc
      · rcases List.mem_cons.1 hc with rfl | hc
        · simp
        · exact ih c hc

theorem hexEscapeNonASCII_append (a b : GoStr) :
    hexEscapeNonASCII (a ++ b) = hexEscapeNonASCII a ++ hexEscapeNonASCII b := by
  simp [hexEscapeNonASCII]

theorem hexEscapeNonASCII_ascii {s : GoStr} (h : ∀ c ∈ s, c.toNat < 128) : hexEscapeNonASCII s = s := by
  induction s with
  | nil => rfl
  | cons c cs ih =>
    unfold hexEscapeNonASCII at ih ⊢
    rw [List.flatMap_cons, ih (fun c hc => h c (by simp [hc])), if_pos (h c (by simp))]
    rfl

theorem valuesEncode_ascii (ps : Params) : ∀ c ∈ valuesEncode ps, c.toNat < 128 := by
  have key : ∀ c : UInt8, isEscaped c = true ∨ c = 61 ∨ c = 38 → c.toNat < 128 := by
    apply forall_byte; decide +kernel
  intro c hc
  exact key c (valuesEncode_mem ps c hc)

/-! ## HTML -/

theorem htmlEscape_mem (s : GoStr) : ∀ c ∈ htmlEscape s, c ≠ 34 ∧ c ≠ 39 ∧ c ≠ 60 ∧ c ≠ 62 := by
  have key : ∀ b : UInt8, ∀ c ∈ htmlEscapeByte b, c ≠ 34 ∧ c ≠ 39 ∧ c ≠ 60 ∧ c ≠ 62 := by
    apply forall_byte; decide +kernel
  intro c hc
  obtain ⟨b, _, hb⟩ := List.mem_flatMap.1 hc
  exact key b c hb

end Goidc
