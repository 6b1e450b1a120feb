import Verif.Lemmas.Json

/-! # The JSON writers produce JSON texts -/

namespace Goidc

open Spec Json

theorem hexDigit_lower {n : Nat} (h : n < 16) : HexDigit (hexLower n) n := by
  have : ∀ n < 16, hexLower n = b!"0123456789abcdef".getD n 0 := by decide
  exact ⟨h, .inl (this n h)⟩

/-- One UTF-8 chunk as written by encoding/json. -/
theorem jchars_valid {cp : Nat} (h : IsScalar cp) {raw : GoStr} {cps : List Nat} (hr : JChars raw cps) :
    JChars (jsonChunk (some cp, utf8 cp) ++ raw) (cp :: cps) := by
  unfold jsonChunk
  dsimp only
  split
  · rename_i h1; subst h1; exact .short (by decide) hr
  split
  · rename_i h1; subst h1; exact .short (by decide) hr
  split
  · rename_i h1; subst h1; exact .short (by decide) hr
  split
  · rename_i h1; subst h1; exact .short (by decide) hr
  split
  · rename_i h1; subst h1; exact .short (by decide) hr
  split
  · rename_i h1
    refine .unicode ⟨0, 0, cp / 16, cp % 16, ⟨by decide, .inl rfl⟩, ⟨by decide, .inl rfl⟩, hexDigit_lower (by omega),
      hexDigit_lower (by omega), by omega⟩ h hr
  split
  · rename_i h1; subst h1
    exact .unicode ⟨2, 0, 2, 8, ⟨by decide, .inl rfl⟩, ⟨by decide, .inl rfl⟩, ⟨by decide, .inl rfl⟩,
      ⟨by decide, .inl rfl⟩, rfl⟩ h hr
  split
  · rename_i h1; subst h1
    exact .unicode ⟨2, 0, 2, 9, ⟨by decide, .inl rfl⟩, ⟨by decide, .inl rfl⟩, ⟨by decide, .inl rfl⟩,
      ⟨by decide, .inl rfl⟩, rfl⟩ h hr
  · exact .plain h (by omega) (by omega) (by omega) hr

theorem jchars_invalid (b : GoStr) {raw : GoStr} {cps : List Nat} (hr : JChars raw cps) :
    JChars (jsonChunk (none, b) ++ raw) (0xFFFD :: cps) :=
  .unicode ⟨15, 15, 15, 13, ⟨by decide, .inl rfl⟩, ⟨by decide, .inl rfl⟩, ⟨by decide, .inl rfl⟩,
    ⟨by decide, .inl rfl⟩, rfl⟩ (.inr (by decide)) hr

/-- encoding/json writes the characters of a string, invalid bytes as U+FFFD. -/
theorem jchars_runes (s : GoStr) : JChars ((runes s).flatMap jsonChunk) (chars s) := by
  induction s using runes_induction with
  | hnil => exact .nil
  | hvalid cp rest h ih =>
    unfold chars at ih ⊢
    rw [runes_utf8 h, List.flatMap_cons]
    exact jchars_valid h ih
  | hinvalid a rest h ih =>
    unfold chars at ih ⊢
    rw [runes_invalid h, List.flatMap_cons]
    exact jchars_invalid _ ih

/-- The raw text between the quotes written by `jsonString`. -/
def rawOf (s : GoStr) : GoStr := (runes s).flatMap jsonChunk

theorem rstr_jsonString (s : GoStr) : RStr (jsonString s) (rawOf s) := ⟨rfl, _, jchars_runes s⟩

theorem unquote_rawOf (s : GoStr) : unquote (rawOf s) = toValid s := by
  rw [toValid_eq]; exact unquote_complete (jchars_runes s)

theorem jstr_jsonString (s : GoStr) : JStr (jsonString s) (toValid s) :=
  ⟨_, _, rfl, jchars_runes s, toValid_eq s⟩

theorem jnum_itoa (n : Int64) : JNum (itoa n) := by
  obtain ⟨hd, h43, _, h0⟩ := itoa_canonical n
  obtain ⟨ds, hds, h⟩ := hd
  have hh := isDigits_head hds
  rcases h with ⟨he, _⟩ | ⟨he, _⟩ | ⟨he, _⟩
  · refine ⟨[], ds, [], [], by simp [he], .inl rfl, hds, ?_, .inl rfl, .inl rfl⟩
    intro hx
    rw [he] at h0
    exact h0 (.inl hx)
  · rw [he] at h43; exact absurd rfl h43
  · refine ⟨[45], ds, [], [], by simp [he], .inr rfl, hds, ?_, .inl rfl, .inl rfl⟩
    intro hx
    rw [he] at h0
    have := h0 (.inr ⟨rfl, hx⟩)
    simp at this

/-- One member: key text and raw key, value text and value. -/
structure Field where
  keyText : GoStr
  key : GoStr
  text : GoStr
  value : Json

/-- Members joined by commas are the members of an object. -/
theorem rmembers_join : ∀ l : List Field, l ≠ [] →
    (∀ x ∈ l, RStr x.keyText x.key ∧ RValue x.text x.value) →
    RMembers (join 44 (l.map fun x => x.keyText ++ 58 :: x.text)) (l.map fun x => (x.key, x.value))
  | [], h, _ => absurd rfl h
  | [x], _, h => by
    obtain ⟨h1, h2⟩ := h x List.mem_cons_self
    have := RMembers.one ws_nil h1 ws_nil ws_nil h2 ws_nil
    simpa [join] using this
  | x :: y :: l, _, h => by
    obtain ⟨h1, h2⟩ := h x List.mem_cons_self
    have ih := rmembers_join (y :: l) (by simp) fun z hz => h z (List.mem_cons_of_mem _ hz)
    have := RMembers.cons ws_nil h1 ws_nil ws_nil h2 ws_nil ih
    simpa [join] using this

/-- An object written member by member. -/
theorem robj_join (l : List Field) (hl : l ≠ []) (h : ∀ x ∈ l, RStr x.keyText x.key ∧ RValue x.text x.value) :
    RValue (b!"{" ++ join 44 (l.map fun x => x.keyText ++ 58 :: x.text) ++ b!"}")
      (.obj (l.map fun x => (x.key, x.value))) := .obj (rmembers_join l hl h)

theorem membersValue_map (l : List (GoStr × Json)) :
    Json.membersValue l = l.map fun x => (unquote x.1, x.2.value) := by
  induction l with
  | nil => rfl
  | cons x l ih => obtain ⟨k, v⟩ := x; simp only [Json.membersValue, List.map_cons, ih]

theorem jsonText_of_raw {t : GoStr} {j : Json} (h : RValue t j) : JsonText t j.value :=
  ⟨[], t, [], ws_nil, value_of_raw h, ws_nil, by simp⟩

/-- A string member with a literal key. -/
def Field.ofStr (k s : GoStr) : Field := ⟨jsonString k, rawOf k, jsonString s, .str (rawOf s)⟩
/-- A number member. -/
def Field.ofInt (k : GoStr) (n : Int64) : Field := ⟨jsonString k, rawOf k, itoa n, .num (itoa n)⟩

theorem field_ofStr (k s : GoStr) : RStr (Field.ofStr k s).keyText (Field.ofStr k s).key ∧
    RValue (Field.ofStr k s).text (Field.ofStr k s).value := ⟨rstr_jsonString k, .str (rstr_jsonString s)⟩

theorem field_ofInt (k : GoStr) (n : Int64) : RStr (Field.ofInt k n).keyText (Field.ofInt k n).key ∧
    RValue (Field.ofInt k n).text (Field.ofInt k n).value := ⟨rstr_jsonString k, .num (jnum_itoa n)⟩

end Goidc
