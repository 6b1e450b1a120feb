import Verif.Spec.Json

/-!
# Specification: JSON texts as Go's encoding/json accepts them

RFC 8259 with one liberty: the text inside the quotes of a string need not be well-formed UTF-8 and may escape
a surrogate that has no partner.  Each ill-formed byte and each such escape stands for U+FFFD.
-/

namespace Goidc.Spec

/-- The text begins with the escape of a low surrogate. -/
def BeginsLowSurrogate (raw : List UInt8) : Prop :=
  ∃ a b c d lo raw', raw = 92 :: 117 :: a :: b :: c :: d :: raw' ∧ HexQuad a b c d lo ∧ 0xDC00 ≤ lo ∧ lo < 0xE000

/-- `LooseChars raw cps`: the text `raw` between the quotes of a string stands for the characters `cps`.  The first
five rules are those of `JChars`. -/
inductive LooseChars : List UInt8 → List Nat → Prop
  | nil : LooseChars [] []
  | plain {cp raw cps} : IsScalar cp → 0x20 ≤ cp → cp ≠ 34 → cp ≠ 92 → LooseChars raw cps →
      LooseChars (utf8 cp ++ raw) (cp :: cps)
  | short {e cp raw cps} : (e, cp) ∈ shortEscapes → LooseChars raw cps → LooseChars (92 :: e :: raw) (cp :: cps)
  | unicode {a b c d n raw cps} : HexQuad a b c d n → IsScalar n → LooseChars raw cps →
      LooseChars (92 :: 117 :: a :: b :: c :: d :: raw) (n :: cps)
  | surrogates {a b c d a' b' c' d' hi lo raw cps} : HexQuad a b c d hi → HexQuad a' b' c' d' lo →
      0xD800 ≤ hi → hi < 0xDC00 → 0xDC00 ≤ lo → lo < 0xE000 → LooseChars raw cps →
      LooseChars (92 :: 117 :: a :: b :: c :: d :: 92 :: 117 :: a' :: b' :: c' :: d' :: raw)
        ((0x10000 + (hi - 0xD800) * 1024 + (lo - 0xDC00)) :: cps)
  /-- a surrogate without a partner -/
  | lone {a b c d n raw cps} : HexQuad a b c d n → 0xD800 ≤ n → n < 0xE000 →
      ¬ (n < 0xDC00 ∧ BeginsLowSurrogate raw) → LooseChars raw cps →
      LooseChars (92 :: 117 :: a :: b :: c :: d :: raw) (0xFFFD :: cps)
  /-- a byte that does not begin the encoding of a character -/
  | illFormed {b raw cps} : 0x80 ≤ b → (∀ cp, IsScalar cp → ¬ utf8 cp <+: b :: raw) → LooseChars raw cps →
      LooseChars (b :: raw) (0xFFFD :: cps)

/-- `text` is a string in quotes standing for the bytes `s`. -/
def LooseStr (text s : List UInt8) : Prop :=
  ∃ (raw : List UInt8) (cps : List Nat), text = 34 :: raw ++ [34] ∧ LooseChars raw cps ∧ s = cps.flatMap utf8

mutual
/-- As `JValue`, with `LooseStr` for strings. -/
inductive LooseValue : List UInt8 → JVal → Prop
  | null : LooseValue b!"null" .null
  | true : LooseValue b!"true" (.bool Bool.true)
  | false : LooseValue b!"false" (.bool Bool.false)
  | num {t} : JNum t → LooseValue t (.num t)
  | str {t s} : LooseStr t s → LooseValue t (.str s)
  | arrNil {w} : IsWs w → LooseValue (91 :: (w ++ [93])) (.arr [])
  | arr {t l} : LooseElems t l → LooseValue (91 :: (t ++ [93])) (.arr l)
  | objNil {w} : IsWs w → LooseValue (123 :: (w ++ [125])) (.obj [])
  | obj {t m} : LooseMembers t m → LooseValue (123 :: (t ++ [125])) (.obj m)

/-- As `JElems`. -/
inductive LooseElems : List UInt8 → List JVal → Prop
  | one {w t w' v} : IsWs w → LooseValue t v → IsWs w' → LooseElems (w ++ (t ++ w')) [v]
  | cons {w t w' v t' l} : IsWs w → LooseValue t v → IsWs w' → LooseElems t' l →
      LooseElems (w ++ (t ++ (w' ++ 44 :: t'))) (v :: l)

/-- As `JMembers`. -/
inductive LooseMembers : List UInt8 → List (List UInt8 × JVal) → Prop
  | one {w1 w2 w3 w4 kt k t v} : IsWs w1 → LooseStr kt k → IsWs w2 → IsWs w3 → LooseValue t v → IsWs w4 →
      LooseMembers (w1 ++ (kt ++ (w2 ++ 58 :: (w3 ++ (t ++ w4))))) [(k, v)]
  | cons {w1 w2 w3 w4 kt k t v t' m} : IsWs w1 → LooseStr kt k → IsWs w2 → IsWs w3 → LooseValue t v → IsWs w4 →
      LooseMembers t' m → LooseMembers (w1 ++ (kt ++ (w2 ++ 58 :: (w3 ++ (t ++ (w4 ++ 44 :: t')))))) ((k, v) :: m)
end

/-- `text` is, for encoding/json, a JSON document for the value `v`. -/
def LooseText (text : List UInt8) (v : JVal) : Prop :=
  ∃ w t w', IsWs w ∧ LooseValue t v ∧ IsWs w' ∧ text = w ++ (t ++ w')

/-- `text` begins with such a document; what follows is arbitrary. -/
def LooseStart (text : List UInt8) (v : JVal) : Prop :=
  ∃ w t rest, IsWs w ∧ LooseValue t v ∧ text = w ++ (t ++ rest)

end Goidc.Spec
