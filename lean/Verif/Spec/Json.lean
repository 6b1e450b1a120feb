import Verif.Model.GoStr

/-!
# Specification: UTF-8 (RFC 3629) and JSON texts (RFC 8259)

Written from the RFCs, without reference to the encoders and decoders of the model.
-/

namespace Goidc.Spec

/-! ## UTF-8 -/

/-- A Unicode scalar value: a code point that is not a surrogate. -/
def IsScalar (cp : Nat) : Prop := cp < 0xD800 ∨ (0xE000 ≤ cp ∧ cp < 0x110000)

instance (cp : Nat) : Decidable (IsScalar cp) := by unfold IsScalar; infer_instance

/-- The UTF-8 encoding of a code point (RFC 3629, section 3). -/
def utf8 (cp : Nat) : List UInt8 :=
  if cp < 0x80 then [UInt8.ofNat cp]
  else if cp < 0x800 then [UInt8.ofNat (0xC0 + cp / 64), UInt8.ofNat (0x80 + cp % 64)]
  else if cp < 0x10000 then
    [UInt8.ofNat (0xE0 + cp / 4096), UInt8.ofNat (0x80 + cp / 64 % 64), UInt8.ofNat (0x80 + cp % 64)]
  else
    [UInt8.ofNat (0xF0 + cp / 262144), UInt8.ofNat (0x80 + cp / 4096 % 64),
     UInt8.ofNat (0x80 + cp / 64 % 64), UInt8.ofNat (0x80 + cp % 64)]

/-- `s` is valid UTF-8: the encoding of a sequence of scalar values. -/
def ValidUtf8 (s : List UInt8) : Prop := ∃ cps : List Nat, (∀ cp ∈ cps, IsScalar cp) ∧ s = cps.flatMap utf8

/-! ## JSON -/

/-- JSON values.  A number is kept as its literal; strings are the UTF-8 bytes of their characters. -/
inductive JVal
  | null
  | bool (b : Bool)
  | num (literal : List UInt8)
  | str (s : List UInt8)
  | arr (l : List JVal)
  | obj (members : List (List UInt8 × JVal))

/-- Insignificant whitespace. -/
def IsWs (w : List UInt8) : Prop := ∀ c ∈ w, c = 32 ∨ c = 9 ∨ c = 10 ∨ c = 13

/-- `c` is a hexadecimal digit of value `x`. -/
def HexDigit (c : UInt8) (x : Nat) : Prop :=
  x < 16 ∧ (c = b!"0123456789abcdef".getD x 0 ∨ c = b!"0123456789ABCDEF".getD x 0)

/-- The value of four hexadecimal digits. -/
def HexQuad (a b c d : UInt8) (n : Nat) : Prop :=
  ∃ x y z w, HexDigit a x ∧ HexDigit b y ∧ HexDigit c z ∧ HexDigit d w ∧
    n = x * 4096 + y * 256 + z * 16 + w

/-- The two-character escapes: the character after the backslash and the character meant. -/
def shortEscapes : List (UInt8 × Nat) :=
  [(34, 34), (92, 92), (47, 47), (98, 8), (102, 12), (110, 10), (114, 13), (116, 9)]

/-- `JChars raw cps`: the text `raw` between the quotes of a JSON string stands for the characters
`cps`. -/
inductive JChars : List UInt8 → List Nat → Prop
  | nil : JChars [] []
  | plain {cp raw cps} : IsScalar cp → 0x20 ≤ cp → cp ≠ 34 → cp ≠ 92 → JChars raw cps →
      JChars (utf8 cp ++ raw) (cp :: cps)
  | short {e cp raw cps} : (e, cp) ∈ shortEscapes → JChars raw cps → JChars (92 :: e :: raw) (cp :: cps)
  | unicode {a b c d n raw cps} : HexQuad a b c d n → IsScalar n → JChars raw cps →
      JChars (92 :: 117 :: a :: b :: c :: d :: raw) (n :: cps)
  | surrogates {a b c d a' b' c' d' hi lo raw cps} : HexQuad a b c d hi → HexQuad a' b' c' d' lo →
      0xD800 ≤ hi → hi < 0xDC00 → 0xDC00 ≤ lo → lo < 0xE000 → JChars raw cps →
      JChars (92 :: 117 :: a :: b :: c :: d :: 92 :: 117 :: a' :: b' :: c' :: d' :: raw)
        ((0x10000 + (hi - 0xD800) * 1024 + (lo - 0xDC00)) :: cps)

/-- `JStr text s`: `text` is a JSON string (with its quotes) standing for the bytes `s`. -/
def JStr (text s : List UInt8) : Prop :=
  ∃ (raw : List UInt8) (cps : List Nat), text = 34 :: raw ++ [34] ∧ JChars raw cps ∧ s = cps.flatMap utf8

/-- One or more decimal digits. -/
def IsDigitSeq (ds : List UInt8) : Prop := ds ≠ [] ∧ ∀ c ∈ ds, 48 ≤ c ∧ c ≤ 57

/-- A JSON number: optional minus, digits without a leading zero, optional fraction, optional
exponent. -/
def JNum (t : List UInt8) : Prop :=
  ∃ sign int frac exp, t = sign ++ int ++ frac ++ exp ∧
    (sign = [] ∨ sign = [45]) ∧
    IsDigitSeq int ∧ (int.head? = some 48 → int = [48]) ∧
    (frac = [] ∨ ∃ ds, IsDigitSeq ds ∧ frac = 46 :: ds) ∧
    (exp = [] ∨ ∃ e sg ds, (e = 101 ∨ e = 69) ∧ (sg = [] ∨ sg = [43] ∨ sg = [45]) ∧ IsDigitSeq ds ∧
      exp = e :: sg ++ ds)

mutual
/-- `JValue text v`: `text` is the JSON value `v`, without surrounding whitespace. -/
inductive JValue : List UInt8 → JVal → Prop
  | null : JValue b!"null" .null
  | true : JValue b!"true" (.bool Bool.true)
  | false : JValue b!"false" (.bool Bool.false)
  | num {t} : JNum t → JValue t (.num t)
  | str {t s} : JStr t s → JValue t (.str s)
  | arrNil {w} : IsWs w → JValue (91 :: (w ++ [93])) (.arr [])
  | arr {t l} : JElems t l → JValue (91 :: (t ++ [93])) (.arr l)
  | objNil {w} : IsWs w → JValue (123 :: (w ++ [125])) (.obj [])
  | obj {t m} : JMembers t m → JValue (123 :: (t ++ [125])) (.obj m)

/-- One or more comma-separated array elements. -/
inductive JElems : List UInt8 → List JVal → Prop
  | one {w t w' v} : IsWs w → JValue t v → IsWs w' → JElems (w ++ (t ++ w')) [v]
  | cons {w t w' v t' l} : IsWs w → JValue t v → IsWs w' → JElems t' l →
      JElems (w ++ (t ++ (w' ++ 44 :: t'))) (v :: l)

/-- One or more comma-separated object members. -/
inductive JMembers : List UInt8 → List (List UInt8 × JVal) → Prop
  | one {w1 w2 w3 w4 kt k t v} : IsWs w1 → JStr kt k → IsWs w2 → IsWs w3 → JValue t v → IsWs w4 →
      JMembers (w1 ++ (kt ++ (w2 ++ 58 :: (w3 ++ (t ++ w4))))) [(k, v)]
  | cons {w1 w2 w3 w4 kt k t v t' m} : IsWs w1 → JStr kt k → IsWs w2 → IsWs w3 → JValue t v → IsWs w4 →
      JMembers t' m → JMembers (w1 ++ (kt ++ (w2 ++ 58 :: (w3 ++ (t ++ (w4 ++ 44 :: t')))))) ((k, v) :: m)
end

/-- `JsonText text v`: `text` is a JSON document for the value `v`. -/
def JsonText (text : List UInt8) (v : JVal) : Prop :=
  ∃ w t w', IsWs w ∧ JValue t v ∧ IsWs w' ∧ text = w ++ (t ++ w')

end Goidc.Spec

namespace Goidc.Spec

/-- The members of a token response (RFC 6749, section 5.1, and OpenID Connect Core 3.1.3.3) as goidc
documents them; `lifetime` is a number literal. -/
def tokenMembers (accessToken lifetime refreshToken scope idToken : List UInt8) : List (List UInt8 × JVal) :=
  [(b!"token_type", .str b!"Bearer"), (b!"access_token", .str accessToken), (b!"expires_in", .num lifetime)]
  ++ (if refreshToken = [] then [] else [(b!"refresh_token", .str refreshToken)])
  ++ [(b!"scope", .str scope)]
  ++ (if idToken = [] then [] else [(b!"id_token", .str idToken)])

/-- The members of an error response (RFC 6749, section 5.2). -/
def errorMembers (code description uri : List UInt8) : List (List UInt8 × JVal) :=
  [(b!"error", .str code)]
  ++ (if description = [] then [] else [(b!"error_description", .str description)])
  ++ (if uri = [] then [] else [(b!"error_uri", .str uri)])

end Goidc.Spec
