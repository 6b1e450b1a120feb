import Verif.Model.GoStr

/-! # Specifications: base64url by bits, decimal numerals -/

namespace Goidc.Spec

/-- The base64url alphabet (RFC 4648, section 5). -/
def base64urlAlphabet : List UInt8 :=
  b!"ABCDEFGHIJKLMNOPQRSTUVWXYZabcdefghijklmnopqrstuvwxyz0123456789-_"

/-- The standard base64 alphabet (RFC 4648, section 4). -/
def base64Alphabet : List UInt8 :=
  b!"ABCDEFGHIJKLMNOPQRSTUVWXYZabcdefghijklmnopqrstuvwxyz0123456789+/"

/-- The bits of a byte, most significant first. -/
def bits (b : UInt8) : List Bool := [7, 6, 5, 4, 3, 2, 1, 0].map fun i => b.toNat.testBit i

/-- The number written by some bits, most significant first. -/
def bitsValue (l : List Bool) : Nat := l.foldl (fun n b => 2 * n + b.toNat) 0

/-- A bit string cut into groups of six, the last one filled with zero bits. -/
def sextets : List Bool → List Nat
  | [] => []
  | [a] => [bitsValue [a, false, false, false, false, false]]
  | [a, b] => [bitsValue [a, b, false, false, false, false]]
  | [a, b, c] => [bitsValue [a, b, c, false, false, false]]
  | [a, b, c, d] => [bitsValue [a, b, c, d, false, false]]
  | [a, b, c, d, e] => [bitsValue [a, b, c, d, e, false]]
  | a :: b :: c :: d :: e :: f :: rest => bitsValue [a, b, c, d, e, f] :: sextets rest

/-- Base64 without padding for a given alphabet (RFC 4648). -/
def base64Raw (alphabet : List UInt8) (data : List UInt8) : List UInt8 :=
  (sextets (data.flatMap bits)).map fun n => alphabet.getD n 0

/-- Unpadded base64url. -/
abbrev base64url : List UInt8 → List UInt8 := base64Raw base64urlAlphabet

/-- `=` characters needed to fill `n` characters up to a multiple of four. -/
def padding (n : Nat) : List UInt8 := List.replicate ((4 - n % 4) % 4) 61

/-- Base64 with padding, standard alphabet. -/
def base64 (data : List UInt8) : List UInt8 :=
  base64Raw base64Alphabet data ++ padding (base64Raw base64Alphabet data).length

/-- Decimal digits only, at least one. -/
def IsDigits (ds : List UInt8) : Prop := ds ≠ [] ∧ ∀ c ∈ ds, 48 ≤ c ∧ c ≤ 57

/-- The number written by decimal digits. -/
def digitsValue (ds : List UInt8) : Nat := ds.foldl (fun n c => 10 * n + (c.toNat - 48)) 0

/-- `s` is an optionally signed decimal numeral of the integer `z`. -/
def SignedDecimal (s : List UInt8) (z : Int) : Prop :=
  ∃ ds, IsDigits ds ∧
    ((s = ds ∧ z = digitsValue ds) ∨ (s = 43 :: ds ∧ z = digitsValue ds) ∨
      (s = 45 :: ds ∧ z = - (digitsValue ds : Int)))

/-- `s` is the canonical decimal numeral of `z`: no `+`, no leading zero, `0` without sign. -/
def CanonicalDecimal (s : List UInt8) (z : Int) : Prop :=
  SignedDecimal s z ∧ s.head? ≠ some 43 ∧ (s.head? = some 45 ↔ z < 0) ∧
    ((s.head? = some 48 ∨ (s.head? = some 45 ∧ s.tail.head? = some 48)) → s = [48])

end Goidc.Spec
