import Verif.Spec.LooseJson
import Verif.Spec.Jws

/-! # Specification: what golang-jwt takes for a JWS -/

namespace Goidc.Spec

/-- The bits of a base64 digit, most significant first. -/
def digitBits (n : Nat) : List Bool := [5, 4, 3, 2, 1, 0].map fun i => n.testBit i

/-- `s` is base64url for `data`, as Go's decoder reads it: line breaks are skipped, padding may be there or not, and
the bits left over behind the last byte (fewer than six) may have any value. -/
def LooseBase64url (s data : List UInt8) : Prop :=
  ∃ (digits : List Nat) (pads : List UInt8),
    (s.filter fun c => c ≠ 10 ∧ c ≠ 13) = (digits.map fun n => base64urlAlphabet.getD n 0) ++ pads ∧
    (∀ n ∈ digits, n < 64) ∧ (∀ c ∈ pads, c = 61) ∧
    data.flatMap bits <+: digits.flatMap digitBits ∧ 6 * digits.length < 8 * data.length + 6

/-- As `IsJws`, as golang-jwt reads it: header, payload and signature are `LooseBase64url`, header and payload are JSON
as encoding/json reads it, and the text of the payload may be followed by anything. -/
def LooseJws (tok : List UInt8) (header payload : List (List UInt8 × JVal)) (signed sig : List UInt8) : Prop :=
  ∃ a b g h c, tok = signed ++ 46 :: g ∧ signed = a ++ 46 :: b ∧ (46 : UInt8) ∉ a ∧ (46 : UInt8) ∉ b ∧ (46 : UInt8) ∉ g ∧
    LooseBase64url a h ∧ LooseText h (.obj header) ∧
    LooseBase64url b c ∧ LooseStart c (.obj payload) ∧ LooseBase64url g sig

end Goidc.Spec
