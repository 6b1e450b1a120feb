import Lean

/-!
# Go byte strings and the standard-library string functions goidc uses

Go strings are immutable byte sequences; `len` counts bytes and `==` is bytewise.  They are modelled
as `List UInt8`.  The functions below model Go's standard library (not /repo itself); each comment
names the Go function and the place in /repo that uses it.
-/

namespace Goidc

open Lean in
/-- Go `string` (and `[]byte` used as a value). -/
abbrev GoStr := List UInt8

/-- Byte-string literal: `b!"abc"` is the UTF-8 bytes of the literal. -/
syntax:max "b!" str : term

open Lean in
macro_rules
  | `(b! $s:str) => do
    let bs := s.getString.toUTF8.toList
    let xs ← bs.toArray.mapM fun b => `($(Syntax.mkNumLit (toString b.toNat)))
    `(([$xs,*] : List UInt8))

/-- Go `strings.Split(s, sep)` for a one-byte separator; `Split("", sep)` is `[""]`.
Used at scope/util.go:15, prompt/util.go:29, flow/flow.go:64, resource_protector.go:58,
pkce/crypto.go:22. -/
def split (sep : UInt8) : GoStr → List GoStr
  | [] => [[]]
  | c :: cs =>
    if c = sep then [] :: split sep cs
    else match split sep cs with
      | [] => [[c]]
      | h :: t => (c :: h) :: t

/-- Go `strings.Join(l, sep)` for a one-byte separator.
Used at scope/util.go:40,60, flow/flow.go:66. -/
def join (sep : UInt8) : List GoStr → GoStr
  | [] => []
  | [s] => s
  | s :: t :: l => s ++ sep :: join sep (t :: l)

/-- `strings.Join(l, sep)` for a separator of any length (oauth_error/errors.go:182). -/
def joinStr (sep : GoStr) : List GoStr → GoStr
  | [] => []
  | [s] => s
  | s :: t :: l => s ++ (sep ++ joinStr sep (t :: l))

/-- Bytewise lexicographic order on strings: Go's `<=` on strings. -/
def strLe : GoStr → GoStr → Bool
  | [], _ => true
  | _ :: _, [] => false
  | a :: s, b :: t => if a < b then true else if b < a then false else strLe s t

/-- Insertion into a sorted list. -/
def insertStr (x : GoStr) : List GoStr → List GoStr
  | [] => [x]
  | y :: ys => if strLe x y then x :: y :: ys else y :: insertStr x ys

/-- Go `sort.Strings`.  Any correct sort of strings gives the same list
(`Goidc.sorted_perm_unique` in Lemmas), so insertion sort stands for Go's pdqsort.
Used at scope/util.go:59, flow/flow.go:65. -/
def sortStrings : List GoStr → List GoStr
  | [] => []
  | x :: xs => insertStr x (sortStrings xs)

/-- Go `strings.HasSuffix` (id_token/id_token.go:16-22). -/
def hasSuffix (s suffix : GoStr) : Bool :=
  suffix.length ≤ s.length && s.drop (s.length - suffix.length) == suffix

/-- Go `strings.Cut(s, sep)` for a one-byte separator: `(before, after, found)`.
Used by `http.parseBasicAuth` and `url.ParseQuery`. -/
def cut (sep : UInt8) : GoStr → GoStr × GoStr × Bool
  | [] => ([], [], false)
  | c :: cs =>
    if c = sep then ([], cs, true)
    else
      let r := cut sep cs
      (c :: r.1, r.2.1, r.2.2)

/-- ASCII lower-casing of one byte. -/
def lowerByte (c : UInt8) : UInt8 := if 65 ≤ c ∧ c ≤ 90 then c + 32 else c

/-- Go `strings.ToLower` restricted to ASCII (resource_protector.go:62).  Simplification: non-ASCII
letters are left alone; the only use compares the result with "bearer", and no non-ASCII rune
lower-cases into an ASCII letter of "bearer". -/
def toLower (s : GoStr) : GoStr := s.map lowerByte

/-- Decimal digits of `n`, most significant first, with at most `fuel` digits. -/
def digitsAux : Nat → Nat → GoStr
  | 0, _ => []
  | fuel + 1, n =>
    if n < 10 then [UInt8.ofNat (48 + n)]
    else digitsAux fuel (n / 10) ++ [UInt8.ofNat (48 + n % 10)]

/-- Go `fmt.Sprintf("%d", n)` for an `int64` (at most 19 digits).
Used at resource_protector.go:235, authorization_endpoint.go:1118,1221 and by encoding/json for
`int64` fields. -/
def itoa (n : Int64) : GoStr :=
  if n.toInt < 0 then 45 :: digitsAux 20 n.toInt.natAbs else digitsAux 20 n.toInt.natAbs

/-- Value of a digit string; `none` when empty or containing a non-digit. -/
def parseDigits : Nat → GoStr → Option Nat
  | acc, [] => some acc
  | acc, c :: cs => if 48 ≤ c ∧ c ≤ 57 then parseDigits (acc * 10 + (c.toNat - 48)) cs else none

/-- Go `strconv.Atoi` on a 64-bit platform (authorization_endpoint.go:311): optional sign, at least
one digit, digits only, value within int64; `none` is the error case. -/
def atoi (s : GoStr) : Option Int64 :=
  let neg := s.head? = some 45
  let ds := if s.head? = some 45 ∨ s.head? = some 43 then s.tail else s
  if ds = [] then none
  else match parseDigits 0 ds with
    | none => none
    | some n =>
      if neg then (if n ≤ 2 ^ 63 then some (Int64.ofInt (-(n : Int))) else none)
      else (if n < 2 ^ 63 then some (Int64.ofInt n) else none)

/-- Upper-case hexadecimal digit (`net/url`'s upperhex, also used by json/strconv in lower case). -/
def hexUpper (n : Nat) : UInt8 := if n < 10 then UInt8.ofNat (48 + n) else UInt8.ofNat (55 + n)

/-- Lower-case hexadecimal digit. -/
def hexLower (n : Nat) : UInt8 := if n < 10 then UInt8.ofNat (48 + n) else UInt8.ofNat (87 + n)

/-- Value of a hexadecimal digit, `none` if not one (`net/url.ishex/unhex`). -/
def unhex (c : UInt8) : Option Nat :=
  if 48 ≤ c ∧ c ≤ 57 then some (c.toNat - 48)
  else if 97 ≤ c ∧ c ≤ 102 then some (c.toNat - 87)
  else if 65 ≤ c ∧ c ≤ 70 then some (c.toNat - 55)
  else none

end Goidc
