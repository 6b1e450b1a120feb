import Verif.Model.Http
import Verif.Spec.Encoding

/-! # Specification: what a request carries

Case-insensitive names, first headers and parameters, and base64 texts, without reference to the
functions that read them. -/

namespace Goidc.Spec

/-- Two bytes are equal, or an upper-case and a lower-case form of the same ASCII letter. -/
def SameLetter (a b : UInt8) : Prop :=
  a = b ∨ (65 ≤ a ∧ a ≤ 90 ∧ b = a + 32) ∨ (65 ≤ b ∧ b ≤ 90 ∧ a = b + 32)

/-- Two names differ at most in the case of ASCII letters. -/
inductive SameFold : GoStr → GoStr → Prop
  | nil : SameFold [] []
  | cons {a b as bs} : SameLetter a b → SameFold as bs → SameFold (a :: as) (b :: bs)

/-- `v` is the value of the first header of that name, in any capitalisation. -/
def FirstHeader (r : Req) (name v : GoStr) : Prop :=
  ∃ before n after, r.headers = before ++ (n, v) :: after ∧ SameFold n name ∧
    ∀ x ∈ before, ¬ SameFold x.1 name

/-- No header has that name. -/
def NoHeader (r : Req) (name : GoStr) : Prop := ∀ x ∈ r.headers, ¬ SameFold x.1 name

/-- `v` is the value of the first parameter of that (exact) name in a list. -/
def FirstParam (ps : Params) (name v : GoStr) : Prop :=
  ∃ before after, ps = before ++ (name, v) :: after ∧ ∀ x ∈ before, x.1 ≠ name

/-- No parameter has that name. -/
def NoParam (ps : Params) (name : GoStr) : Prop := ∀ x ∈ ps, x.1 ≠ name

/-- Requests whose form body is read: by method, or because it is a multipart body. -/
def HasBody (r : Req) : Prop := r.multipart = true ∨ r.method = b!"POST" ∨ r.method = b!"PUT" ∨ r.method = b!"PATCH"

/-- The parameter `name` of the form body is `v`. -/
def BodyParam (r : Req) (name v : GoStr) : Prop := HasBody r ∧ FirstParam r.body name v

/-- The form body has no parameter `name`. -/
def NoBodyParam (r : Req) (name : GoStr) : Prop := HasBody r → NoParam r.body name

/-- The parameter `name` of the request is `v`: that of the body, or that of the query when the body
has none; with a multipart body the other way round. -/
def FormParam (r : Req) (name v : GoStr) : Prop :=
  r.multipart = false ∧ (BodyParam r name v ∨ NoBodyParam r name ∧ FirstParam r.query name v) ∨
  r.multipart = true ∧ (FirstParam r.query name v ∨ NoParam r.query name ∧ BodyParam r name v)

/-- The request has no parameter `name`, in body or query. -/
def NoFormParam (r : Req) (name : GoStr) : Prop := NoBodyParam r name ∧ NoParam r.query name

/-- The six bits of a base64 digit, most significant first. -/
def bits6 (n : Nat) : List Bool := [5, 4, 3, 2, 1, 0].map fun i => n.testBit i

/-- `t` is a padded base64 text of the bytes `d` in the given alphabet: digits of the alphabet, `=` up
to a multiple of four, and the bits of `d` are those of the digits up to fewer than six spare
ones (whatever their value). -/
def Base64Text (alphabet : List UInt8) (t d : List UInt8) : Prop :=
  ∃ digits : List Nat, (∀ n ∈ digits, n < 64) ∧
    t = digits.map (fun n => alphabet.getD n 0) ++ padding digits.length ∧
    d.flatMap bits <+: digits.flatMap bits6 ∧ digits.length * 6 < d.length * 8 + 6

/-- A text without its line breaks (CR and LF). -/
def unbroken (t : List UInt8) : List UInt8 := t.filter fun c => c ≠ 13 ∧ c ≠ 10

/-- The request carries these HTTP Basic credentials: the first Authorization header is `Basic ` (in
any case) followed by the base64 text of `user:password`, the user name having no colon. -/
def BasicCredentials (r : Req) (user password : GoStr) : Prop :=
  ∃ v scheme text, FirstHeader r b!"Authorization" v ∧ v = scheme ++ text ∧ SameFold scheme b!"Basic " ∧
    (58 : UInt8) ∉ user ∧ Base64Text base64Alphabet (unbroken text) (user ++ 58 :: password)

end Goidc.Spec
