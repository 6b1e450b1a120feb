import Verif.Model.Wire
import Verif.Spec.Words
import Verif.Spec.Http

/-! # Specification: form texts (application/x-www-form-urlencoded) -/

namespace Goidc.Spec

/-- The byte is the hexadecimal digit `n`, in either case. -/
def HexNumeral (c : UInt8) (n : Nat) : Prop := b!"0123456789abcdef"[n]? = some c ∨ b!"0123456789ABCDEF"[n]? = some c

/-- The text spells these bytes: `+` is a blank, `%XY` the byte with that number, and anything else itself. -/
inductive Spells : GoStr → GoStr → Prop
  | nil : Spells [] []
  | plain {s d} (c : UInt8) : c ≠ 37 → c ≠ 43 → Spells s d → Spells (c :: s) (c :: d)
  | plus {s d} : Spells s d → Spells (43 :: s) (32 :: d)
  | hex {s d} {a b : UInt8} {x y : Nat} : HexNumeral a x → HexNumeral b y → Spells s d →
      Spells (37 :: a :: b :: s) (UInt8.ofNat (16 * x + y) :: d)

/-- The text is one parameter: `name=value` or a bare name, without a semicolon. -/
def OneParam (piece : GoStr) (kv : GoStr × GoStr) : Prop :=
  59 ∉ piece ∧
  ((∃ k v, piece = k ++ 61 :: v ∧ 61 ∉ k ∧ Spells k kv.1 ∧ Spells v kv.2) ∨
   (61 ∉ piece ∧ piece ≠ [] ∧ Spells piece kv.1 ∧ kv.2 = []))

/-- The parameters among some pieces, in order; pieces that are none are left out. -/
inductive Listed : List GoStr → Params → Prop
  | nil : Listed [] []
  | good {p kv ps l} : OneParam p kv → Listed ps l → Listed (p :: ps) (kv :: l)
  | bad {p ps l} : (∀ kv, ¬ OneParam p kv) → Listed ps l → Listed (p :: ps) l

/-- The text says these parameters: they are those among its pieces between ampersands. -/
def FormText (text : GoStr) (ps : Params) : Prop := ∃ pieces, Fields 38 text pieces ∧ Listed pieces ps

/-- The value of the Content-Type header, empty if there is none. -/
def ContentType (hs : Params) (ct : GoStr) : Prop :=
  (∃ before n after, hs = before ++ (n, ct) :: after ∧ SameFold n b!"Content-Type" ∧
    ∀ x ∈ before, ¬ SameFold x.1 b!"Content-Type") ∨
  ((∀ x ∈ hs, ¬ SameFold x.1 b!"Content-Type") ∧ ct = [])

/-- What goidc sees of a request is what was sent: method, path and headers as they are, the parameters its URL says and, by
content type, the parameters of the body: those a form text of at most 10 MiB says, those of the parts of a
multipart body, none otherwise. -/
structure Seen (wl : WireLib) (w : Wire) (r : Req) : Prop where
  method : r.method = w.method
  path : r.path = w.path
  headers : r.headers = w.headers
  query : FormText w.rawQuery r.query
  form : ∀ ct, ContentType w.headers ct → wl.media ct = .form → w.payload.length ≤ 10 * 1024 * 1024 →
    FormText w.payload r.body
  tooLarge : ∀ ct, ContentType w.headers ct → wl.media ct = .form → 10 * 1024 * 1024 < w.payload.length → r.body = []
  parts : ∀ ct, ContentType w.headers ct → wl.media ct = .multipart → r.body = wl.parts ct w.payload
  other : ∀ ct, ContentType w.headers ct → wl.media ct = .other → r.body = []
  multipart : ∀ ct, ContentType w.headers ct → (r.multipart = true ↔ wl.media ct = .multipart)

end Goidc.Spec
