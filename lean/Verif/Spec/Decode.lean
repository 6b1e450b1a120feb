import Verif.Spec.LooseJson
import Verif.Spec.Encoding
import Verif.Model.Types

/-! # Specification: the authorization request a JSON object stands for (authorization/request.go `DecodeRequest`) -/

namespace Goidc.Spec

/-- A letter of a member's name stands for a letter `b` of a field name (lower case): it is the same but for case.
(U+017F and U+212A are, for Unicode, other cases of `s` and `k`.) -/
def FoldsTo (cp : Nat) (b : UInt8) : Prop :=
  cp = b.toNat ∨ (97 ≤ b ∧ b ≤ 122 ∧ cp + 32 = b.toNat) ∨ (b = 115 ∧ cp = 0x17F) ∨ (b = 107 ∧ cp = 0x212A)

/-- The member's name is the field name, but for case. -/
def SameName (key name : List UInt8) : Prop :=
  ∃ cps : List Nat, (∀ cp ∈ cps, IsScalar cp) ∧ key = cps.flatMap utf8 ∧
    cps.length = name.length ∧ ∀ x ∈ cps.zip name, FoldsTo x.1 x.2

/-- `a` is what the last member named `name` that has a value of the right sort says, and `d` if there is none.
(`null` and values of other sorts are passed over.) -/
inductive LastOf {α : Type} (P : JVal → α → Prop) (m : List (List UInt8 × JVal)) (name : List UInt8) (d : α) : α → Prop
  | found {l1 l2 k v a} : m = l1 ++ (k, v) :: l2 → SameName k name → P v a →
      (∀ k' v', (k', v') ∈ l2 → SameName k' name → ∀ b, ¬ P v' b) → LastOf P m name d a
  | absent : (∀ k v, (k, v) ∈ m → SameName k name → ∀ b, ¬ P v b) → LastOf P m name d d

/-- A string. -/
def IsStr (v : JVal) (s : List UInt8) : Prop := v = .str s
/-- A boolean. -/
def IsBool (v : JVal) (b : Bool) : Prop := v = .bool b
/-- An integer of 64 bits. -/
def IsInt (v : JVal) (n : Int64) : Prop := ∃ lit, v = .num lit ∧ SignedDecimal lit n.toInt

/-- The names of the flows. -/
def flowName : FlowType → List UInt8
  | .authorizationCode => b!"authorization_code"
  | .implicit => b!"implicit"
  | .hybrid => b!"hybrid"
  | .directGrant => b!"direct_grant"

/-- The name of a flow. -/
def IsFlowType (v : JVal) (t : FlowType) : Prop := v = .str (flowName t)

/-- A member that names no flow where it should: reading stops there. -/
def BadType (k : List UInt8) (v : JVal) : Prop := SameName k b!"type" ∧ ∀ t, ¬ IsFlowType v t

/-- `m'` is the part of `m` in front of the first member that is `bad`. -/
def UpTo (bad : List UInt8 → JVal → Prop) (m m' : List (List UInt8 × JVal)) : Prop :=
  (∀ k v, (k, v) ∈ m' → ¬ bad k v) ∧ (m = m' ∨ ∃ k v rest, m = m' ++ (k, v) :: rest ∧ bad k v)

/-- A JSON object read into a flow that was `f`. -/
def FlowMerge (f : Flow) (m : List (List UInt8 × JVal)) (g : Flow) : Prop :=
  ∃ m', UpTo BadType m m' ∧ LastOf IsFlowType m' b!"type" f.type g.type ∧
    LastOf IsBool m' b!"require_access_token" f.requireAccessToken g.requireAccessToken ∧
    LastOf IsBool m' b!"require_id_token" f.requireIdToken g.requireIdToken

/-- The flow a request without one gets when something other than an object and `null` is said of it. -/
def blankFlow : Flow := ⟨.authorizationCode, false, false⟩

/-- A member of the request that is a flow with a bad type. -/
def BadFlow (k : List UInt8) (v : JVal) : Prop :=
  SameName k b!"flow" ∧ ∃ m k' v', v = .obj m ∧ (k', v') ∈ m ∧ BadType k' v'

/-- What the members say about the flow, one after the other; reading stops behind a bad one. -/
inductive FlowSaid : Option Flow → List (List UInt8 × JVal) → Option Flow → Prop
  | done {f} : FlowSaid f [] f
  | skip {f k v m g} : ¬ SameName k b!"flow" → FlowSaid f m g → FlowSaid f ((k, v) :: m) g
  | null {f k m g} : SameName k b!"flow" → FlowSaid none m g → FlowSaid f ((k, .null) :: m) g
  | obj {f k o f' m g} : SameName k b!"flow" → ¬ BadFlow k (.obj o) → FlowMerge (f.getD blankFlow) o f' → FlowSaid (some f') m g →
      FlowSaid f ((k, .obj o) :: m) g
  | stop {f k o f' m} : BadFlow k (.obj o) → FlowMerge (f.getD blankFlow) o f' → FlowSaid f ((k, .obj o) :: m) (some f')
  | other {f k v m g} : SameName k b!"flow" → v ≠ .null → (∀ o, v ≠ .obj o) → FlowSaid (some (f.getD blankFlow)) m g →
      FlowSaid f ((k, v) :: m) g

/-- The request the members of a JSON object stand for. -/
structure RequestSaid (m : List (List UInt8 × JVal)) (r : Request) : Prop where
  flow : FlowSaid none m r.flow
  strings : ∃ m', UpTo BadFlow m m' ∧ LastOf IsInt m' b!"max_age" 0 r.maxAge ∧
    ∀ name value, (name, value) ∈ [(b!"client_id", r.clientId), (b!"scope", r.scope), (b!"redirect_uri", r.redirectURI),
      (b!"response_mode", r.responseMode), (b!"state", r.state), (b!"code_verifier", r.codeVerifier), (b!"nonce", r.nonce),
      (b!"display", r.display), (b!"prompt", r.prompt), (b!"ui_locale", r.uiLocale), (b!"id_token_hint", r.idTokenHint),
      (b!"login_hint", r.loginHint)] → LastOf IsStr m' name [] value

/-- As `LooseMembers`, the values of members named `flow` being written without escapes. -/
inductive PlainFlow : List UInt8 → List (List UInt8 × JVal) → Prop
  | one {w1 w2 w3 w4 kt k t v} : IsWs w1 → LooseStr kt k → IsWs w2 → IsWs w3 → LooseValue t v → IsWs w4 →
      (SameName k b!"flow" → (92 : UInt8) ∉ t) →
      PlainFlow (w1 ++ (kt ++ (w2 ++ 58 :: (w3 ++ (t ++ w4))))) [(k, v)]
  | cons {w1 w2 w3 w4 kt k t v t' m} : IsWs w1 → LooseStr kt k → IsWs w2 → IsWs w3 → LooseValue t v → IsWs w4 →
      (SameName k b!"flow" → (92 : UInt8) ∉ t) →
      PlainFlow t' m → PlainFlow (w1 ++ (kt ++ (w2 ++ 58 :: (w3 ++ (t ++ (w4 ++ 44 :: t')))))) ((k, v) :: m)

/-- A JSON document that is an object with the members `m`, the values of those named `flow` being written without escapes. -/
def PlainFlowText (text : List UInt8) (m : List (List UInt8 × JVal)) : Prop :=
  ∃ w body w', IsWs w ∧ IsWs w' ∧ text = w ++ (123 :: (body ++ [125]) ++ w') ∧ (IsWs body ∧ m = [] ∨ PlainFlow body m)

/-- The request that says nothing. -/
def blankRequest : Request :=
  { flow := none, clientId := [], scope := [], redirectURI := [], responseMode := [], state := [], codeVerifier := [],
    nonce := [], display := [], prompt := [], maxAge := 0, uiLocale := [], idTokenHint := [], loginHint := [] }

end Goidc.Spec
