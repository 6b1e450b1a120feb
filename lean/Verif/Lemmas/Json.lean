import Verif.Model.Json
import Verif.Lemmas.Utf8
import Verif.Lemmas.Decimal
import Verif.Lemmas.Base64

/-! # JSON: the parser reads every JSON text; the encoders write JSON texts -/

namespace Goidc

open Spec

mutual
/-- The value a parsed document stands for. -/
def Json.value : Json → JVal
  | .null => .null
  | .bool b => .bool b
  | .num raw => .num raw
  | .str raw => .str (Json.unquote raw)
  | .arr l => .arr (Json.values l)
  | .obj m => .obj (Json.membersValue m)

/-- The values of array elements. -/
def Json.values : List Json → List JVal
  | [] => []
  | v :: l => v.value :: Json.values l

/-- The values of object members. -/
def Json.membersValue : List (GoStr × Json) → List (GoStr × JVal)
  | [] => []
  | (k, v) :: m => (Json.unquote k, v.value) :: Json.membersValue m
end

namespace Json

/-! ## Whitespace -/

theorem isSpace_iff (c : UInt8) : isSpace c = true ↔ c = 32 ∨ c = 9 ∨ c = 10 ∨ c = 13 := by
  simp [isSpace, or_assoc]

theorem skipWs_append {w : GoStr} (h : IsWs w) (s : GoStr) : skipWs (w ++ s) = skipWs s := by
  induction w with
  | nil => rfl
  | cons c w ih =>
    have hc : isSpace c = true := (isSpace_iff c).2 (h c List.mem_cons_self)
    unfold skipWs at ih ⊢
    rw [List.cons_append, List.dropWhile_cons, if_pos hc]
    exact ih fun x hx => h x (List.mem_cons_of_mem _ hx)

theorem skipWs_cons {c : UInt8} (h : isSpace c = false) (s : GoStr) : skipWs (c :: s) = c :: s := by
  unfold skipWs
  rw [List.dropWhile_cons, if_neg (by simp [h])]

theorem skipWs_ws {w : GoStr} (h : IsWs w) : skipWs w = [] := by
  have := skipWs_append h []
  rwa [List.append_nil] at this

/-! ## Strings -/

/-- A byte that may stand for itself in a JSON string. -/
def isPlain (c : UInt8) : Prop := ¬ c < 32 ∧ c ≠ 34 ∧ c ≠ 92

theorem scanString_plain {c : UInt8} (h : isPlain c) (s : GoStr) :
    scanString (c :: s) = (scanString s).map fun r => (c :: r.1, r.2) := by
  obtain ⟨h1, h2, h3⟩ := h
  conv => lhs; unfold scanString
  split
  · rename_i heq; cases heq
  · rename_i heq; cases heq; exact absurd rfl h2
  · rename_i heq; cases heq; exact absurd rfl h3
  · rename_i heq; cases heq; exact absurd rfl h3
  · rename_i heq; cases heq; rw [if_neg (by simp [h1, h3])]

theorem scanString_plains : ∀ (p s : GoStr), (∀ c ∈ p, isPlain c) →
    scanString (p ++ s) = (scanString s).map fun r => (p ++ r.1, r.2)
  | [], s, _ => by simp
  | c :: p, s, h => by
    rw [List.cons_append, scanString_plain (h c List.mem_cons_self),
      scanString_plains p s fun x hx => h x (List.mem_cons_of_mem _ hx)]
    cases scanString s <;> rfl

theorem utf8_plain {cp : Nat} (h : IsScalar cp) (h1 : 0x20 ≤ cp) (h2 : cp ≠ 34) (h3 : cp ≠ 92) :
    ∀ c ∈ utf8 cp, isPlain c := by
  have key : ∀ n, n < 256 → 32 ≤ n → n ≠ 34 → n ≠ 92 → isPlain (UInt8.ofNat n) := by
    intro n a b c d
    refine ⟨?_, ?_, ?_⟩
    · rw [UInt8.lt_iff_toNat_lt, toNat_ofNat_lt a]; simp; omega
    · intro hh; have := congrArg UInt8.toNat hh; rw [toNat_ofNat_lt a] at this; simp at this; omega
    · intro hh; have := congrArg UInt8.toNat hh; rw [toNat_ofNat_lt a] at this; simp at this; omega
  unfold IsScalar at h
  unfold utf8
  intro c hc
  split at hc
  · simp only [List.mem_singleton] at hc; subst hc; exact key _ (by omega) (by omega) h2 h3
  · split at hc
    · simp only [List.mem_cons, List.not_mem_nil, or_false] at hc
      rcases hc with rfl | rfl <;> exact key _ (by omega) (by omega) (by omega) (by omega)
    · split at hc
      · simp only [List.mem_cons, List.not_mem_nil, or_false] at hc
        rcases hc with rfl | rfl | rfl <;> exact key _ (by omega) (by omega) (by omega) (by omega)
      · simp only [List.mem_cons, List.not_mem_nil, or_false] at hc
        rcases hc with rfl | rfl | rfl | rfl <;> exact key _ (by omega) (by omega) (by omega) (by omega)

theorem unhex_of_hexDigit {c : UInt8} {x : Nat} (h : HexDigit c x) : unhex c = some x := by
  obtain ⟨hx, h⟩ := h
  have : ∀ x < 16, unhex (b!"0123456789abcdef".getD x 0) = some x ∧ unhex (b!"0123456789ABCDEF".getD x 0) = some x := by
    decide
  rcases h with rfl | rfl
  · exact (this x hx).1
  · exact (this x hx).2

theorem hex4_of_quad {a b c d : UInt8} {n : Nat} (h : HexQuad a b c d n) :
    hex4 a b c d = n ∧ (unhex a).isSome = true ∧ (unhex b).isSome = true ∧ (unhex c).isSome = true ∧
      (unhex d).isSome = true := by
  obtain ⟨x, y, z, w, h1, h2, h3, h4, rfl⟩ := h
  simp [hex4, unhex_of_hexDigit h1, unhex_of_hexDigit h2, unhex_of_hexDigit h3, unhex_of_hexDigit h4]

theorem encodeRune_eq : encodeRune = utf8 := rfl

theorem shortEscapes_mem {e : UInt8} {cp : Nat} (h : (e, cp) ∈ shortEscapes) :
    shortEsc.contains e = true ∧ e ≠ 117 ∧ [escByte e] = utf8 cp ∧ IsScalar cp := by
  have : ∀ x ∈ shortEscapes, shortEsc.contains x.1 = true ∧ x.1 ≠ 117 ∧ [escByte x.1] = utf8 x.2 ∧ IsScalar x.2 := by
    decide
  exact this _ h

theorem scanString_short {e : UInt8} (h : shortEsc.contains e = true) (hu : e ≠ 117) (s : GoStr) :
    scanString (92 :: e :: s) = (scanString s).map fun r => (92 :: e :: r.1, r.2) := by
  conv => lhs; unfold scanString
  split
  · rename_i heq; cases heq
  · rename_i heq; cases heq
  · rename_i heq; cases heq; exact absurd rfl hu
  · rename_i heq; cases heq; rw [if_pos h]
  · rename_i hn1 hn2 hn3 heq
    cases heq
    exact (hn3 e s rfl rfl).elim

theorem scanString_unicode {a b c d : UInt8} {n : Nat} (h : HexQuad a b c d n) (s : GoStr) :
    scanString (92 :: 117 :: a :: b :: c :: d :: s) =
      (scanString s).map fun r => (92 :: 117 :: a :: b :: c :: d :: r.1, r.2) := by
  obtain ⟨_, h1, h2, h3, h4⟩ := hex4_of_quad h
  rw [scanString]
  simp only [h1, h2, h3, h4, Bool.and_self, if_true]

/-- The scanner finds the closing quote of every JSON string. -/
theorem scanString_complete {raw : GoStr} {cps : List Nat} (h : JChars raw cps) (rest : GoStr) :
    scanString (raw ++ 34 :: rest) = some (raw, rest) := by
  induction h with
  | nil => simp [scanString]
  | plain h1 h2 h3 h4 _ ih =>
    rw [List.append_assoc, scanString_plains _ _ (utf8_plain h1 h2 h3 h4), ih]; rfl
  | short he _ ih =>
    obtain ⟨k1, k2, _, _⟩ := shortEscapes_mem he
    rw [List.cons_append, List.cons_append, scanString_short k1 k2, ih]; rfl
  | unicode hq _ _ ih =>
    simp only [List.cons_append]
    rw [scanString_unicode hq, ih]; rfl
  | surrogates hq hq' _ _ _ _ _ ih =>
    simp only [List.cons_append]
    rw [scanString_unicode hq, scanString_unicode hq', ih]; rfl

theorem unquoteAux_u (n : Nat) (a b c d : UInt8) (rest : GoStr) :
    unquoteAux (n + 1) (92 :: 117 :: a :: b :: c :: d :: rest) =
      if 0xD800 ≤ hex4 a b c d ∧ hex4 a b c d < 0xE000 then
        match rest with
        | 92 :: 117 :: a' :: b' :: c' :: d' :: rest' =>
          if hex4 a b c d < 0xDC00 ∧ 0xDC00 ≤ hex4 a' b' c' d' ∧ hex4 a' b' c' d' < 0xE000 then
            encodeRune (0x10000 + (hex4 a b c d - 0xD800) * 1024 + (hex4 a' b' c' d' - 0xDC00))
              ++ unquoteAux n rest'
          else encodeRune 0xFFFD ++ unquoteAux n rest
        | _ => encodeRune 0xFFFD ++ unquoteAux n rest
      else encodeRune (hex4 a b c d) ++ unquoteAux n rest := by
  conv => lhs; unfold unquoteAux
  rfl

theorem unquoteAux_utf8 {cp : Nat} (h : IsScalar cp) (h3 : cp ≠ 92) (n : Nat) (raw : GoStr) :
    unquoteAux (n + 1) (utf8 cp ++ raw) = utf8 cp ++ unquoteAux n raw := by
  have hd := decodeRune_utf8 h raw
  cases hs : utf8 cp ++ raw with
  | nil => exact absurd (List.append_eq_nil_iff.1 hs).1 (utf8_ne_nil cp)
  | cons c t =>
    rw [hs] at hd
    have hdr : (c :: t).drop (utf8 cp).length = raw := by rw [← hs]; simp
    have hc : c ≠ 92 := by
      rintro rfl
      by_cases hlt : cp < 0x80
      · unfold utf8 at hs
        rw [if_pos hlt] at hs
        have hh := congrArg List.head? hs
        simp only [List.cons_append, List.head?_cons, Option.some.injEq] at hh
        have := congrArg UInt8.toNat hh
        rw [toNat_ofNat_lt (by omega)] at this
        exact h3 this
      · have : (92 : UInt8) ∈ utf8 cp := by
          cases hu : utf8 cp with
          | nil => exact absurd hu (utf8_ne_nil cp)
          | cons x y => rw [hu] at hs; cases hs; exact List.mem_cons_self
        exact (utf8_plain h (by omega) (by omega) h3 _ this).2.2 rfl
    conv => lhs; unfold unquoteAux
    split
    · rename_i heq; exact absurd heq (by omega)
    · rename_i heq; cases heq
    · rename_i heq; cases heq; exact absurd rfl hc
    · rename_i heq; cases heq; exact absurd rfl hc
    · rename_i heq1 heq
      cases heq1; cases heq
      rw [hd]
      dsimp only
      rw [hdr, encodeRune_eq]

theorem utf8_length_pos (cp : Nat) : 0 < (utf8 cp).length := List.length_pos_iff.2 (utf8_ne_nil cp)

/-- `unquote` decodes every JSON string. -/
theorem unquoteAux_complete {raw : GoStr} {cps : List Nat} (h : JChars raw cps) :
    ∀ n, raw.length ≤ n → unquoteAux n raw = cps.flatMap utf8 := by
  induction h with
  | nil => intro n _; cases n <;> rfl
  | @plain cp raw cps h1 h2 h3 h4 _ ih =>
    intro n hn
    cases n with
    | zero => have := utf8_length_pos cp; simp only [List.length_append] at hn; omega
    | succ n =>
      rw [unquoteAux_utf8 h1 h4, List.flatMap_cons, ih n]
      have := utf8_length_pos cp; simp only [List.length_append] at hn; omega
  | @short e cp raw cps he _ ih =>
    intro n hn
    obtain ⟨k1, k2, k3, _⟩ := shortEscapes_mem he
    cases n with
    | zero => simp at hn
    | succ n =>
      rw [List.flatMap_cons, ← k3, ← ih n (by simp only [List.length_cons] at hn; omega)]
      conv => lhs; unfold unquoteAux
      split
      · rename_i heq; exact absurd heq (by omega)
      · rename_i heq; cases heq
      · rename_i heq1 heq; cases heq; exact absurd rfl k2
      · rename_i heq1 heq; cases heq1; cases heq; rfl
      · rename_i hn3 heq1 heq
        cases heq
        exact (hn3 e raw rfl rfl).elim
  | @unicode a b c d m raw cps hq hs _ ih =>
    intro n hn
    obtain ⟨k1, _⟩ := hex4_of_quad hq
    cases n with
    | zero => simp at hn
    | succ n =>
      rw [List.flatMap_cons, ← ih n (by simp only [List.length_cons] at hn; omega), unquoteAux_u, k1]
      unfold IsScalar at hs
      rw [if_neg (by omega), encodeRune_eq]
  | @surrogates a b c d a' b' c' d' hi lo raw cps hq hq' h1 h2 h3 h4 _ ih =>
    intro n hn
    obtain ⟨k1, _⟩ := hex4_of_quad hq
    obtain ⟨k2, _⟩ := hex4_of_quad hq'
    cases n with
    | zero => simp at hn
    | succ n =>
      rw [List.flatMap_cons, ← ih n (by simp only [List.length_cons] at hn; omega), unquoteAux_u, k1]
      rw [if_pos (by omega)]
      simp only
      rw [k2, if_pos (by omega), encodeRune_eq]

theorem unquote_complete {raw : GoStr} {cps : List Nat} (h : JChars raw cps) :
    unquote raw = cps.flatMap utf8 := unquoteAux_complete h _ (Nat.le_refl _)

/-! ## Numbers -/

theorem isDigit_iff (c : UInt8) : isDigit c = true ↔ 48 ≤ c ∧ c ≤ 57 := by simp [isDigit]

/-- What may follow a number. -/
def NumEnd (rest : GoStr) : Prop :=
  ∀ c, rest.head? = some c → isDigit c = false ∧ c ≠ 46 ∧ c ≠ 101 ∧ c ≠ 69

theorem takeWhile_digits {ds rest : GoStr} (h : ∀ c ∈ ds, 48 ≤ c ∧ c ≤ 57)
    (hr : ∀ c, rest.head? = some c → isDigit c = false) :
    (ds ++ rest).takeWhile isDigit = ds ∧ (ds ++ rest).dropWhile isDigit = rest := by
  have hd : ∀ c ∈ ds, isDigit c = true := fun c hc => (isDigit_iff c).2 (h c hc)
  have h1 : rest.takeWhile isDigit = [] := by
    cases rest with
    | nil => rfl
    | cons c t => rw [List.takeWhile_cons, if_neg (by simp [hr c rfl])]
  have h2 : rest.dropWhile isDigit = rest := by
    cases rest with
    | nil => rfl
    | cons c t => rw [List.dropWhile_cons, if_neg (by simp [hr c rfl])]
  constructor
  · rw [List.takeWhile_append_of_pos hd, h1, List.append_nil]
  · rw [List.dropWhile_append_of_pos hd, h2]

theorem scanDigits_complete {ds rest : GoStr} (h : IsDigitSeq ds)
    (hr : ∀ c, rest.head? = some c → isDigit c = false) : scanDigits (ds ++ rest) = some (ds, rest) := by
  obtain ⟨h1, h2⟩ := takeWhile_digits h.2 hr
  unfold scanDigits
  rw [h1, h2, if_neg h.1]

theorem scanInt_complete {ds rest : GoStr} (h : IsDigitSeq ds) (h0 : ds.head? = some 48 → ds = [48])
    (hr : ∀ c, rest.head? = some c → isDigit c = false) : scanInt (ds ++ rest) = some (ds, rest) := by
  cases ds with
  | nil => exact absurd rfl h.1
  | cons c ds =>
    by_cases hc : c = 48
    · subst hc
      have := h0 rfl
      cases this
      rfl
    · rw [← scanDigits_complete h hr]
      unfold scanInt
      split
      · rename_i heq; cases heq; exact absurd rfl hc
      · rfl

theorem scanFrac_complete {frac rest : GoStr} (h : frac = [] ∨ ∃ ds, IsDigitSeq ds ∧ frac = 46 :: ds)
    (hr : ∀ c, rest.head? = some c → isDigit c = false ∧ c ≠ 46) : scanFrac (frac ++ rest) = some (frac, rest) := by
  rcases h with rfl | ⟨ds, hds, rfl⟩
  · unfold scanFrac
    rw [List.nil_append]
    split
    · exact absurd rfl (hr 46 rfl).2
    · rfl
  · rw [List.cons_append]
    show (scanDigits (ds ++ rest)).map _ = _
    rw [scanDigits_complete hds fun c hc => (hr c hc).1]; rfl

theorem scanExp_cons (c : UInt8) (rest : GoStr) : scanExp (c :: rest) =
    if c = 101 ∨ c = 69 then
      match rest with
      | 43 :: r => (scanDigits r).map fun x => (c :: 43 :: x.1, x.2)
      | 45 :: r => (scanDigits r).map fun x => (c :: 45 :: x.1, x.2)
      | r => (scanDigits r).map fun x => (c :: x.1, x.2)
    else some ([], c :: rest) := rfl

theorem scanExp_complete {exp rest : GoStr}
    (h : exp = [] ∨ ∃ e sg ds, (e = 101 ∨ e = 69) ∧ (sg = [] ∨ sg = [43] ∨ sg = [45]) ∧ IsDigitSeq ds ∧
      exp = e :: sg ++ ds)
    (hr : NumEnd rest) : scanExp (exp ++ rest) = some (exp, rest) := by
  rcases h with rfl | ⟨e, sg, ds, he, hsg, hds, rfl⟩
  · rw [List.nil_append]
    cases rest with
    | nil => rfl
    | cons c t =>
      obtain ⟨_, _, h1, h2⟩ := hr c rfl
      rw [scanExp_cons, if_neg (by simp [h1, h2])]
  · have hend : ∀ c, rest.head? = some c → isDigit c = false := fun c hc => (hr c hc).1
    rcases hsg with rfl | rfl | rfl
    · simp only [List.nil_append, List.cons_append, List.append_nil]
      rw [scanExp_cons, if_pos he]
      cases ds with
      | nil => exact absurd rfl hds.1
      | cons d ds =>
        have hd := hds.2 d List.mem_cons_self
        rw [List.cons_append]
        split
        · rename_i heq; cases heq; exact absurd hd (by decide)
        · rename_i heq; cases heq; exact absurd hd (by decide)
        · rw [← List.cons_append, scanDigits_complete hds hend]; rfl
    · simp only [List.cons_append, List.nil_append]
      rw [scanExp_cons, if_pos he]
      simp only
      rw [scanDigits_complete hds hend]; rfl
    · simp only [List.cons_append, List.nil_append]
      rw [scanExp_cons, if_pos he]
      simp only
      rw [scanDigits_complete hds hend]; rfl

theorem scanNumber_complete {t rest : GoStr} (h : JNum t) (hr : NumEnd rest) :
    scanNumber (t ++ rest) = some (t, rest) := by
  obtain ⟨sign, int, frac, exp, rfl, hs, hi, h0, hf, he⟩ := h
  have hsign : scanSign (sign ++ (int ++ (frac ++ (exp ++ rest)))) = (sign, int ++ (frac ++ (exp ++ rest))) := by
    rcases hs with rfl | rfl
    · cases int with
      | nil => exact absurd rfl hi.1
      | cons c int =>
        have hc := hi.2 c List.mem_cons_self
        simp only [List.nil_append, List.cons_append]
        unfold scanSign
        split
        · rename_i heq; cases heq; exact absurd hc (by decide)
        · rfl
    · rfl
  have e3 : ∀ c, (exp ++ rest).head? = some c → isDigit c = false ∧ c ≠ 46 := by
    intro c hc
    rcases he with rfl | ⟨e, sg, ds, he, _, _, rfl⟩
    · exact ⟨(hr c hc).1, (hr c hc).2.1⟩
    · simp only [List.cons_append, List.head?_cons, Option.some.injEq] at hc
      subst hc
      rcases he with rfl | rfl <;> exact ⟨by decide, by decide⟩
  have e2 : ∀ c, (frac ++ (exp ++ rest)).head? = some c → isDigit c = false := by
    intro c hc
    rcases hf with rfl | ⟨ds, _, rfl⟩
    · exact (e3 c hc).1
    · simp only [List.cons_append, List.head?_cons, Option.some.injEq] at hc
      subst hc; decide
  unfold scanNumber
  simp only [List.append_assoc]
  rw [hsign]
  simp only [scanInt_complete hi h0 e2, scanFrac_complete hf e3, scanExp_complete he hr]

/-! ## Values -/

/-- A JSON string with the raw text between its quotes. -/
def RStr (text raw : GoStr) : Prop := text = 34 :: raw ++ [34] ∧ ∃ cps, JChars raw cps

mutual
/-- The JSON grammar with raw strings: the text `t` is parsed as `j`. -/
inductive RValue : GoStr → Json → Prop
  | null : RValue b!"null" .null
  | true : RValue b!"true" (.bool Bool.true)
  | false : RValue b!"false" (.bool Bool.false)
  | num {t} : JNum t → RValue t (.num t)
  | str {t raw} : RStr t raw → RValue t (.str raw)
  | arrNil {w} : IsWs w → RValue (91 :: (w ++ [93])) (.arr [])
  | arr {t l} : RElems t l → RValue (91 :: (t ++ [93])) (.arr l)
  | objNil {w} : IsWs w → RValue (123 :: (w ++ [125])) (.obj [])
  | obj {t m} : RMembers t m → RValue (123 :: (t ++ [125])) (.obj m)

/-- Array elements. -/
inductive RElems : GoStr → List Json → Prop
  | one {w t w' v} : IsWs w → RValue t v → IsWs w' → RElems (w ++ (t ++ w')) [v]
  | cons {w t w' v t' l} : IsWs w → RValue t v → IsWs w' → RElems t' l →
      RElems (w ++ (t ++ (w' ++ 44 :: t'))) (v :: l)

/-- Object members. -/
inductive RMembers : GoStr → List (GoStr × Json) → Prop
  | one {w1 w2 w3 w4 kt k t v} : IsWs w1 → RStr kt k → IsWs w2 → IsWs w3 → RValue t v → IsWs w4 →
      RMembers (w1 ++ (kt ++ (w2 ++ 58 :: (w3 ++ (t ++ w4))))) [(k, v)]
  | cons {w1 w2 w3 w4 kt k t v t' m} : IsWs w1 → RStr kt k → IsWs w2 → IsWs w3 → RValue t v → IsWs w4 →
      RMembers t' m → RMembers (w1 ++ (kt ++ (w2 ++ 58 :: (w3 ++ (t ++ (w4 ++ 44 :: t')))))) ((k, v) :: m)
end

theorem rstr_of_jstr {t s : GoStr} (h : JStr t s) : ∃ raw, RStr t raw ∧ unquote raw = s := by
  obtain ⟨raw, cps, rfl, hc, rfl⟩ := h
  exact ⟨raw, ⟨rfl, cps, hc⟩, unquote_complete hc⟩

theorem jstr_of_rstr {t raw : GoStr} (h : RStr t raw) : JStr t (unquote raw) := by
  obtain ⟨rfl, cps, hc⟩ := h
  exact ⟨raw, cps, rfl, hc, unquote_complete hc⟩

mutual
theorem raw_of_value {t : GoStr} {v : JVal} (h : JValue t v) : ∃ j, RValue t j ∧ j.value = v := by
  cases h with
  | null => exact ⟨_, .null, rfl⟩
  | true => exact ⟨_, .true, rfl⟩
  | false => exact ⟨_, .false, rfl⟩
  | num h => exact ⟨_, .num h, rfl⟩
  | str h =>
    obtain ⟨raw, h1, h2⟩ := rstr_of_jstr h
    exact ⟨_, .str h1, by simp only [Json.value, h2]⟩
  | arrNil h => exact ⟨_, .arrNil h, rfl⟩
  | arr h =>
    obtain ⟨js, h1, h2⟩ := raw_of_elems h
    exact ⟨_, .arr h1, by simp only [Json.value, h2]⟩
  | objNil h => exact ⟨_, .objNil h, rfl⟩
  | obj h =>
    obtain ⟨js, h1, h2⟩ := raw_of_members h
    exact ⟨_, .obj h1, by simp only [Json.value, h2]⟩

theorem raw_of_elems {t : GoStr} {l : List JVal} (h : JElems t l) : ∃ js, RElems t js ∧ Json.values js = l := by
  cases h with
  | one hw hv hw' =>
    obtain ⟨j, h1, h2⟩ := raw_of_value hv
    exact ⟨_, .one hw h1 hw', by simp only [Json.values, h2]⟩
  | cons hw hv hw' hl =>
    obtain ⟨j, h1, h2⟩ := raw_of_value hv
    obtain ⟨js, h3, h4⟩ := raw_of_elems hl
    exact ⟨_, .cons hw h1 hw' h3, by simp only [Json.values, h2, h4]⟩

theorem raw_of_members {t : GoStr} {m : List (GoStr × JVal)} (h : JMembers t m) :
    ∃ js, RMembers t js ∧ Json.membersValue js = m := by
  cases h with
  | one hw1 hk hw2 hw3 hv hw4 =>
    obtain ⟨j, h1, h2⟩ := raw_of_value hv
    obtain ⟨raw, h5, h6⟩ := rstr_of_jstr hk
    exact ⟨_, .one hw1 h5 hw2 hw3 h1 hw4, by simp only [Json.membersValue, h2, h6]⟩
  | cons hw1 hk hw2 hw3 hv hw4 hm =>
    obtain ⟨j, h1, h2⟩ := raw_of_value hv
    obtain ⟨raw, h5, h6⟩ := rstr_of_jstr hk
    obtain ⟨js, h3, h4⟩ := raw_of_members hm
    exact ⟨_, .cons hw1 h5 hw2 hw3 h1 hw4 h3, by simp only [Json.membersValue, h2, h6, h4]⟩
end

mutual
theorem value_of_raw {t : GoStr} {j : Json} (h : RValue t j) : JValue t j.value := by
  cases h with
  | null => exact .null
  | true => exact .true
  | false => exact .false
  | num h => exact .num h
  | str h => simp only [Json.value]; exact .str (jstr_of_rstr h)
  | arrNil h => exact .arrNil h
  | arr h => simp only [Json.value]; exact .arr (elems_of_raw h)
  | objNil h => exact .objNil h
  | obj h => simp only [Json.value]; exact .obj (members_of_raw h)

theorem elems_of_raw {t : GoStr} {l : List Json} (h : RElems t l) : JElems t (Json.values l) := by
  cases h with
  | one hw hv hw' => simp only [Json.values]; exact .one hw (value_of_raw hv) hw'
  | cons hw hv hw' hl => simp only [Json.values]; exact .cons hw (value_of_raw hv) hw' (elems_of_raw hl)

theorem members_of_raw {t : GoStr} {m : List (GoStr × Json)} (h : RMembers t m) :
    JMembers t (Json.membersValue m) := by
  cases h with
  | one hw1 hk hw2 hw3 hv hw4 =>
    simp only [Json.membersValue]
    exact .one hw1 (jstr_of_rstr hk) hw2 hw3 (value_of_raw hv) hw4
  | cons hw1 hk hw2 hw3 hv hw4 hm =>
    simp only [Json.membersValue]
    exact .cons hw1 (jstr_of_rstr hk) hw2 hw3 (value_of_raw hv) hw4 (members_of_raw hm)
end

theorem numEnd_nil : NumEnd [] := by intro c hc; cases hc

theorem numEnd_cons {c : UInt8} (h : isDigit c = false ∧ c ≠ 46 ∧ c ≠ 101 ∧ c ≠ 69) (r : GoStr) : NumEnd (c :: r) := by
  intro x hx
  simp only [List.head?_cons, Option.some.injEq] at hx
  subst hx; exact h

theorem numEnd_ws {w : GoStr} (h : IsWs w) {r : GoStr} (hr : NumEnd r) : NumEnd (w ++ r) := by
  cases w with
  | nil => exact hr
  | cons c w =>
    refine numEnd_cons ?_ _
    rcases h c List.mem_cons_self with rfl | rfl | rfl | rfl <;> decide

theorem jnum_head {t : GoStr} (h : JNum t) : ∃ c t', t = c :: t' ∧ (c = 45 ∨ (48 ≤ c ∧ c ≤ 57)) := by
  obtain ⟨sign, int, frac, exp, rfl, hs, hi, _, _, _⟩ := h
  cases int with
  | nil => exact absurd rfl hi.1
  | cons d int =>
    rcases hs with rfl | rfl
    · exact ⟨d, _, rfl, .inr (hi.2 d List.mem_cons_self)⟩
    · exact ⟨45, _, rfl, .inl rfl⟩

theorem digit_ne {c : UInt8} (h : c = 45 ∨ (48 ≤ c ∧ c ≤ 57)) :
    c ≠ 34 ∧ c ≠ 91 ∧ c ≠ 123 ∧ c ≠ 110 ∧ c ≠ 116 ∧ c ≠ 102 ∧ c ≠ 93 ∧ c ≠ 125 ∧ isSpace c = false := by
  rcases h with rfl | ⟨h1, h2⟩
  · decide
  · have a : 48 ≤ c.toNat := h1
    have b : c.toNat ≤ 57 := h2
    have ne : ∀ x : UInt8, x.toNat < 48 ∨ 57 < x.toNat → c ≠ x := by rintro x hx rfl; omega
    refine ⟨ne _ (by decide), ne _ (by decide), ne _ (by decide), ne _ (by decide), ne _ (by decide), ne _ (by decide),
      ne _ (by decide), ne _ (by decide), ?_⟩
    cases hs : isSpace c with
    | false => rfl
    | true =>
      rcases (isSpace_iff c).1 hs with rfl | rfl | rfl | rfl <;> simp at a

theorem jvalue_head {t : GoStr} {v : Json} (h : RValue t v) :
    ∃ c t', t = c :: t' ∧ isSpace c = false ∧ c ≠ 93 ∧ c ≠ 125 := by
  cases h with
  | null => exact ⟨_, _, rfl, by decide, by decide, by decide⟩
  | true => exact ⟨_, _, rfl, by decide, by decide, by decide⟩
  | false => exact ⟨_, _, rfl, by decide, by decide, by decide⟩
  | num h =>
    obtain ⟨c, t', rfl, hc⟩ := jnum_head h
    obtain ⟨_, _, _, _, _, _, h1, h2, h3⟩ := digit_ne hc
    exact ⟨c, t', rfl, h3, h1, h2⟩
  | str h =>
    obtain ⟨rfl, _⟩ := h
    exact ⟨_, _, rfl, by decide, by decide, by decide⟩
  | arrNil => exact ⟨_, _, rfl, by decide, by decide, by decide⟩
  | arr => exact ⟨_, _, rfl, by decide, by decide, by decide⟩
  | objNil => exact ⟨_, _, rfl, by decide, by decide, by decide⟩
  | obj => exact ⟨_, _, rfl, by decide, by decide, by decide⟩

theorem skipWs_value {t : GoStr} {v : Json} (h : RValue t v) (rest : GoStr) : skipWs (t ++ rest) = t ++ rest := by
  obtain ⟨c, t', rfl, hc, _⟩ := jvalue_head h
  exact skipWs_cons hc _

theorem parseValue_number {fuel : Nat} {t rest : GoStr} (h : JNum t) (hr : NumEnd rest) :
    parseValue (fuel + 1) (t ++ rest) = some (.num t, rest) := by
  have hn := scanNumber_complete h hr
  obtain ⟨c, t', rfl, hc⟩ := jnum_head h
  obtain ⟨h1, h2, h3, h4, h5, h6, _⟩ := digit_ne hc
  unfold parseValue
  rw [List.cons_append] at hn ⊢
  split
  · rename_i heq; cases heq; exact absurd rfl h1
  · rename_i heq; cases heq; exact absurd rfl h2
  · rename_i heq; cases heq; exact absurd rfl h3
  · rename_i heq; exact absurd (List.cons.inj heq).1 h4
  · rename_i heq; exact absurd (List.cons.inj heq).1 h5
  · rename_i heq; exact absurd (List.cons.inj heq).1 h6
  · rw [hn]; rfl

theorem jelems_head {t : GoStr} {l : List Json} (h : RElems t l) (rest : GoStr) :
    ∃ c t', skipWs (t ++ rest) = c :: t' ∧ c ≠ 93 := by
  cases h with
  | one hw hv _ =>
    obtain ⟨c, t', rfl, hc, h1, _⟩ := jvalue_head hv
    exact ⟨c, _, by simp only [List.append_assoc, List.cons_append]; rw [skipWs_append hw, skipWs_cons hc], h1⟩
  | cons hw hv _ _ =>
    obtain ⟨c, t', rfl, hc, h1, _⟩ := jvalue_head hv
    exact ⟨c, _, by simp only [List.append_assoc, List.cons_append]; rw [skipWs_append hw, skipWs_cons hc], h1⟩

theorem jstr_head {t s : GoStr} (h : RStr t s) : ∃ t', t = 34 :: t' := by
  obtain ⟨rfl, _⟩ := h
  exact ⟨_, rfl⟩

theorem jmembers_head {t : GoStr} {m : List (GoStr × Json)} (h : RMembers t m) (rest : GoStr) :
    ∃ t', skipWs (t ++ rest) = 34 :: t' := by
  cases h with
  | one hw hk _ _ _ _ =>
    obtain ⟨t', rfl⟩ := jstr_head hk
    exact ⟨_, by simp only [List.append_assoc, List.cons_append]; rw [skipWs_append hw, skipWs_cons (by decide)]⟩
  | cons hw hk _ _ _ _ _ =>
    obtain ⟨t', rfl⟩ := jstr_head hk
    exact ⟨_, by simp only [List.append_assoc, List.cons_append]; rw [skipWs_append hw, skipWs_cons (by decide)]⟩

theorem parseValue_arr {fuel : Nat} {s : GoStr} (h : ∃ c t', skipWs s = c :: t' ∧ c ≠ 93) :
    parseValue (fuel + 1) (91 :: s) = (parseElems fuel (skipWs s)).map fun x => (.arr x.1, x.2) := by
  obtain ⟨c, t', h, hc⟩ := h
  conv => lhs; unfold parseValue
  simp only
  rw [h]
  split
  · rename_i heq; cases heq; exact absurd rfl hc
  · rfl

theorem parseValue_obj {fuel : Nat} {s : GoStr} (h : ∃ t', skipWs s = 34 :: t') :
    parseValue (fuel + 1) (123 :: s) = (parseMembers fuel (skipWs s)).map fun x => (.obj x.1, x.2) := by
  obtain ⟨t', h⟩ := h
  conv => lhs; unfold parseValue
  simp only
  rw [h]
  rfl

/-- What the parser must deliver for a member's key. -/
theorem scan_key {kt k : GoStr} (h : RStr kt k) (rest : GoStr) :
    ∃ t', kt ++ rest = 34 :: t' ∧ scanString t' = some (k, rest) := by
  obtain ⟨rfl, cps, hc⟩ := h
  refine ⟨_, rfl, ?_⟩
  have := scanString_complete hc rest
  simpa using this

mutual
/-- The parser reads every JSON value. -/
theorem parseValue_complete {t : GoStr} {j : Json} (h : RValue t j) :
    ∀ fuel rest, t.length < fuel → NumEnd rest → parseValue fuel (t ++ rest) = some (j, rest) := by
  intro fuel rest hf hr
  cases fuel with
  | zero => omega
  | succ fuel =>
    cases h with
    | null => unfold parseValue; rfl
    | true => unfold parseValue; rfl
    | false => unfold parseValue; rfl
    | num hn => exact parseValue_number hn hr
    | str hs =>
      obtain ⟨t', he, hsc⟩ := scan_key hs rest
      rw [he]; unfold parseValue
      simp only [hsc, Option.map_some]
    | arrNil hw =>
      unfold parseValue
      simp only [List.cons_append, List.append_assoc, List.nil_append]
      rw [skipWs_append hw, skipWs_cons (by decide)]
      rfl
    | arr he =>
      simp only [List.length_cons, List.length_append, List.length_nil] at hf
      have h1 := parseElems_complete he fuel rest (by omega)
      simp only [List.cons_append, List.append_assoc, List.nil_append]
      rw [parseValue_arr (jelems_head he _), h1]; rfl
    | objNil hw =>
      unfold parseValue
      simp only [List.cons_append, List.append_assoc, List.nil_append]
      rw [skipWs_append hw, skipWs_cons (by decide)]
      rfl
    | obj he =>
      simp only [List.length_cons, List.length_append, List.length_nil] at hf
      have h1 := parseMembers_complete he fuel rest (by omega)
      simp only [List.cons_append, List.append_assoc, List.nil_append]
      rw [parseValue_obj (jmembers_head he _), h1]; rfl

/-- The parser reads every list of array elements. -/
theorem parseElems_complete {t : GoStr} {l : List Json} (h : RElems t l) :
    ∀ fuel rest, t.length + 1 < fuel → parseElems fuel (skipWs (t ++ 93 :: rest)) = some (l, rest) := by
  intro fuel rest hf
  cases fuel with
  | zero => omega
  | succ fuel =>
    cases h with
    | @one w t w' v hw hv hw' =>
      simp only [List.length_append] at hf
      have h1 := parseValue_complete hv fuel (w' ++ 93 :: rest) (by omega)
        (numEnd_ws hw' (numEnd_cons (by decide) _))
      simp only [List.append_assoc]
      rw [skipWs_append hw, skipWs_value hv]
      unfold parseElems
      rw [h1]
      simp only
      rw [skipWs_append hw', skipWs_cons (by decide)]
      rfl
    | @cons w t w' v t' l hw hv hw' hl =>
      simp only [List.length_append, List.length_cons] at hf
      have h1 := parseValue_complete hv fuel (w' ++ 44 :: (t' ++ 93 :: rest)) (by omega)
        (numEnd_ws hw' (numEnd_cons (by decide) _))
      have h3 := parseElems_complete hl fuel rest (by omega)
      simp only [List.append_assoc, List.cons_append]
      rw [skipWs_append hw, skipWs_value hv]
      unfold parseElems
      rw [h1]
      simp only
      rw [skipWs_append hw', skipWs_cons (by decide)]
      simp only
      rw [h3]; rfl

/-- The parser reads every list of object members. -/
theorem parseMembers_complete {t : GoStr} {m : List (GoStr × Json)} (h : RMembers t m) :
    ∀ fuel rest, t.length + 1 < fuel → parseMembers fuel (skipWs (t ++ 125 :: rest)) = some (m, rest) := by
  intro fuel rest hf
  cases fuel with
  | zero => omega
  | succ fuel =>
    cases h with
    | @one w1 w2 w3 w4 kt k t v hw1 hk hw2 hw3 hv hw4 =>
      simp only [List.length_append, List.length_cons] at hf
      have h1 := parseValue_complete hv fuel (w4 ++ 125 :: rest) (by omega)
        (numEnd_ws hw4 (numEnd_cons (by decide) _))
      obtain ⟨t', he, hsc⟩ := scan_key hk (w2 ++ 58 :: (w3 ++ (t ++ (w4 ++ 125 :: rest))))
      simp only [List.append_assoc, List.cons_append]
      rw [skipWs_append hw1, he, skipWs_cons (by decide)]
      unfold parseMembers
      simp only [hsc]
      rw [skipWs_append hw2, skipWs_cons (by decide)]
      simp only
      rw [skipWs_append hw3, skipWs_value hv, h1]
      simp only
      rw [skipWs_append hw4, skipWs_cons (by decide)]
      rfl
    | @cons w1 w2 w3 w4 kt k t v t2 m hw1 hk hw2 hw3 hv hw4 hm =>
      simp only [List.length_append, List.length_cons] at hf
      have h1 := parseValue_complete hv fuel (w4 ++ 44 :: (t2 ++ 125 :: rest)) (by omega)
        (numEnd_ws hw4 (numEnd_cons (by decide) _))
      have h3 := parseMembers_complete hm fuel rest (by omega)
      obtain ⟨t', he, hsc⟩ := scan_key hk (w2 ++ 58 :: (w3 ++ (t ++ (w4 ++ 44 :: (t2 ++ 125 :: rest)))))
      simp only [List.append_assoc, List.cons_append]
      rw [skipWs_append hw1, he, skipWs_cons (by decide)]
      unfold parseMembers
      simp only [hsc]
      rw [skipWs_append hw2, skipWs_cons (by decide)]
      simp only
      rw [skipWs_append hw3, skipWs_value hv, h1]
      simp only
      rw [skipWs_append hw4, skipWs_cons (by decide)]
      simp only
      rw [h3]; rfl
end

/-- The parser on a value surrounded by whitespace. -/
theorem parse_raw {w t w' : GoStr} {j : Json} (hw : IsWs w) (hv : RValue t j) (hw' : IsWs w') :
    parse (w ++ (t ++ w')) = some j := by
  have h1 := parseValue_complete hv ((w ++ (t ++ w')).length + 1) w'
    (by simp only [List.length_append]; omega) (by
      have := numEnd_ws hw' numEnd_nil
      rwa [List.append_nil] at this)
  unfold parse
  rw [skipWs_append hw, skipWs_value hv, h1]
  simp only
  rw [skipWs_ws hw', if_pos rfl]

theorem ws_nil : IsWs [] := by intro c hc; cases hc

theorem parse_value {t : GoStr} {j : Json} (h : RValue t j) : parse t = some j := by
  have := parse_raw ws_nil h ws_nil
  rwa [List.nil_append, List.append_nil] at this

/-- The parser reads every JSON text, and finds the value the text stands for. -/
theorem parse_complete {t : GoStr} {v : JVal} (h : JsonText t v) : ∃ j, parse t = some j ∧ j.value = v := by
  obtain ⟨w, t, w', hw, hv, hw', rfl⟩ := h
  obtain ⟨j, h1, h2⟩ := raw_of_value hv
  exact ⟨j, parse_raw hw h1 hw', h2⟩

/-- A text stands for at most one value. -/
theorem jsonText_unique {t : GoStr} {v v' : JVal} (h : JsonText t v) (h' : JsonText t v') : v = v' := by
  obtain ⟨j, h1, rfl⟩ := parse_complete h
  obtain ⟨j', h2, rfl⟩ := parse_complete h'
  rw [h1] at h2
  cases h2
  rfl

end Json
end Goidc
