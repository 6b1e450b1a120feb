import Verif.Lemmas.Json
import Verif.Spec.LooseJson

/-! # encoding/json reads exactly the loose JSON texts -/

namespace Goidc.Json.Loose

open Spec Goidc.Json

/-! ## Strings -/

/-- What the scanner lets pass between two quotes. -/
inductive Scannable : GoStr → Prop
  | nil : Scannable []
  | plain {c raw} : isPlain c → Scannable raw → Scannable (c :: raw)
  | short {e raw} : shortEsc.contains e = true → e ≠ 117 → Scannable raw → Scannable (92 :: e :: raw)
  | uni {a b c d n raw} : HexQuad a b c d n → Scannable raw → Scannable (92 :: 117 :: a :: b :: c :: d :: raw)

theorem scanString_scannable {raw : GoStr} (h : Scannable raw) (rest : GoStr) :
    scanString (raw ++ 34 :: rest) = some (raw, rest) := by
  induction h with
  | nil => simp [scanString]
  | plain h _ ih => rw [List.cons_append, scanString_plain h, ih]; rfl
  | short h h' _ ih => rw [List.cons_append, List.cons_append, scanString_short h h', ih]; rfl
  | uni h _ ih =>
    simp only [List.cons_append]
    rw [scanString_unicode h, ih]; rfl

theorem hexDigit_of_unhex {c : UInt8} (h : (unhex c).isSome = true) : HexDigit c ((unhex c).getD 0) := by
  revert h
  revert c
  have : ∀ n : Fin 256, (unhex (UInt8.ofNat n)).isSome = true →
      ((unhex (UInt8.ofNat n)).getD 0 < 16 ∧
        (UInt8.ofNat n = b!"0123456789abcdef".getD ((unhex (UInt8.ofNat n)).getD 0) 0 ∨
          UInt8.ofNat n = b!"0123456789ABCDEF".getD ((unhex (UInt8.ofNat n)).getD 0) 0)) := by decide +kernel
  intro c h
  have hc := this ⟨c.toNat, c.toNat_lt⟩
  simp only [UInt8.ofNat_toNat] at hc
  exact hc h

theorem quad_of_unhex {a b c d : UInt8} (ha : (unhex a).isSome = true) (hb : (unhex b).isSome = true)
    (hc : (unhex c).isSome = true) (hd : (unhex d).isSome = true) : HexQuad a b c d (hex4 a b c d) :=
  ⟨_, _, _, _, hexDigit_of_unhex ha, hexDigit_of_unhex hb, hexDigit_of_unhex hc, hexDigit_of_unhex hd, rfl⟩

/-- The scanner stops at the closing quote. -/
theorem scanString_sound : ∀ (n : Nat) (s raw rest : GoStr), s.length ≤ n → scanString s = some (raw, rest) →
    s = raw ++ 34 :: rest ∧ Scannable raw := by
  intro n
  induction n with
  | zero =>
    intro s raw rest hn h
    cases s with
    | nil => simp [scanString] at h
    | cons c s => simp at hn
  | succ n ih =>
    intro s raw rest hn h
    unfold scanString at h
    split at h
    · cases h
    · simp only [Option.some.injEq, Prod.mk.injEq] at h
      obtain ⟨rfl, rfl⟩ := h
      exact ⟨rfl, .nil⟩
    · rename_i a b c d s'
      split at h
      · rename_i hx
        simp only [Bool.and_eq_true] at hx
        cases hs : scanString s' with
        | none => rw [hs] at h; cases h
        | some x =>
          rw [hs] at h
          simp only [Option.map_some, Option.some.injEq, Prod.mk.injEq] at h
          obtain ⟨rfl, rfl⟩ := h
          obtain ⟨e, hsc⟩ := ih s' x.1 x.2 (by simp only [List.length_cons] at hn; omega) hs
          exact ⟨by rw [e]; rfl, .uni (quad_of_unhex hx.1.1.1 hx.1.1.2 hx.1.2 hx.2) hsc⟩
      · cases h
    · rename_i e s' hnu
      split at h
      · rename_i hx
        cases hs : scanString s' with
        | none => rw [hs] at h; cases h
        | some x =>
          rw [hs] at h
          simp only [Option.map_some, Option.some.injEq, Prod.mk.injEq] at h
          obtain ⟨rfl, rfl⟩ := h
          obtain ⟨e', hsc⟩ := ih s' x.1 x.2 (by simp only [List.length_cons] at hn; omega) hs
          refine ⟨by rw [e']; rfl, .short hx ?_ hsc⟩
          rintro rfl
          exact absurd hx (by decide)
      · cases h
    · rename_i c s' h1 h2 h3
      split at h
      · cases h
      · rename_i hx
        cases hs : scanString s' with
        | none => rw [hs] at h; cases h
        | some x =>
          rw [hs] at h
          simp only [Option.map_some, Option.some.injEq, Prod.mk.injEq] at h
          obtain ⟨rfl, rfl⟩ := h
          obtain ⟨e', hsc⟩ := ih s' x.1 x.2 (by simp only [List.length_cons] at hn; omega) hs
          refine ⟨by rw [e']; rfl, .plain ⟨fun hc => hx (.inl hc), ?_, fun hc => hx (.inr hc)⟩ hsc⟩
          rintro rfl
          exact h1 rfl

theorem scannable_plains {p raw : GoStr} (hp : ∀ c ∈ p, isPlain c) (h : Scannable raw) : Scannable (p ++ raw) := by
  induction p with
  | nil => exact h
  | cons c p ih => exact .plain (hp c (by simp)) (ih fun c hc => hp c (by simp [hc]))

theorem plain_high {b : UInt8} (h : 0x80 ≤ b) : isPlain b := by
  have : 128 ≤ b.toNat := h
  refine ⟨fun hc => ?_, ?_, ?_⟩
  · have : b.toNat < 32 := hc
    omega
  · rintro rfl; exact absurd this (by decide)
  · rintro rfl; exact absurd this (by decide)

theorem scannable_of_loose {raw : GoStr} {cps : List Nat} (h : LooseChars raw cps) : Scannable raw := by
  induction h with
  | nil => exact .nil
  | plain h1 h2 h3 h4 _ ih => exact scannable_plains (utf8_plain h1 h2 h3 h4) ih
  | short he _ ih =>
    obtain ⟨k1, k2, _, _⟩ := shortEscapes_mem he
    exact .short k1 k2 ih
  | unicode hq _ _ ih => exact .uni hq ih
  | surrogates hq hq' _ _ _ _ _ ih => exact .uni hq (.uni hq' ih)
  | lone hq _ _ _ _ ih => exact .uni hq ih
  | illFormed hb _ _ ih => exact .plain (plain_high hb) ih

/-- Dropping a valid character leaves a scannable text. -/
theorem scannable_drop {p raw : GoStr} (hp : ∀ c ∈ p, c ≠ 92) (h : Scannable (p ++ raw)) : Scannable raw := by
  induction p with
  | nil => exact h
  | cons c p ih =>
    rw [List.cons_append] at h
    have hc := hp c (by simp)
    generalize hg : c :: (p ++ raw) = s at h
    cases h with
    | nil => cases hg
    | plain _ h => cases hg; exact ih (fun c hc => hp c (by simp [hc])) h
    | short _ _ h => exact absurd (List.cons.inj hg).1 hc
    | uni _ h => exact absurd (List.cons.inj hg).1 hc

theorem no_prefix {s : GoStr} (h : decodeRune s = none) (cp : Nat) (hs : IsScalar cp) : ¬ utf8 cp <+: s := by
  rintro ⟨t, rfl⟩
  rw [decodeRune_utf8 hs] at h
  cases h

theorem short_of_contains {e : UInt8} (h : shortEsc.contains e = true) : ∃ cp, (e, cp) ∈ shortEscapes := by
  have : ∀ n : Fin 256, shortEsc.contains (UInt8.ofNat n) = true → ∃ x ∈ shortEscapes, x.1 = UInt8.ofNat n := by decide +kernel
  have hc := this ⟨e.toNat, e.toNat_lt⟩
  simp only [UInt8.ofNat_toNat] at hc
  obtain ⟨x, hx, rfl⟩ := hc h
  exact ⟨x.2, hx⟩

theorem quad_unique {a b c d : UInt8} {n m : Nat} (h : HexQuad a b c d n) (h' : HexQuad a b c d m) : n = m := by
  rw [← (hex4_of_quad h).1, ← (hex4_of_quad h').1]

theorem loose_of_scannable {raw : GoStr} (h : Scannable raw) : ∃ cps, LooseChars raw cps := by
  suffices H : ∀ n (raw : GoStr), raw.length ≤ n → Scannable raw → ∃ cps, LooseChars raw cps from H _ _ (Nat.le_refl _) h
  intro n
  induction n with
  | zero =>
    intro raw hn _
    cases raw with
    | nil => exact ⟨_, .nil⟩
    | cons c s => simp at hn
  | succ n ih =>
    intro raw hn h
    cases h with
    | nil => exact ⟨_, .nil⟩
    | @plain c s hc hs =>
      cases hd : decodeRune (c :: s) with
      | none =>
        obtain ⟨cps, hl⟩ := ih s (by simp only [List.length_cons] at hn; omega) hs
        refine ⟨_, .illFormed ?_ (no_prefix hd) hl⟩
        unfold decodeRune at hd
        dsimp only at hd
        split at hd
        · cases hd
        · rename_i hge
          show 128 ≤ c.toNat
          omega
      | some x =>
        obtain ⟨cp, w⟩ := x
        obtain ⟨h1, h2, h3, h4⟩ := decodeRune_some hd
        have hw : 0 < w := by rw [h2]; exact utf8_length_pos cp
        have hsplit : c :: s = utf8 cp ++ (c :: s).drop w := by rw [← h3, List.take_append_drop]
        have hb : 0x20 ≤ cp ∧ cp ≠ 34 ∧ cp ≠ 92 := by
          by_cases hlt : cp < 0x80
          · have hu : utf8 cp = [UInt8.ofNat cp] := by unfold utf8; rw [if_pos hlt]
            rw [hu] at hsplit
            have hcc : c = UInt8.ofNat cp := (List.cons.inj hsplit).1
            have hcn : c.toNat = cp := by rw [hcc, toNat_ofNat_lt (by omega)]
            obtain ⟨p1, p2, p3⟩ := hc
            refine ⟨?_, ?_, ?_⟩
            · have : ¬ c.toNat < 32 := p1
              omega
            · intro e; exact p2 (by rw [hcc, e]; rfl)
            · intro e; exact p3 (by rw [hcc, e]; rfl)
          · omega
        have hsd : Scannable ((c :: s).drop w) := by
          refine scannable_drop (p := utf8 cp) (fun c hc => (utf8_plain h1 hb.1 hb.2.1 hb.2.2 c hc).2.2) ?_
          rw [← hsplit]
          exact .plain hc hs
        obtain ⟨cps, hl⟩ := ih ((c :: s).drop w) (by simp only [List.length_drop, List.length_cons] at hn ⊢; omega) hsd
        refine ⟨cp :: cps, ?_⟩
        rw [hsplit]
        exact .plain h1 hb.1 hb.2.1 hb.2.2 hl
    | @short e s he hu hs =>
      obtain ⟨cps, hl⟩ := ih s (by simp only [List.length_cons] at hn; omega) hs
      obtain ⟨cp, hm⟩ := short_of_contains he
      exact ⟨_, .short hm hl⟩
    | @uni a b c d m s hq hs =>
      simp only [List.length_cons] at hn
      obtain ⟨cps, hl⟩ := ih s (by omega) hs
      by_cases hsur : 0xD800 ≤ m ∧ m < 0xE000
      · by_cases hp : m < 0xDC00 ∧ BeginsLowSurrogate s
        · obtain ⟨hm, a', b', c', d', lo, s', rfl, hq', h1, h2⟩ := hp
          have hs' : Scannable s' := by
            generalize hg : (92 :: 117 :: a' :: b' :: c' :: d' :: s' : GoStr) = u at hs
            cases hs with
            | nil => cases hg
            | plain hp _ => cases hg; exact absurd rfl hp.2.2
            | short _ hu _ => cases hg; exact absurd rfl hu
            | uni _ h => cases hg; exact h
          obtain ⟨cps', hl'⟩ := ih s' (by simp only [List.length_cons] at hn; omega) hs'
          exact ⟨_, .surrogates hq hq' hsur.1 hm h1 h2 hl'⟩
        · exact ⟨_, .lone hq hsur.1 hsur.2 hp hl⟩
      · have hlt : m < 0x10000 := by
          obtain ⟨x, y, z, w, ⟨hx, _⟩, ⟨hy, _⟩, ⟨hz, _⟩, ⟨hw, _⟩, rfl⟩ := hq
          omega
        refine ⟨_, .unicode hq ?_ hl⟩
        unfold IsScalar
        omega

theorem unquoteAux_bad {b : UInt8} {raw : GoStr} (hb : 0x80 ≤ b) (hd : decodeRune (b :: raw) = none) (n : Nat) :
    unquoteAux (n + 1) (b :: raw) = utf8 0xFFFD ++ unquoteAux n raw := by
  have hc : b ≠ 92 := (plain_high hb).2.2
  conv => lhs; unfold unquoteAux
  split
  · rename_i heq; exact absurd heq (by omega)
  · rename_i heq; cases heq
  · rename_i heq; cases heq; exact absurd rfl hc
  · rename_i heq; cases heq; exact absurd rfl hc
  · rename_i heq1 heq
    cases heq1; cases heq
    rw [hd]
    rfl

theorem decodeRune_none {s : GoStr} (h : ∀ cp, IsScalar cp → ¬ utf8 cp <+: s) : decodeRune s = none := by
  cases hd : decodeRune s with
  | none => rfl
  | some x =>
    obtain ⟨h1, h2, h3, h4⟩ := decodeRune_some hd
    exact absurd ⟨s.drop x.2, by rw [← h3, List.take_append_drop]⟩ (h x.1 h1)

theorem unquoteAux_loose {raw : GoStr} {cps : List Nat} (h : LooseChars raw cps) :
    ∀ n, raw.length ≤ n → unquoteAux n raw = cps.flatMap utf8 := by
  induction h with
  | nil => intro n _; cases n <;> rfl
  | @plain cp raw cps h1 h2 h3 h4 _ ih =>
    intro n hn
    cases n with
    | zero => have := utf8_length_pos cp; simp only [List.length_append] at hn; omega
    | succ n =>
      rw [unquoteAux_utf8 h1 h4, List.flatMap_cons, ih n]
      have := utf8_length_pos cp; simp only [List.length_append] at hn; omega
  | @short e cp raw cps he _ ih =>
    intro n hn
    obtain ⟨k1, k2, k3, _⟩ := shortEscapes_mem he
    cases n with
    | zero => simp at hn
    | succ n =>
      rw [List.flatMap_cons, ← k3, ← ih n (by simp only [List.length_cons] at hn; omega)]
      conv => lhs; unfold unquoteAux
      split
      · rename_i heq; exact absurd heq (by omega)
      · rename_i heq; cases heq
      · rename_i heq1 heq; cases heq; exact absurd rfl k2
      · rename_i heq1 heq; cases heq1; cases heq; rfl
      · rename_i hn3 heq1 heq
        cases heq
        exact (hn3 e raw rfl rfl).elim
  | @unicode a b c d m raw cps hq hs _ ih =>
    intro n hn
    obtain ⟨k1, _⟩ := hex4_of_quad hq
    cases n with
    | zero => simp at hn
    | succ n =>
      rw [List.flatMap_cons, ← ih n (by simp only [List.length_cons] at hn; omega), unquoteAux_u, k1]
      unfold IsScalar at hs
      rw [if_neg (by omega), encodeRune_eq]
  | @surrogates a b c d a' b' c' d' hi lo raw cps hq hq' h1 h2 h3 h4 _ ih =>
    intro n hn
    obtain ⟨k1, _⟩ := hex4_of_quad hq
    obtain ⟨k2, _⟩ := hex4_of_quad hq'
    cases n with
    | zero => simp at hn
    | succ n =>
      rw [List.flatMap_cons, ← ih n (by simp only [List.length_cons] at hn; omega), unquoteAux_u, k1]
      rw [if_pos (by omega)]
      simp only
      rw [k2, if_pos (by omega), encodeRune_eq]
  | @lone a b c d m raw cps hq h1 h2 h3 hl ih =>
    intro n hn
    obtain ⟨k1, _⟩ := hex4_of_quad hq
    cases n with
    | zero => simp at hn
    | succ n =>
      rw [List.flatMap_cons, ← ih n (by simp only [List.length_cons] at hn; omega), unquoteAux_u, k1]
      rw [if_pos ⟨h1, h2⟩]
      split
      · rename_i a' b' c' d' rest'
        split
        · rename_i hx
          refine absurd ⟨hx.1, a', b', c', d', _, rest', rfl, ?_, hx.2⟩ h3
          have hs := scannable_of_loose hl
          generalize hg : (92 :: 117 :: a' :: b' :: c' :: d' :: rest' : GoStr) = u at hs
          cases hs with
          | nil => cases hg
          | plain hp _ => cases hg; exact absurd rfl hp.2.2
          | short _ hu _ => cases hg; exact absurd rfl hu
          | uni hq _ => cases hg; rw [(hex4_of_quad hq).1]; exact hq
        · rfl
      · rfl
  | @illFormed b raw cps hb hno _ ih =>
    intro n hn
    cases n with
    | zero => simp at hn
    | succ n =>
      rw [List.flatMap_cons, ← ih n (by simp only [List.length_cons] at hn; omega), unquoteAux_bad hb (decodeRune_none hno)]

theorem unquote_loose {raw : GoStr} {cps : List Nat} (h : LooseChars raw cps) : unquote raw = cps.flatMap utf8 :=
  unquoteAux_loose h _ (Nat.le_refl _)

/-! ## Values: completeness, as in Lemmas/Json.lean -/

/-- A JSON string with the raw text between its quotes. -/
def RStr (text raw : GoStr) : Prop := text = 34 :: raw ++ [34] ∧ Scannable raw

mutual
/-- The JSON grammar with raw strings: the text `t` is parsed as `j`. -/
inductive RValue : GoStr → Json → Prop
  | null : RValue b!"null" .null
  | true : RValue b!"true" (.bool Bool.true)
  | false : RValue b!"false" (.bool Bool.false)
  | num {t} : JNum t → RValue t (.num t)
  | str {t raw} : RStr t raw → RValue t (.str raw)
  | arrNil {w} : IsWs w → RValue (91 :: (w ++ [93])) (.arr [])
  | arr {t l} : RElems t l → RValue (91 :: (t ++ [93])) (.arr l)
  | objNil {w} : IsWs w → RValue (123 :: (w ++ [125])) (.obj [])
  | obj {t m} : RMembers t m → RValue (123 :: (t ++ [125])) (.obj m)

/-- Array elements. -/
inductive RElems : GoStr → List Json → Prop
  | one {w t w' v} : IsWs w → RValue t v → IsWs w' → RElems (w ++ (t ++ w')) [v]
  | cons {w t w' v t' l} : IsWs w → RValue t v → IsWs w' → RElems t' l →
      RElems (w ++ (t ++ (w' ++ 44 :: t'))) (v :: l)

/-- Object members. -/
inductive RMembers : GoStr → List (GoStr × Json) → Prop
  | one {w1 w2 w3 w4 kt k t v} : IsWs w1 → RStr kt k → IsWs w2 → IsWs w3 → RValue t v → IsWs w4 →
      RMembers (w1 ++ (kt ++ (w2 ++ 58 :: (w3 ++ (t ++ w4))))) [(k, v)]
  | cons {w1 w2 w3 w4 kt k t v t' m} : IsWs w1 → RStr kt k → IsWs w2 → IsWs w3 → RValue t v → IsWs w4 →
      RMembers t' m → RMembers (w1 ++ (kt ++ (w2 ++ 58 :: (w3 ++ (t ++ (w4 ++ 44 :: t')))))) ((k, v) :: m)
end

theorem rstr_of_jstr {t s : GoStr} (h : LooseStr t s) : ∃ raw, RStr t raw ∧ unquote raw = s := by
  obtain ⟨raw, cps, rfl, hc, rfl⟩ := h
  exact ⟨raw, ⟨rfl, scannable_of_loose hc⟩, unquote_loose hc⟩

theorem jstr_of_rstr {t raw : GoStr} (h : RStr t raw) : LooseStr t (unquote raw) := by
  obtain ⟨rfl, hs⟩ := h
  obtain ⟨cps, hc⟩ := loose_of_scannable hs
  exact ⟨raw, cps, rfl, hc, unquote_loose hc⟩

mutual
theorem raw_of_value {t : GoStr} {v : JVal} (h : LooseValue t v) : ∃ j, RValue t j ∧ j.value = v := by
  cases h with
  | null => exact ⟨_, .null, rfl⟩
  | true => exact ⟨_, .true, rfl⟩
  | false => exact ⟨_, .false, rfl⟩
  | num h => exact ⟨_, .num h, rfl⟩
  | str h =>
    obtain ⟨raw, h1, h2⟩ := rstr_of_jstr h
    exact ⟨_, .str h1, by simp only [Json.value, h2]⟩
  | arrNil h => exact ⟨_, .arrNil h, rfl⟩
  | arr h =>
    obtain ⟨js, h1, h2⟩ := raw_of_elems h
    exact ⟨_, .arr h1, by simp only [Json.value, h2]⟩
  | objNil h => exact ⟨_, .objNil h, rfl⟩
  | obj h =>
    obtain ⟨js, h1, h2⟩ := raw_of_members h
    exact ⟨_, .obj h1, by simp only [Json.value, h2]⟩

theorem raw_of_elems {t : GoStr} {l : List JVal} (h : LooseElems t l) : ∃ js, RElems t js ∧ Json.values js = l := by
  cases h with
  | one hw hv hw' =>
    obtain ⟨j, h1, h2⟩ := raw_of_value hv
    exact ⟨_, .one hw h1 hw', by simp only [Json.values, h2]⟩
  | cons hw hv hw' hl =>
    obtain ⟨j, h1, h2⟩ := raw_of_value hv
    obtain ⟨js, h3, h4⟩ := raw_of_elems hl
    exact ⟨_, .cons hw h1 hw' h3, by simp only [Json.values, h2, h4]⟩

theorem raw_of_members {t : GoStr} {m : List (GoStr × JVal)} (h : LooseMembers t m) :
    ∃ js, RMembers t js ∧ Json.membersValue js = m := by
  cases h with
  | one hw1 hk hw2 hw3 hv hw4 =>
    obtain ⟨j, h1, h2⟩ := raw_of_value hv
    obtain ⟨raw, h5, h6⟩ := rstr_of_jstr hk
    exact ⟨_, .one hw1 h5 hw2 hw3 h1 hw4, by simp only [Json.membersValue, h2, h6]⟩
  | cons hw1 hk hw2 hw3 hv hw4 hm =>
    obtain ⟨j, h1, h2⟩ := raw_of_value hv
    obtain ⟨raw, h5, h6⟩ := rstr_of_jstr hk
    obtain ⟨js, h3, h4⟩ := raw_of_members hm
    exact ⟨_, .cons hw1 h5 hw2 hw3 h1 hw4 h3, by simp only [Json.membersValue, h2, h6, h4]⟩
end

mutual
theorem value_of_raw {t : GoStr} {j : Json} (h : RValue t j) : LooseValue t j.value := by
  cases h with
  | null => exact .null
  | true => exact .true
  | false => exact .false
  | num h => exact .num h
  | str h => simp only [Json.value]; exact .str (jstr_of_rstr h)
  | arrNil h => exact .arrNil h
  | arr h => simp only [Json.value]; exact .arr (elems_of_raw h)
  | objNil h => exact .objNil h
  | obj h => simp only [Json.value]; exact .obj (members_of_raw h)

theorem elems_of_raw {t : GoStr} {l : List Json} (h : RElems t l) : LooseElems t (Json.values l) := by
  cases h with
  | one hw hv hw' => simp only [Json.values]; exact .one hw (value_of_raw hv) hw'
  | cons hw hv hw' hl => simp only [Json.values]; exact .cons hw (value_of_raw hv) hw' (elems_of_raw hl)

theorem members_of_raw {t : GoStr} {m : List (GoStr × Json)} (h : RMembers t m) :
    LooseMembers t (Json.membersValue m) := by
  cases h with
  | one hw1 hk hw2 hw3 hv hw4 =>
    simp only [Json.membersValue]
    exact .one hw1 (jstr_of_rstr hk) hw2 hw3 (value_of_raw hv) hw4
  | cons hw1 hk hw2 hw3 hv hw4 hm =>
    simp only [Json.membersValue]
    exact .cons hw1 (jstr_of_rstr hk) hw2 hw3 (value_of_raw hv) hw4 (members_of_raw hm)
end

theorem jvalue_head {t : GoStr} {v : Json} (h : RValue t v) :
    ∃ c t', t = c :: t' ∧ isSpace c = false ∧ c ≠ 93 ∧ c ≠ 125 := by
  cases h with
  | null => exact ⟨_, _, rfl, by decide, by decide, by decide⟩
  | true => exact ⟨_, _, rfl, by decide, by decide, by decide⟩
  | false => exact ⟨_, _, rfl, by decide, by decide, by decide⟩
  | num h =>
    obtain ⟨c, t', rfl, hc⟩ := jnum_head h
    obtain ⟨_, _, _, _, _, _, h1, h2, h3⟩ := digit_ne hc
    exact ⟨c, t', rfl, h3, h1, h2⟩
  | str h =>
    obtain ⟨rfl, _⟩ := h
    exact ⟨_, _, rfl, by decide, by decide, by decide⟩
  | arrNil => exact ⟨_, _, rfl, by decide, by decide, by decide⟩
  | arr => exact ⟨_, _, rfl, by decide, by decide, by decide⟩
  | objNil => exact ⟨_, _, rfl, by decide, by decide, by decide⟩
  | obj => exact ⟨_, _, rfl, by decide, by decide, by decide⟩

theorem skipWs_value {t : GoStr} {v : Json} (h : RValue t v) (rest : GoStr) : skipWs (t ++ rest) = t ++ rest := by
  obtain ⟨c, t', rfl, hc, _⟩ := jvalue_head h
  exact skipWs_cons hc _

theorem jelems_head {t : GoStr} {l : List Json} (h : RElems t l) (rest : GoStr) :
    ∃ c t', skipWs (t ++ rest) = c :: t' ∧ c ≠ 93 := by
  cases h with
  | one hw hv _ =>
    obtain ⟨c, t', rfl, hc, h1, _⟩ := jvalue_head hv
    exact ⟨c, _, by simp only [List.append_assoc, List.cons_append]; rw [skipWs_append hw, skipWs_cons hc], h1⟩
  | cons hw hv _ _ =>
    obtain ⟨c, t', rfl, hc, h1, _⟩ := jvalue_head hv
    exact ⟨c, _, by simp only [List.append_assoc, List.cons_append]; rw [skipWs_append hw, skipWs_cons hc], h1⟩

theorem jstr_head {t s : GoStr} (h : RStr t s) : ∃ t', t = 34 :: t' := by
  obtain ⟨rfl, _⟩ := h
  exact ⟨_, rfl⟩

theorem jmembers_head {t : GoStr} {m : List (GoStr × Json)} (h : RMembers t m) (rest : GoStr) :
    ∃ t', skipWs (t ++ rest) = 34 :: t' := by
  cases h with
  | one hw hk _ _ _ _ =>
    obtain ⟨t', rfl⟩ := jstr_head hk
    exact ⟨_, by simp only [List.append_assoc, List.cons_append]; rw [skipWs_append hw, skipWs_cons (by decide)]⟩
  | cons hw hk _ _ _ _ _ =>
    obtain ⟨t', rfl⟩ := jstr_head hk
    exact ⟨_, by simp only [List.append_assoc, List.cons_append]; rw [skipWs_append hw, skipWs_cons (by decide)]⟩

theorem parseValue_arr {fuel : Nat} {s : GoStr} (h : ∃ c t', skipWs s = c :: t' ∧ c ≠ 93) :
    parseValue (fuel + 1) (91 :: s) = (parseElems fuel (skipWs s)).map fun x => (.arr x.1, x.2) := by
  obtain ⟨c, t', h, hc⟩ := h
  conv => lhs; unfold parseValue
  simp only
  rw [h]
  split
  · rename_i heq; cases heq; exact absurd rfl hc
  · rfl

theorem parseValue_obj {fuel : Nat} {s : GoStr} (h : ∃ t', skipWs s = 34 :: t') :
    parseValue (fuel + 1) (123 :: s) = (parseMembers fuel (skipWs s)).map fun x => (.obj x.1, x.2) := by
  obtain ⟨t', h⟩ := h
  conv => lhs; unfold parseValue
  simp only
  rw [h]
  rfl

/-- What the parser must deliver for a member's key. -/
theorem scan_key {kt k : GoStr} (h : RStr kt k) (rest : GoStr) :
    ∃ t', kt ++ rest = 34 :: t' ∧ scanString t' = some (k, rest) := by
  obtain ⟨rfl, hc⟩ := h
  refine ⟨_, rfl, ?_⟩
  have := scanString_scannable hc rest
  simpa using this

mutual
/-- The parser reads every JSON value. -/
theorem parseValue_complete {t : GoStr} {j : Json} (h : RValue t j) :
    ∀ fuel rest, t.length < fuel → NumEnd rest → parseValue fuel (t ++ rest) = some (j, rest) := by
  intro fuel rest hf hr
  cases fuel with
  | zero => omega
  | succ fuel =>
    cases h with
    | null => unfold parseValue; rfl
    | true => unfold parseValue; rfl
    | false => unfold parseValue; rfl
    | num hn => exact parseValue_number hn hr
    | str hs =>
      obtain ⟨t', he, hsc⟩ := scan_key hs rest
      rw [he]; unfold parseValue
      simp only [hsc, Option.map_some]
    | arrNil hw =>
      unfold parseValue
      simp only [List.cons_append, List.append_assoc, List.nil_append]
      rw [skipWs_append hw, skipWs_cons (by decide)]
      rfl
    | arr he =>
      simp only [List.length_cons, List.length_append, List.length_nil] at hf
      have h1 := parseElems_complete he fuel rest (by omega)
      simp only [List.cons_append, List.append_assoc, List.nil_append]
      rw [parseValue_arr (jelems_head he _), h1]; rfl
    | objNil hw =>
      unfold parseValue
      simp only [List.cons_append, List.append_assoc, List.nil_append]
      rw [skipWs_append hw, skipWs_cons (by decide)]
      rfl
    | obj he =>
      simp only [List.length_cons, List.length_append, List.length_nil] at hf
      have h1 := parseMembers_complete he fuel rest (by omega)
      simp only [List.cons_append, List.append_assoc, List.nil_append]
      rw [parseValue_obj (jmembers_head he _), h1]; rfl

/-- The parser reads every list of array elements. -/
theorem parseElems_complete {t : GoStr} {l : List Json} (h : RElems t l) :
    ∀ fuel rest, t.length + 1 < fuel → parseElems fuel (skipWs (t ++ 93 :: rest)) = some (l, rest) := by
  intro fuel rest hf
  cases fuel with
  | zero => omega
  | succ fuel =>
    cases h with
    | @one w t w' v hw hv hw' =>
      simp only [List.length_append] at hf
      have h1 := parseValue_complete hv fuel (w' ++ 93 :: rest) (by omega)
        (numEnd_ws hw' (numEnd_cons (by decide) _))
      simp only [List.append_assoc]
      rw [skipWs_append hw, skipWs_value hv]
      unfold parseElems
      rw [h1]
      simp only
      rw [skipWs_append hw', skipWs_cons (by decide)]
      rfl
    | @cons w t w' v t' l hw hv hw' hl =>
      simp only [List.length_append, List.length_cons] at hf
      have h1 := parseValue_complete hv fuel (w' ++ 44 :: (t' ++ 93 :: rest)) (by omega)
        (numEnd_ws hw' (numEnd_cons (by decide) _))
      have h3 := parseElems_complete hl fuel rest (by omega)
      simp only [List.append_assoc, List.cons_append]
      rw [skipWs_append hw, skipWs_value hv]
      unfold parseElems
      rw [h1]
      simp only
      rw [skipWs_append hw', skipWs_cons (by decide)]
      simp only
      rw [h3]; rfl

/-- The parser reads every list of object members. -/
theorem parseMembers_complete {t : GoStr} {m : List (GoStr × Json)} (h : RMembers t m) :
    ∀ fuel rest, t.length + 1 < fuel → parseMembers fuel (skipWs (t ++ 125 :: rest)) = some (m, rest) := by
  intro fuel rest hf
  cases fuel with
  | zero => omega
  | succ fuel =>
    cases h with
    | @one w1 w2 w3 w4 kt k t v hw1 hk hw2 hw3 hv hw4 =>
      simp only [List.length_append, List.length_cons] at hf
      have h1 := parseValue_complete hv fuel (w4 ++ 125 :: rest) (by omega)
        (numEnd_ws hw4 (numEnd_cons (by decide) _))
      obtain ⟨t', he, hsc⟩ := scan_key hk (w2 ++ 58 :: (w3 ++ (t ++ (w4 ++ 125 :: rest))))
      simp only [List.append_assoc, List.cons_append]
      rw [skipWs_append hw1, he, skipWs_cons (by decide)]
      unfold parseMembers
      simp only [hsc]
      rw [skipWs_append hw2, skipWs_cons (by decide)]
      simp only
      rw [skipWs_append hw3, skipWs_value hv, h1]
      simp only
      rw [skipWs_append hw4, skipWs_cons (by decide)]
      rfl
    | @cons w1 w2 w3 w4 kt k t v t2 m hw1 hk hw2 hw3 hv hw4 hm =>
      simp only [List.length_append, List.length_cons] at hf
      have h1 := parseValue_complete hv fuel (w4 ++ 44 :: (t2 ++ 125 :: rest)) (by omega)
        (numEnd_ws hw4 (numEnd_cons (by decide) _))
      have h3 := parseMembers_complete hm fuel rest (by omega)
      obtain ⟨t', he, hsc⟩ := scan_key hk (w2 ++ 58 :: (w3 ++ (t ++ (w4 ++ 44 :: (t2 ++ 125 :: rest)))))
      simp only [List.append_assoc, List.cons_append]
      rw [skipWs_append hw1, he, skipWs_cons (by decide)]
      unfold parseMembers
      simp only [hsc]
      rw [skipWs_append hw2, skipWs_cons (by decide)]
      simp only
      rw [skipWs_append hw3, skipWs_value hv, h1]
      simp only
      rw [skipWs_append hw4, skipWs_cons (by decide)]
      simp only
      rw [h3]; rfl
end

/-- The parser on a value surrounded by whitespace. -/
theorem parse_raw {w t w' : GoStr} {j : Json} (hw : IsWs w) (hv : RValue t j) (hw' : IsWs w') :
    parse (w ++ (t ++ w')) = some j := by
  have h1 := parseValue_complete hv ((w ++ (t ++ w')).length + 1) w'
    (by simp only [List.length_append]; omega) (by
      have := numEnd_ws hw' numEnd_nil
      rwa [List.append_nil] at this)
  unfold parse
  rw [skipWs_append hw, skipWs_value hv, h1]
  simp only
  rw [skipWs_ws hw', if_pos rfl]

theorem parse_value {t : GoStr} {j : Json} (h : RValue t j) : parse t = some j := by
  have := parse_raw ws_nil h ws_nil
  rwa [List.nil_append, List.append_nil] at this

/-! ## Soundness -/

theorem digits_of_takeWhile (s : GoStr) (h : s.takeWhile isDigit ≠ []) : IsDigitSeq (s.takeWhile isDigit) :=
  ⟨h, fun c hc => (isDigit_iff c).1 (by
    induction s with
    | nil => cases hc
    | cons a s ih =>
      rw [List.takeWhile_cons] at hc
      split at hc
      · rename_i ha
        rcases List.mem_cons.1 hc with rfl | hc
        · exact ha
        · exact ih (List.ne_nil_of_mem hc) hc
      · cases hc)⟩

theorem scanDigits_sound {s ds rest : GoStr} (h : scanDigits s = some (ds, rest)) : s = ds ++ rest ∧ IsDigitSeq ds := by
  unfold scanDigits at h
  split at h
  · cases h
  · rename_i hne
    simp only [Option.some.injEq, Prod.mk.injEq] at h
    obtain ⟨rfl, rfl⟩ := h
    exact ⟨(List.takeWhile_append_dropWhile).symm, digits_of_takeWhile s hne⟩

theorem scanInt_sound {s ds rest : GoStr} (h : scanInt s = some (ds, rest)) :
    s = ds ++ rest ∧ IsDigitSeq ds ∧ (ds.head? = some 48 → ds = [48]) := by
  unfold scanInt at h
  split at h
  · simp only [Option.some.injEq, Prod.mk.injEq] at h
    obtain ⟨rfl, rfl⟩ := h
    exact ⟨rfl, ⟨by simp, by decide⟩, fun _ => rfl⟩
  · rename_i hn
    obtain ⟨h1, h2⟩ := scanDigits_sound h
    refine ⟨h1, h2, fun hh => ?_⟩
    cases ds with
    | nil => cases hh
    | cons c ds =>
      simp only [List.head?_cons, Option.some.injEq] at hh
      subst hh
      exact absurd h1 (hn _)

theorem scanFrac_sound {s f rest : GoStr} (h : scanFrac s = some (f, rest)) :
    s = f ++ rest ∧ (f = [] ∨ ∃ ds, IsDigitSeq ds ∧ f = 46 :: ds) := by
  unfold scanFrac at h
  split at h
  · rename_i s'
    cases hs : scanDigits s' with
    | none => rw [hs] at h; cases h
    | some x =>
      rw [hs] at h
      simp only [Option.map_some, Option.some.injEq, Prod.mk.injEq] at h
      obtain ⟨rfl, rfl⟩ := h
      obtain ⟨h1, h2⟩ := scanDigits_sound (ds := x.1) (rest := x.2) hs
      exact ⟨by rw [h1]; rfl, .inr ⟨_, h2, rfl⟩⟩
  · simp only [Option.some.injEq, Prod.mk.injEq] at h
    obtain ⟨rfl, rfl⟩ := h
    exact ⟨rfl, .inl rfl⟩

theorem scanExp_sound {s e rest : GoStr} (h : scanExp s = some (e, rest)) :
    s = e ++ rest ∧ (e = [] ∨ ∃ c sg ds, (c = 101 ∨ c = 69) ∧ (sg = [] ∨ sg = [43] ∨ sg = [45]) ∧ IsDigitSeq ds ∧
      e = c :: sg ++ ds) := by
  have go : ∀ (c : UInt8) (sg s' : GoStr), (c = 101 ∨ c = 69) → (sg = [] ∨ sg = [43] ∨ sg = [45]) →
      (scanDigits s').map (fun x => (c :: sg ++ x.1, x.2)) = some (e, rest) →
      c :: sg ++ s' = e ++ rest ∧ (e = [] ∨ ∃ c sg ds, (c = 101 ∨ c = 69) ∧ (sg = [] ∨ sg = [43] ∨ sg = [45]) ∧ IsDigitSeq ds ∧
        e = c :: sg ++ ds) := by
    intro c sg s' hc hsg h
    cases hs : scanDigits s' with
    | none => rw [hs] at h; cases h
    | some x =>
      rw [hs] at h
      simp only [Option.map_some, Option.some.injEq, Prod.mk.injEq] at h
      obtain ⟨rfl, rfl⟩ := h
      obtain ⟨h1, h2⟩ := scanDigits_sound (ds := x.1) (rest := x.2) hs
      exact ⟨by rw [h1]; simp, .inr ⟨c, sg, _, hc, hsg, h2, rfl⟩⟩
  unfold scanExp at h
  split at h
  · rename_i c s'
    split at h
    · rename_i hc
      split at h
      · exact go c [43] _ hc (.inr (.inl rfl)) h
      · exact go c [45] _ hc (.inr (.inr rfl)) h
      · exact go c [] _ hc (.inl rfl) h
    · simp only [Option.some.injEq, Prod.mk.injEq] at h
      obtain ⟨rfl, rfl⟩ := h
      exact ⟨rfl, .inl rfl⟩
  · simp only [Option.some.injEq, Prod.mk.injEq] at h
    obtain ⟨rfl, rfl⟩ := h
    exact ⟨rfl, .inl rfl⟩

theorem scanSign_sound (s : GoStr) : s = (scanSign s).1 ++ (scanSign s).2 ∧ ((scanSign s).1 = [] ∨ (scanSign s).1 = [45]) := by
  unfold scanSign
  split <;> simp

theorem scanNumber_sound {s lit rest : GoStr} (h : scanNumber s = some (lit, rest)) : s = lit ++ rest ∧ JNum lit := by
  unfold scanNumber at h
  obtain ⟨hs, hsign⟩ := scanSign_sound s
  split at h
  · cases h
  · rename_i i s2 h1
    split at h
    · cases h
    · rename_i f s3 h2
      split at h
      · cases h
      · rename_i e s4 h3
        simp only [Option.some.injEq, Prod.mk.injEq] at h
        obtain ⟨rfl, rfl⟩ := h
        obtain ⟨a1, a2, a3⟩ := scanInt_sound h1
        obtain ⟨b1, b2⟩ := scanFrac_sound h2
        obtain ⟨c1, c2⟩ := scanExp_sound h3
        refine ⟨?_, _, i, f, e, rfl, hsign, a2, a3, b2, c2⟩
        conv => lhs; rw [hs, a1, b1, c1]
        simp

theorem skipWs_split (s : GoStr) : ∃ w, IsWs w ∧ s = w ++ skipWs s := by
  induction s with
  | nil => exact ⟨[], ws_nil, rfl⟩
  | cons c s ih =>
    cases hc : isSpace c with
    | true =>
      obtain ⟨w, hw, e⟩ := ih
      refine ⟨c :: w, ?_, ?_⟩
      · intro x hx
        rcases List.mem_cons.1 hx with rfl | hx
        · exact (isSpace_iff _).1 hc
        · exact hw x hx
      · have : skipWs (c :: s) = skipWs s := by unfold skipWs; rw [List.dropWhile_cons, if_pos hc]
        rw [this, List.cons_append, ← e]
    | false => exact ⟨[], ws_nil, by rw [skipWs_cons hc]; rfl⟩

/-- The parser reads only values, elements and members. -/
theorem parse_sound_aux : ∀ fuel : Nat,
    (∀ s j rest, parseValue fuel s = some (j, rest) → ∃ t, s = t ++ rest ∧ RValue t j) ∧
    (∀ s w l rest, IsWs w → parseElems fuel s = some (l, rest) → ∃ t, w ++ s = t ++ 93 :: rest ∧ RElems t l) ∧
    (∀ s w m rest, IsWs w → parseMembers fuel s = some (m, rest) → ∃ t, w ++ s = t ++ 125 :: rest ∧ RMembers t m) := by
  intro fuel
  induction fuel with
  | zero =>
    refine ⟨fun s j rest h => ?_, fun s w l rest _ h => ?_, fun s w m rest _ h => ?_⟩
    · unfold parseValue at h; cases h
    · unfold parseElems at h; cases h
    · unfold parseMembers at h; cases h
  | succ fuel ih =>
    obtain ⟨ihv, ihe, ihm⟩ := ih
    refine ⟨fun s j rest h => ?_, fun s w l rest hw h => ?_, fun s w m rest hw h => ?_⟩
    · unfold parseValue at h
      split at h
      · rename_i r
        cases hs : scanString r with
        | none => rw [hs] at h; cases h
        | some x =>
          rw [hs] at h
          simp only [Option.map_some, Option.some.injEq, Prod.mk.injEq] at h
          obtain ⟨rfl, rfl⟩ := h
          obtain ⟨e, hsc⟩ := scanString_sound _ r x.1 x.2 (Nat.le_refl _) hs
          exact ⟨34 :: x.1 ++ [34], by rw [e]; simp, .str ⟨rfl, hsc⟩⟩
      · rename_i r
        obtain ⟨w, hw, e⟩ := skipWs_split r
        split at h
        · rename_i r' hr
          simp only [Option.some.injEq, Prod.mk.injEq] at h
          obtain ⟨rfl, rfl⟩ := h
          exact ⟨91 :: (w ++ [93]), by rw [e, hr]; simp, .arrNil hw⟩
        · cases hs : parseElems fuel (skipWs r) with
          | none => rw [hs] at h; cases h
          | some x =>
            rw [hs] at h
            simp only [Option.map_some, Option.some.injEq, Prod.mk.injEq] at h
            obtain ⟨rfl, rfl⟩ := h
            obtain ⟨t, e', ht⟩ := ihe _ w x.1 x.2 hw hs
            exact ⟨91 :: (t ++ [93]), by rw [e, e']; simp, .arr ht⟩
      · rename_i r
        obtain ⟨w, hw, e⟩ := skipWs_split r
        split at h
        · rename_i r' hr
          simp only [Option.some.injEq, Prod.mk.injEq] at h
          obtain ⟨rfl, rfl⟩ := h
          exact ⟨123 :: (w ++ [125]), by rw [e, hr]; simp, .objNil hw⟩
        · cases hs : parseMembers fuel (skipWs r) with
          | none => rw [hs] at h; cases h
          | some x =>
            rw [hs] at h
            simp only [Option.map_some, Option.some.injEq, Prod.mk.injEq] at h
            obtain ⟨rfl, rfl⟩ := h
            obtain ⟨t, e', ht⟩ := ihm _ w x.1 x.2 hw hs
            exact ⟨123 :: (t ++ [125]), by rw [e, e']; simp, .obj ht⟩
      · simp only [Option.some.injEq, Prod.mk.injEq] at h
        obtain ⟨rfl, rfl⟩ := h
        exact ⟨b!"null", rfl, .null⟩
      · simp only [Option.some.injEq, Prod.mk.injEq] at h
        obtain ⟨rfl, rfl⟩ := h
        exact ⟨b!"true", rfl, .true⟩
      · simp only [Option.some.injEq, Prod.mk.injEq] at h
        obtain ⟨rfl, rfl⟩ := h
        exact ⟨b!"false", rfl, .false⟩
      · cases hs : scanNumber s with
        | none => rw [hs] at h; cases h
        | some x =>
          rw [hs] at h
          simp only [Option.map_some, Option.some.injEq, Prod.mk.injEq] at h
          obtain ⟨rfl, rfl⟩ := h
          obtain ⟨e, hn⟩ := scanNumber_sound (lit := x.1) (rest := x.2) hs
          exact ⟨x.1, e, .num hn⟩
    · unfold parseElems at h
      split at h
      · cases h
      · rename_i v r hv
        obtain ⟨t, e, ht⟩ := ihv _ _ _ hv
        obtain ⟨w', hw', e'⟩ := skipWs_split r
        split at h
        · rename_i r' hr
          simp only [Option.some.injEq, Prod.mk.injEq] at h
          obtain ⟨rfl, rfl⟩ := h
          exact ⟨_, by rw [e, e', hr]; simp, .one hw ht hw'⟩
        · rename_i r' hr
          cases hs : parseElems fuel (skipWs r') with
          | none => rw [hs] at h; cases h
          | some x =>
            rw [hs] at h
            simp only [Option.map_some, Option.some.injEq, Prod.mk.injEq] at h
            obtain ⟨rfl, rfl⟩ := h
            obtain ⟨w2, hw2, e2⟩ := skipWs_split r'
            obtain ⟨t2, e3, ht2⟩ := ihe _ w2 x.1 x.2 hw2 hs
            refine ⟨_, ?_, .cons hw ht hw' ht2⟩
            rw [e, e', hr, e2, e3]
            simp
        · cases h
    · unfold parseMembers at h
      split at h
      · rename_i r
        split at h
        · cases h
        · rename_i k r1 hk
          obtain ⟨ek, hsc⟩ := scanString_sound _ r k r1 (Nat.le_refl _) hk
          obtain ⟨w2, hw2, e2⟩ := skipWs_split r1
          split at h
          · rename_i r2 hr2
            obtain ⟨w3, hw3, e3⟩ := skipWs_split r2
            split at h
            · cases h
            · rename_i v r3 hv
              obtain ⟨t, e, ht⟩ := ihv _ _ _ hv
              obtain ⟨w4, hw4, e4⟩ := skipWs_split r3
              split at h
              · rename_i r' hr
                simp only [Option.some.injEq, Prod.mk.injEq] at h
                obtain ⟨rfl, rfl⟩ := h
                refine ⟨_, ?_, .one hw ⟨rfl, hsc⟩ hw2 hw3 ht hw4⟩
                rw [ek, e2, hr2, e3, e, e4, hr]
                simp
              · rename_i r' hr
                cases hs : parseMembers fuel (skipWs r') with
                | none => rw [hs] at h; cases h
                | some x =>
                  rw [hs] at h
                  simp only [Option.map_some, Option.some.injEq, Prod.mk.injEq] at h
                  obtain ⟨rfl, rfl⟩ := h
                  obtain ⟨w5, hw5, e5⟩ := skipWs_split r'
                  obtain ⟨t2, e6, ht2⟩ := ihm _ w5 x.1 x.2 hw5 hs
                  refine ⟨_, ?_, .cons hw ⟨rfl, hsc⟩ hw2 hw3 ht hw4 ht2⟩
                  rw [ek, e2, hr2, e3, e, e4, hr, e5, e6]
                  simp
              · cases h
          · cases h
      · cases h

/-- encoding/json reads exactly the loose JSON texts, each as the value it stands for. -/
theorem parse_iff {t : GoStr} {v : JVal} : LooseText t v ↔ ∃ j, parse t = some j ∧ j.value = v := by
  constructor
  · rintro ⟨w, t, w', hw, hv, hw', rfl⟩
    obtain ⟨j, h1, h2⟩ := raw_of_value hv
    exact ⟨j, parse_raw hw h1 hw', h2⟩
  · rintro ⟨j, h, rfl⟩
    unfold parse at h
    split at h
    · rename_i v r hp
      split at h
      · rename_i hr
        cases h
        obtain ⟨w, hw, e⟩ := skipWs_split t
        obtain ⟨u, e2, hu⟩ := (parse_sound_aux _).1 _ _ _ hp
        obtain ⟨w', hw', e'⟩ := skipWs_split r
        rw [hr, List.append_nil] at e'
        exact ⟨w, u, w', hw, value_of_raw hu, hw', by rw [e, e2, e']⟩
      · cases h
    · cases h

/-- The decoder that stops after the first value reads exactly the objects the texts begin with. -/
theorem start_of_parseValue {t : GoStr} {j : Json} {rest : GoStr} (h : parseValue (t.length + 1) (skipWs t) = some (j, rest)) :
    LooseStart t j.value := by
  obtain ⟨w, hw, e⟩ := skipWs_split t
  obtain ⟨u, e2, hu⟩ := (parse_sound_aux _).1 _ _ _ h
  exact ⟨w, u, rest, hw, value_of_raw hu, by rw [e, e2]⟩

/-- A text stands for at most one value. -/
theorem looseText_unique {t : GoStr} {v v' : JVal} (h : LooseText t v) (h' : LooseText t v') : v = v' := by
  obtain ⟨j, h1, rfl⟩ := parse_iff.1 h
  obtain ⟨j', h2, rfl⟩ := parse_iff.1 h'
  rw [h1] at h2
  cases h2
  rfl

end Goidc.Json.Loose
