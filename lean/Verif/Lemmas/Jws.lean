import Verif.Model.Jws
import Verif.Spec.Jws
import Verif.Spec.Grants
import Verif.Lemmas.Base64
import Verif.Lemmas.Escape
import Verif.Lemmas.Str
import Verif.Lemmas.Jwt
import Verif.Lemmas.Decimal
import Verif.Lemmas.JsonEncode

/-! # Compact serialisation and parsing of JSON web tokens -/

namespace Goidc.Jws

open Spec Goidc.Json

/-! ## Segments -/

theorem dropWhile_pad (s : GoStr) (h : (61 : UInt8) ∉ s) (k : Nat) :
    ((s ++ List.replicate k 61).reverse.dropWhile (· == 61)).reverse = s := by
  rw [List.reverse_append, List.reverse_replicate]
  induction k with
  | zero =>
    simp only [List.replicate_zero, List.nil_append]
    cases hs : s.reverse with
    | nil => have := congrArg List.reverse hs; simpa using this.symm
    | cons a l =>
      have ha : a ≠ 61 := by
        rintro rfl
        apply h
        rw [← List.mem_reverse, hs]
        exact List.mem_cons_self
      rw [List.dropWhile_cons_of_neg (by simpa using ha), ← hs, List.reverse_reverse]
  | succ n ih => rw [List.replicate_succ, List.cons_append, List.dropWhile_cons_of_pos (by rfl)]; exact ih

theorem encodeSegment_raw (b : GoStr) : encodeSegment b = b64Raw true b := by
  unfold encodeSegment
  rw [b64Encode_eq]
  exact dropWhile_pad _ (b64Raw_no_pad true b) _

theorem encodeSegment_spec (b : GoStr) : encodeSegment b = base64url b := by
  rw [encodeSegment_raw, b64Raw_spec true base64urlAlphabet b64Char_url]

theorem decode_encode (b : GoStr) : decodeSegment (encodeSegment b) = some b := by
  unfold decodeSegment
  rw [encodeSegment_raw]
  have := b64Decode_encode true b
  rw [b64Encode_eq] at this
  unfold padding at this
  simp only [this, if_true]

theorem b64Char_ne_dot : ∀ n < 64, b64Char true n ≠ 46 := by decide

theorem encodeSegment_no_dot (b : GoStr) : (46 : UInt8) ∉ encodeSegment b := by
  rw [encodeSegment_raw]
  intro h
  obtain ⟨n, hn, he⟩ := b64Raw_mem true b _ h
  exact b64Char_ne_dot n hn he.symm

theorem split_three {h c g : GoStr} (h1 : (46 : UInt8) ∉ h) (h2 : (46 : UInt8) ∉ c) (h3 : (46 : UInt8) ∉ g) :
    split 46 (h ++ 46 :: c ++ 46 :: g) = [h, c, g] := by
  have := split_join 46 [h, c, g] (by simp) (by simp [h1, h2, h3])
  simpa [join] using this

theorem split_eq_three {s h c g : GoStr} (hs : split 46 s = [h, c, g]) :
    s = h ++ 46 :: c ++ 46 :: g ∧ (46 : UInt8) ∉ h ∧ (46 : UInt8) ∉ c ∧ (46 : UInt8) ∉ g := by
  have hn := split_no_sep 46 s
  rw [hs] at hn
  refine ⟨?_, hn h (by simp), hn c (by simp), hn g (by simp)⟩
  have := join_split 46 s
  rw [hs] at this
  simpa [join] using this.symm

/-! ## Objects -/

/-- A claim goidc writes. -/
def Plain : Goidc.JVal → Prop
  | .str _ => True
  | .float _ => True
  | _ => False

/-- The parsed form of a claim. -/
def toJson : Goidc.JVal → Json
  | .str s => .str (rawOf s)
  | .float n => .num (itoa n)
  | _ => .null

/-- The member for a claim. -/
def fieldOf (kv : GoStr × Goidc.JVal) : Field := ⟨jsonString kv.1, rawOf kv.1, claimText kv.2, toJson kv.2⟩

theorem rvalue_claim {v : Goidc.JVal} (h : Plain v) : RValue (claimText v) (toJson v) := by
  cases v with
  | str s => exact .str (rstr_jsonString s)
  | float n => exact .num (jnum_itoa n)
  | number n => cases h
  | other => cases h

/-- A member as text. -/
abbrev asText (kv : GoStr × Goidc.JVal) : GoStr × GoStr := (kv.1, claimText kv.2)

theorem insertPair_map (x : GoStr × Goidc.JVal) : ∀ l : List (GoStr × Goidc.JVal),
    ∃ l' : List (GoStr × Goidc.JVal), l'.Perm (x :: l) ∧ insertPair (asText x) (l.map asText) = l'.map asText
  | [] => ⟨[x], .refl _, rfl⟩
  | y :: l => by
    obtain ⟨l', h1, h2⟩ := insertPair_map x l
    by_cases h : strLe x.1 y.1
    · exact ⟨x :: y :: l, .refl _, by simp [insertPair, h]⟩
    · refine ⟨y :: l', (h1.cons y).trans (.swap x y l), ?_⟩
      simp only [List.map_cons, insertPair]
      rw [if_neg h, h2]

theorem sortPairs_map : ∀ l : List (GoStr × Goidc.JVal),
    ∃ l' : List (GoStr × Goidc.JVal), l'.Perm l ∧ sortPairs (l.map asText) = l'.map asText
  | [] => ⟨[], .refl _, rfl⟩
  | x :: l => by
    obtain ⟨l1, h1, h2⟩ := sortPairs_map l
    obtain ⟨l2, h3, h4⟩ := insertPair_map x l1
    exact ⟨l2, h3.trans (h1.cons x), by rw [List.map_cons, sortPairs, h2, h4]⟩

/-- What a map of claims is written as. -/
theorem object_raw (claims : List (GoStr × Goidc.JVal)) (hp : ∀ kv ∈ claims, Plain kv.2) :
    ∃ l : List (GoStr × Goidc.JVal), l.Perm claims ∧ RValue (object (claims.map asText)) (.obj (l.map fun kv => (rawOf kv.1, toJson kv.2))) := by
  obtain ⟨l, h1, h2⟩ := sortPairs_map claims
  refine ⟨l, h1, ?_⟩
  unfold object
  rw [h2]
  cases hl : l with
  | nil => exact .objNil ws_nil
  | cons x l' =>
    rw [← hl]
    have := robj_join (l.map fieldOf) (by simp [hl]) (by
      intro f hf
      obtain ⟨kv, hkv, rfl⟩ := List.mem_map.1 hf
      exact ⟨rstr_jsonString _, rvalue_claim (hp kv (h1.subset hkv))⟩)
    simpa [List.map_map, Function.comp_def, fieldOf, asText] using this

theorem writtenAs {v : Goidc.JVal} (h : Plain v) : WrittenAs v (toJson v).value := by
  cases v with
  | str s =>
    simp only [toJson, Json.value, unquote_rawOf]
    exact .str (toValid_valid s) fun hv => toValid_of_valid hv
  | float n => exact .int (itoa_canonical n)
  | number n => cases h
  | other => cases h

/-- What a map of claims says. -/
theorem object_says (claims : List (GoStr × Goidc.JVal)) (hp : ∀ kv ∈ claims, Plain kv.2)
    (hv : ∀ kv ∈ claims, ValidUtf8 kv.1) (hn : (claims.map (·.1)).Nodup) :
    ∃ members, JsonText (object (claims.map asText)) (.obj members) ∧ SaysExactly members fun k v => (k, v) ∈ claims := by
  obtain ⟨l, h1, h2⟩ := object_raw claims hp
  have h3 := jsonText_of_raw h2
  simp only [Json.value, membersValue_map, List.map_map, Function.comp_def, unquote_rawOf] at h3
  have hk : ∀ kv ∈ l, toValid kv.1 = kv.1 := fun kv h => toValid_of_valid (hv kv (h1.subset h))
  refine ⟨_, h3, ?_, ?_, ?_⟩
  · rw [List.map_map, Function.comp_def]
    have : l.map (fun kv => toValid kv.1) = l.map (·.1) := List.map_congr_left hk
    simp only
    rw [this]
    exact (h1.map _).nodup_iff.2 hn
  · intro k j h
    obtain ⟨kv, hkv, he⟩ := List.mem_map.1 h
    cases he
    rw [hk kv hkv]
    exact ⟨kv.2, h1.subset hkv, writtenAs (hp kv (h1.subset hkv))⟩
  · intro k v h
    refine ⟨_, List.mem_map.2 ⟨(k, v), h1.symm.subset h, ?_⟩, writtenAs (hp _ h)⟩
    rw [hk _ (h1.symm.subset h)]

/-! ## Signing -/

/-- The header as claims. -/
def headerMembers (alg kid : GoStr) : List (GoStr × Goidc.JVal) :=
  [(b!"typ", .str b!"JWT"), (b!"alg", .str alg)] ++ (if kid = [] then [] else [(b!"kid", .str kid)])

theorem headerText_eq (alg kid : GoStr) : headerText alg kid = object ((headerMembers alg kid).map asText) := by
  unfold headerText headerMembers
  by_cases h : kid = [] <;> simp [h, asText, claimText]

theorem headerMembers_iff (alg kid k : GoStr) (v : Goidc.JVal) : (k, v) ∈ headerMembers alg kid ↔ HeaderClaims alg kid k v := by
  unfold headerMembers HeaderClaims
  by_cases h : kid = [] <;> simp [h] <;> grind

theorem header_plain (alg kid : GoStr) : ∀ kv ∈ headerMembers alg kid, Plain kv.2 := by
  rintro ⟨k, v⟩ h
  rw [headerMembers_iff] at h
  rcases h with ⟨_, rfl⟩ | ⟨_, rfl⟩ | ⟨_, _, rfl⟩ <;> trivial

theorem header_valid (alg kid : GoStr) : ∀ kv ∈ headerMembers alg kid, ValidUtf8 kv.1 := by
  rintro ⟨k, v⟩ h
  rw [headerMembers_iff] at h
  rcases h with ⟨rfl, _⟩ | ⟨rfl, _⟩ | ⟨rfl, _⟩ <;> exact valid_ascii (by dsimp only; decide)

theorem header_nodup (alg kid : GoStr) : ((headerMembers alg kid).map (·.1)).Nodup := by
  unfold headerMembers
  by_cases h : kid = [] <;> simp [h]

/-- A signed token is a JWS that says what was signed. -/
theorem sign_isJws (p : Prims) (alg kid key : GoStr) (claims : List (GoStr × Goidc.JVal)) (hp : ∀ kv ∈ claims, Plain kv.2)
    (hv : ∀ kv ∈ claims, ValidUtf8 kv.1) (hn : (claims.map (·.1)).Nodup) :
    ∃ header payload signed sig, IsJws (sign p alg kid claims key) header payload signed sig ∧
      SaysExactly header (HeaderClaims alg kid) ∧ SaysExactly payload (fun k v => (k, v) ∈ claims) ∧
      sig = (if alg = b!"none" then [] else p.signature alg key signed) := by
  obtain ⟨hm, h1, h2⟩ := object_says (headerMembers alg kid) (header_plain alg kid) (header_valid alg kid) (header_nodup alg kid)
  obtain ⟨cm, h3, h4⟩ := object_says claims hp hv hn
  simp only [headerMembers_iff] at h2
  refine ⟨hm, cm, signingString alg kid claims, _, ⟨headerText alg kid, claimsText claims, ?_, ?_, ?_, ?_⟩, h2, h4, rfl⟩
  · rw [headerText_eq]; exact h1
  · exact h3
  · unfold signingString; rw [encodeSegment_spec, encodeSegment_spec]
  · unfold sign
    by_cases h : alg = b!"none"
    · simp only [h, if_true]; rfl
    · simp only [h, if_false]; rw [encodeSegment_spec]

/-! ## Reading -/

/-- What reading keeps of a claim: ill-formed UTF-8 is replaced. -/
def cleaned : Goidc.JVal → Goidc.JVal
  | .str s => .str (toValid s)
  | v => v

/-- The number survives float64. -/
def Fits : Goidc.JVal → Prop
  | .float n => -2 ^ 53 ≤ n.toInt ∧ n.toInt ≤ 2 ^ 53
  | _ => True

theorem float_fits {p : Prims} {n : Int64} (h : Fits (.float n)) : p.float (itoa n) = some n := p.float_int n h.1 h.2

theorem toClaim_toJson {p : Prims} {v : Goidc.JVal} (hp : Plain v) (hf : Fits v) : toClaim p (toJson v) = cleaned v := by
  cases v with
  | str s => simp [toClaim, toJson, cleaned, unquote_rawOf]
  | float n => simp [toClaim, toJson, cleaned, float_fits hf]
  | number n => cases hp
  | other => cases hp

theorem numbersOk_toJson {p : Prims} {v : Goidc.JVal} (hp : Plain v) (hf : Fits v) : numbersOk p (toJson v) = true := by
  cases v with
  | str s => simp [toJson, numbersOk]
  | float n => simp [toJson, numbersOk, float_fits hf]
  | number n => cases hp
  | other => cases hp

theorem numbersOkM_map {p : Prims} : ∀ (l : List (GoStr × Goidc.JVal)), (∀ kv ∈ l, Plain kv.2 ∧ Fits kv.2) →
    numbersOkM p (l.map fun kv => (rawOf kv.1, toJson kv.2)) = true
  | [], _ => by simp [numbersOkM]
  | kv :: l, h => by
    simp only [List.map_cons, numbersOkM, Bool.and_eq_true]
    exact ⟨numbersOk_toJson (h kv (by simp)).1 (h kv (by simp)).2, numbersOkM_map l fun x hx => h x (by simp [hx])⟩

/-- The map read from the members of `l`. -/
def readMap (l : List (GoStr × Goidc.JVal)) : List (GoStr × Goidc.JVal) := (l.map fun kv => (toValid kv.1, cleaned kv.2)).reverse

theorem toMap_obj {p : Prims} (l : List (GoStr × Goidc.JVal)) (h : ∀ kv ∈ l, Plain kv.2 ∧ Fits kv.2) :
    toMap p (.obj (l.map fun kv => (rawOf kv.1, toJson kv.2))) = some (readMap l) := by
  simp only [toMap, numbersOkM_map l h, if_true, List.map_map, Function.comp_def, unquote_rawOf, readMap]
  congr 2
  exact List.map_congr_left fun kv hkv => by rw [toClaim_toJson (h kv hkv).1 (h kv hkv).2]

theorem read_object (p : Prims) (claims : List (GoStr × Goidc.JVal)) (h : ∀ kv ∈ claims, Plain kv.2 ∧ Fits kv.2) :
    ∃ l : List (GoStr × Goidc.JVal), l.Perm claims ∧ readHeader p (object (claims.map asText)) = some (readMap l) ∧
      readClaims p (object (claims.map asText)) = some (readMap l) := by
  obtain ⟨l, h1, h2⟩ := object_raw claims fun kv hkv => (h kv hkv).1
  have h3 := toMap_obj (p := p) l fun kv hkv => h kv (h1.subset hkv)
  refine ⟨l, h1, ?_, ?_⟩
  · unfold readHeader
    rw [parse_value h2]
    exact h3
  · unfold readClaims
    have h4 := skipWs_value h2 []
    rw [List.append_nil] at h4
    have h5 := parseValue_complete h2 ((object (claims.map asText)).length + 1) [] (by omega) numEnd_nil
    rw [List.append_nil] at h5
    rw [h4, h5]
    exact h3

theorem find_nodup {l : List (GoStr × Goidc.JVal)} {k : GoStr} {v : Goidc.JVal} (hn : (l.map (·.1)).Nodup) (h : (k, v) ∈ l) :
    l.find? (fun kv => kv.1 == k) = some (k, v) := by
  induction l with
  | nil => cases h
  | cons x l ih =>
    simp only [List.map_cons, List.nodup_cons] at hn
    rcases List.mem_cons.1 h with rfl | h
    · simp
    · rw [List.find?_cons_of_neg, ih hn.2 h]
      intro he
      exact hn.1 (List.mem_map.2 ⟨(k, v), h, by have := eq_of_beq he; exact this.symm⟩)

theorem find_absent {l : List (GoStr × Goidc.JVal)} {k : GoStr} (h : ∀ v, (k, v) ∉ l) :
    l.find? (fun kv => kv.1 == k) = none := by
  rw [List.find?_eq_none]
  rintro ⟨k', v⟩ hm he
  obtain rfl : k' = k := by simpa using he
  exact h v hm

theorem readMap_nodup {l claims : List (GoStr × Goidc.JVal)} (h1 : l.Perm claims) (hv : ∀ kv ∈ claims, ValidUtf8 kv.1)
    (hn : (claims.map (·.1)).Nodup) : ((readMap l).map (·.1)).Nodup := by
  have : l.map (fun kv => toValid kv.1) = l.map (·.1) :=
    List.map_congr_left fun kv h => toValid_of_valid (hv kv (h1.subset h))
  unfold readMap
  rw [List.map_reverse, List.map_map, Function.comp_def, this]
  exact (((List.reverse_perm _).trans (h1.map _)).nodup_iff).2 hn

theorem mem_readMap {l claims : List (GoStr × Goidc.JVal)} (h1 : l.Perm claims) (hv : ∀ kv ∈ claims, ValidUtf8 kv.1) (k : GoStr) (v : Goidc.JVal) :
    (k, v) ∈ readMap l ↔ ∃ v', (k, v') ∈ claims ∧ v = cleaned v' := by
  unfold readMap
  rw [List.mem_reverse, List.mem_map]
  constructor
  · rintro ⟨kv, hkv, he⟩
    cases he
    rw [toValid_of_valid (hv kv (h1.subset hkv))]
    exact ⟨kv.2, h1.subset hkv, rfl⟩
  · rintro ⟨v', hm, rfl⟩
    exact ⟨(k, v'), h1.symm.subset hm, by rw [toValid_of_valid (hv _ hm)]⟩

/-- A member of the map that was read. -/
theorem find_readMap {l claims : List (GoStr × Goidc.JVal)} (h1 : l.Perm claims) (hv : ∀ kv ∈ claims, ValidUtf8 kv.1)
    (hn : (claims.map (·.1)).Nodup) {k : GoStr} {v : Goidc.JVal} (h : (k, v) ∈ claims) :
    (readMap l).find? (fun kv => kv.1 == k) = some (k, cleaned v) :=
  find_nodup (readMap_nodup h1 hv hn) ((mem_readMap h1 hv k _).2 ⟨v, h, rfl⟩)

theorem find_readMap_none {l claims : List (GoStr × Goidc.JVal)} (h1 : l.Perm claims) (hv : ∀ kv ∈ claims, ValidUtf8 kv.1)
    {k : GoStr} (h : ∀ v, (k, v) ∉ claims) : (readMap l).find? (fun kv => kv.1 == k) = none :=
  find_absent fun v hm => by obtain ⟨v', h2, _⟩ := (mem_readMap h1 hv k v).1 hm; exact h v' h2

/-- A signed token is read back. -/
theorem decode_sign (p : Prims) (alg kid key : GoStr) (claims : List (GoStr × Goidc.JVal))
    (hp : ∀ kv ∈ claims, Plain kv.2 ∧ Fits kv.2) (hv : ∀ kv ∈ claims, ValidUtf8 kv.1) (hn : (claims.map (·.1)).Nodup)
    (ha : ValidUtf8 alg) :
    ∃ tk, decode p (sign p alg kid claims key) = some tk ∧ tk.alg = some alg ∧
      tk.kid = (if kid = [] then none else some (toValid kid)) ∧
      (∀ k v, (k, v) ∈ claims → tk.claim k = some (cleaned v)) ∧
      ∀ k, (∀ v, (k, v) ∉ claims) → tk.claim k = none := by
  have hh : ∀ kv ∈ headerMembers alg kid, Plain kv.2 ∧ Fits kv.2 := by
    intro kv h
    refine ⟨header_plain alg kid kv h, ?_⟩
    obtain ⟨k, v⟩ := kv
    rw [headerMembers_iff] at h
    rcases h with ⟨_, rfl⟩ | ⟨_, rfl⟩ | ⟨_, _, rfl⟩ <;> trivial
  obtain ⟨lh, p1, r1, _⟩ := read_object p (headerMembers alg kid) hh
  obtain ⟨lc, p2, _, r2⟩ := read_object p claims hp
  have hsplit : split 46 (sign p alg kid claims key) = [encodeSegment (headerText alg kid), encodeSegment (claimsText claims),
      if alg = b!"none" then [] else encodeSegment (p.signature alg key (signingString alg kid claims))] := by
    unfold sign signingString
    apply split_three (encodeSegment_no_dot _) (encodeSegment_no_dot _)
    split
    · simp
    · exact encodeSegment_no_dot _
  refine ⟨⟨sign p alg kid claims key, some alg, if kid = [] then none else some (toValid kid), readMap lc⟩, ?_, rfl, rfl, ?_, ?_⟩
  · unfold decode
    rw [hsplit]
    simp only [decode_encode, Option.bind_some]
    rw [headerText_eq, r1, show readClaims p (claimsText claims) = some (readMap lc) from r2]
    simp only [Option.some.injEq, JwtToken.mk.injEq, true_and, and_true]
    constructor
    · unfold strOf
      rw [find_readMap p1 (header_valid alg kid) (header_nodup alg kid) (v := .str alg) ((headerMembers_iff _ _ _ _).2 (.inl ⟨rfl, rfl⟩))]
      simp only [cleaned, toValid_of_valid ha]
    · unfold strOf
      by_cases hk : kid = []
      · rw [find_readMap_none p1 (header_valid alg kid)]
        · simp [hk]
        · intro v h
          rw [headerMembers_iff] at h
          simp [HeaderClaims, hk] at h
      · rw [find_readMap p1 (header_valid alg kid) (header_nodup alg kid) (v := .str kid)
          ((headerMembers_iff _ _ _ _).2 (.inr (.inr ⟨rfl, hk, rfl⟩)))]
        simp [cleaned, hk]
  · intro k v h
    unfold JwtToken.claim
    simp only [find_readMap p2 hv hn h]
  · intro k h
    unfold JwtToken.claim
    simp only [find_readMap_none p2 hv h]

/-- A signed token verifies under its key. -/
theorem sigOk_sign (p : Prims) (alg kid key : GoStr) (claims : List (GoStr × Goidc.JVal)) (hs : alg = b!"none" ∨ p.signOk alg key = true) :
    sigOk p alg (sign p alg kid claims key) key = true := by
  unfold sigOk sign signingString
  rw [split_three (encodeSegment_no_dot _) (encodeSegment_no_dot _) (by split; · simp
                                                                        · exact encodeSegment_no_dot _)]
  simp only
  by_cases h : alg = b!"none"
  · simp [h]
  · simp only [h, if_false, decode_encode]
    exact p.verify_signature _ _ _ (hs.resolve_left h)

end Goidc.Jws
