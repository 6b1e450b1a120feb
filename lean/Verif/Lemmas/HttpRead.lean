import Verif.Spec.Http
import Verif.Lemmas.Base64
import Verif.Lemmas.Escape
import Verif.Lemmas.Front

/-! # Reading headers, parameters and base64 texts -/

namespace Goidc

open Spec

/-! ## case folding -/

theorem lowerByte_eq_iff (a b : UInt8) : lowerByte a = lowerByte b ↔ SameLetter a b := by
  unfold lowerByte SameLetter
  have ha := a.toNat_lt
  have hb := b.toNat_lt
  simp only [UInt8.le_iff_toNat_le, ← UInt8.toNat_inj, UInt8.toNat_ofNat]
  repeat' split
  all_goals simp_all [UInt8.le_iff_toNat_le, ← UInt8.toNat_inj, UInt8.toNat_add]
  all_goals omega

theorem toLower_eq_iff : ∀ a b : GoStr, toLower a = toLower b ↔ SameFold a b
  | [], [] => ⟨fun _ => .nil, fun _ => rfl⟩
  | [], b :: bs => ⟨fun h => by simp [toLower] at h, fun h => nomatch h⟩
  | a :: as, [] => ⟨fun h => by simp [toLower] at h, fun h => nomatch h⟩
  | a :: as, b :: bs => by
    have ih := toLower_eq_iff as bs
    simp only [toLower, List.map_cons, List.cons.injEq] at ih ⊢
    rw [lowerByte_eq_iff, ih]
    exact ⟨fun h => .cons h.1 h.2, fun h => by cases h; exact ⟨‹_›, ‹_›⟩⟩

theorem sameFold_length {a b : GoStr} (h : SameFold a b) : a.length = b.length := by
  induction h with
  | nil => rfl
  | cons _ _ ih => simp [ih]

/-! ## first of a list -/

theorem find_first {α} (l : List α) (p : α → Bool) (x : α) :
    l.find? p = some x ↔ ∃ pre post, l = pre ++ x :: post ∧ p x = true ∧ ∀ y ∈ pre, p y = false := by
  rw [List.find?_eq_some_iff_append]
  constructor
  · rintro ⟨h, as, bs, e, hn⟩
    exact ⟨as, bs, e, h, fun y hy => by simpa using hn y hy⟩
  · rintro ⟨as, bs, e, h, hn⟩
    exact ⟨h, as, bs, e, fun y hy => by simpa using hn y hy⟩

theorem find_header (r : Req) (k v : GoStr) :
    (∃ n, r.headers.find? (fun kv => toLower kv.1 == toLower k) = some (n, v)) ↔ FirstHeader r k v := by
  simp only [find_first, FirstHeader, beq_iff_eq, beq_eq_false_iff_ne, ne_eq, toLower_eq_iff]
  constructor
  · rintro ⟨n, pre, post, h⟩; exact ⟨pre, n, post, h⟩
  · rintro ⟨pre, n, post, h⟩; exact ⟨n, pre, post, h⟩

theorem find_no_header (r : Req) (k : GoStr) :
    r.headers.find? (fun kv => toLower kv.1 == toLower k) = none ↔ NoHeader r k := by
  simp only [List.find?_eq_none, NoHeader, beq_iff_eq, toLower_eq_iff]

theorem header_or (r : Req) (k : GoStr) :
    FirstHeader r k (r.header k) ∨ (NoHeader r k ∧ r.header k = []) := by
  unfold Req.header
  cases h : r.headers.find? (fun kv => toLower kv.1 == toLower k) with
  | none => exact .inr ⟨(find_no_header r k).1 h, rfl⟩
  | some x => exact .inl ((find_header r k x.2).1 ⟨x.1, h⟩)

theorem header_first {r : Req} {k v : GoStr} (h : FirstHeader r k v) : r.header k = v := by
  obtain ⟨n, h⟩ := (find_header r k v).2 h
  simp [Req.header, h]

theorem header_none {r : Req} {k : GoStr} (h : NoHeader r k) : r.header k = [] := by
  simp [Req.header, (find_no_header r k).2 h]

theorem lookup_first {ps : Params} {k v : GoStr} (h : FirstParam ps k v) : lookupParam ps k = v := by
  obtain ⟨pre, post, e, hn⟩ := h
  have : ps.find? (fun kv => kv.1 == k) = some (k, v) :=
    (find_first _ _ _).2 ⟨pre, post, e, by simp, fun y hy => by simpa using hn y hy⟩
  simp [lookupParam, this]

theorem lookup_none {ps : Params} {k : GoStr} (h : NoParam ps k) : lookupParam ps k = [] := by
  have : ps.find? (fun kv => kv.1 == k) = none := by
    simp only [List.find?_eq_none, beq_iff_eq]; exact h
  simp [lookupParam, this]

theorem lookup_append_first {ps qs : Params} {k v : GoStr} (h : FirstParam ps k v) :
    FirstParam (ps ++ qs) k v := by
  obtain ⟨pre, post, e, hn⟩ := h
  exact ⟨pre, post ++ qs, by simp [e], hn⟩

theorem lookup_append_none {ps qs : Params} {k v : GoStr} (h : NoParam ps k) (hq : FirstParam qs k v) :
    FirstParam (ps ++ qs) k v := by
  obtain ⟨pre, post, e, hn⟩ := hq
  refine ⟨ps ++ pre, post, by simp [e], fun x hx => ?_⟩
  rcases List.mem_append.1 hx with hx | hx
  · exact h x hx
  · exact hn x hx

theorem param_or (ps : Params) (k : GoStr) : (∃ v, FirstParam ps k v) ∨ NoParam ps k := by
  cases h : ps.find? (fun kv => kv.1 == k) with
  | none => exact .inr (by simpa [List.find?_eq_none, NoParam] using h)
  | some x =>
    obtain ⟨pre, post, e, hk, hn⟩ := (find_first _ _ _).1 h
    have hk' : x.1 = k := by simpa using hk
    refine .inl ⟨x.2, pre, post, ?_, fun y hy => by simpa using hn y hy⟩
    rw [e, ← hk']

/-! ## base64 texts -/

/-- The alphabet of each encoding. -/
def alphabetOf (url : Bool) : List UInt8 := if url then base64urlAlphabet else base64Alphabet

theorem b64Char_alphabet (url : Bool) (n : Nat) (h : n < 64) : b64Char url n = (alphabetOf url).getD n 0 := by
  cases url
  · exact b64Char_std n h
  · exact b64Char_url n h

theorem b64Val_some (url : Bool) : ∀ (c : UInt8) (n : Nat), b64Val url c = some n → n < 64 ∧ b64Char url n = c := by
  intro c
  revert c
  apply forall_byte
  cases url <;> decide +kernel

theorem bits_first : ∀ x < 64, ∀ y < 64,
    bits (UInt8.ofNat (x * 4 + y / 16)) = bits6 x ++ (bits6 y).take 2 := by decide +kernel
theorem bits_second : ∀ y < 64, ∀ z < 64,
    bits (UInt8.ofNat (y % 16 * 16 + z / 4)) = (bits6 y).drop 2 ++ (bits6 z).take 4 := by decide +kernel
theorem bits_third : ∀ z < 64, ∀ w < 64,
    bits (UInt8.ofNat (z % 4 * 64 + w)) = (bits6 z).drop 4 ++ bits6 w := by decide +kernel

/-- The text of some digits. -/
def digitText (url : Bool) (l : List Nat) : GoStr := l.map (b64Char url) ++ padding l.length

theorem digitText_alphabet (url : Bool) (l : List Nat) (h : ∀ n ∈ l, n < 64) :
    digitText url l = l.map (fun n => (alphabetOf url).getD n 0) ++ padding l.length := by
  unfold digitText
  congr 1
  exact List.map_congr_left fun n hn => b64Char_alphabet url n (h n hn)

theorem b64DecodeQ_digits (url : Bool) : ∀ l : List Nat, (∀ n ∈ l, n < 64) → l.length % 4 ≠ 1 →
    ∃ d, b64DecodeQ url (digitText url l) = (d, true) ∧ d.flatMap bits <+: l.flatMap bits6 ∧
      l.length * 6 < d.length * 8 + 6
  | [], _, _ => ⟨[], by simp [digitText, padding, b64DecodeQ]⟩
  | [_], _, h => by simp at h
  | [x, y], hb, _ => by
    simp only [List.mem_cons, List.not_mem_nil, or_false, forall_eq_or_imp, forall_eq] at hb
    have hp : b64Val url 61 = none := by cases url <;> decide
    refine ⟨[UInt8.ofNat (x * 4 + y / 16)], ?_, ?_, by simp⟩
    · simp [digitText, padding, List.replicate_succ, b64DecodeQ, b64Val_char, hb, hp]
    · simp only [List.flatMap_cons, List.flatMap_nil, List.append_nil, bits_first x hb.1 y hb.2]
      exact (List.prefix_append_right_inj _).2 (List.take_prefix _ _)
  | [x, y, z], hb, _ => by
    simp only [List.mem_cons, List.not_mem_nil, or_false, forall_eq_or_imp, forall_eq] at hb
    have hp : b64Val url 61 = none := by cases url <;> decide
    refine ⟨[UInt8.ofNat (x * 4 + y / 16), UInt8.ofNat (y % 16 * 16 + z / 4)], ?_, ?_, by simp⟩
    · simp [digitText, padding, List.replicate_succ, b64DecodeQ, b64Val_char, hb, hp]
    · simp only [List.flatMap_cons, List.flatMap_nil, List.append_nil, bits_first x hb.1 y hb.2.1,
        bits_second y hb.2.1 z hb.2.2]
      rw [List.append_assoc, ← List.append_assoc (List.take 2 _), List.take_append_drop]
      exact (List.prefix_append_right_inj _).2 ((List.prefix_append_right_inj _).2 (List.take_prefix _ _))
  | x :: y :: z :: w :: rest, hb, hl => by
    simp only [List.mem_cons, forall_eq_or_imp] at hb
    obtain ⟨hx, hy, hz, hw, hr⟩ := hb
    obtain ⟨d, e, hpre, hlen⟩ := b64DecodeQ_digits url rest hr (by simp only [List.length_cons] at hl; omega)
    refine ⟨UInt8.ofNat (x * 4 + y / 16) :: UInt8.ofNat (y % 16 * 16 + z / 4) ::
        UInt8.ofNat (z % 4 * 64 + w) :: d, ?_, ?_, by simp only [List.length_cons]; omega⟩
    · have : digitText url (x :: y :: z :: w :: rest) = b64Char url x :: b64Char url y :: b64Char url z ::
          b64Char url w :: digitText url rest := by
        simp only [digitText, List.map_cons, List.cons_append, List.length_cons, padding]
        congr 6
        omega
      rw [this]
      simp [b64DecodeQ, b64Val_char, hx, hy, hz, hw, e]
    · simp only [List.flatMap_cons, bits_first x hx y hy, bits_second y hy z hz, bits_third z hz w hw]
      have : (bits6 x ++ List.take 2 (bits6 y)) ++ ((List.drop 2 (bits6 y) ++ List.take 4 (bits6 z)) ++
          ((List.drop 4 (bits6 z) ++ bits6 w) ++ d.flatMap bits)) =
          bits6 x ++ (bits6 y ++ (bits6 z ++ (bits6 w ++ d.flatMap bits))) := by
        conv => rhs; rw [← List.take_append_drop 2 (bits6 y), ← List.take_append_drop 4 (bits6 z)]
        simp only [List.append_assoc]
      rw [this]
      exact (List.prefix_append_right_inj _).2 ((List.prefix_append_right_inj _).2
        ((List.prefix_append_right_inj _).2 ((List.prefix_append_right_inj _).2 hpre)))

theorem b64DecodeQ_text (url : Bool) : ∀ (t d : List UInt8), b64DecodeQ url t = (d, true) →
    ∃ l : List Nat, (∀ n ∈ l, n < 64) ∧ l.length % 4 ≠ 1 ∧ t = digitText url l
  | [], _, _ => ⟨[], by simp [digitText, padding]⟩
  | [_], _, h => by simp [b64DecodeQ] at h
  | [_, _], _, h => by simp [b64DecodeQ] at h
  | [_, _, _], _, h => by simp [b64DecodeQ] at h
  | a :: b :: c :: e :: rest, d, h => by
    unfold b64DecodeQ at h
    cases hx : b64Val url a with
    | none => simp [hx] at h
    | some x =>
    cases hy : b64Val url b with
    | none => simp [hx, hy] at h
    | some y =>
    obtain ⟨hx1, rfl⟩ := b64Val_some url a x hx
    obtain ⟨hy1, rfl⟩ := b64Val_some url b y hy
    simp only [hx, hy] at h
    cases hz : b64Val url c with
    | none =>
      simp only [hz] at h
      by_cases hp : c = 61 ∧ e = 61
      · rw [if_pos hp] at h
        simp only [Prod.mk.injEq, List.isEmpty_iff] at h
        obtain ⟨rfl, rfl⟩ := hp
        obtain ⟨-, rfl⟩ := h
        exact ⟨[x, y], by simp [hx1, hy1], by simp, by simp [digitText, padding, List.replicate_succ]⟩
      · rw [if_neg hp] at h; simp at h
    | some z =>
      obtain ⟨hz1, rfl⟩ := b64Val_some url c z hz
      simp only [hz] at h
      cases hw : b64Val url e with
      | none =>
        simp only [hw] at h
        by_cases hp : e = 61
        · rw [if_pos hp] at h
          simp only [Prod.mk.injEq, List.isEmpty_iff] at h
          obtain ⟨-, rfl⟩ := h
          subst hp
          exact ⟨[x, y, z], by simp [hx1, hy1, hz1], by simp, by simp [digitText, padding, List.replicate_succ]⟩
        · rw [if_neg hp] at h; simp at h
      | some w =>
        obtain ⟨hw1, rfl⟩ := b64Val_some url e w hw
        simp only [hw, Prod.mk.injEq] at h
        obtain ⟨l, hl, hm, rfl⟩ := b64DecodeQ_text url rest (b64DecodeQ url rest).1 (by
          rw [← h.2])
        refine ⟨x :: y :: z :: w :: l, by simp_all, by simp only [List.length_cons]; omega, ?_⟩
        simp only [digitText, List.map_cons, List.cons_append, List.length_cons, padding]
        congr 6
        omega

theorem bits_inj {a b : UInt8} (h : bits a = bits b) : a = b := by
  have : ∀ x : UInt8, bitsValue (bits x) = x.toNat := by apply forall_byte; decide +kernel
  rw [← UInt8.toNat_inj, ← this a, ← this b, h]

theorem bits_length (a : UInt8) : (bits a).length = 8 := rfl

theorem flatMap_bits_length (d : List UInt8) : (d.flatMap bits).length = 8 * d.length := by
  induction d with
  | nil => rfl
  | cons a d ih => simp only [List.flatMap_cons, List.length_append, bits_length, ih, List.length_cons]; omega

theorem flatMap_bits6_length (d : List Nat) : (d.flatMap bits6).length = 6 * d.length := by
  induction d with
  | nil => rfl
  | cons a d ih =>
    simp only [List.flatMap_cons, List.length_append, show (bits6 a).length = 6 from rfl, ih, List.length_cons]
    omega

theorem flatMap_bits_inj : ∀ {d e : List UInt8}, d.flatMap bits = e.flatMap bits → d = e
  | [], [], _ => rfl
  | [], e :: es, h => by have := congrArg List.length h; rw [flatMap_bits_length, flatMap_bits_length] at this; simp at this
  | d :: ds, [], h => by have := congrArg List.length h; rw [flatMap_bits_length, flatMap_bits_length] at this; simp at this
  | d :: ds, e :: es, h => by
    simp only [List.flatMap_cons] at h
    obtain ⟨h1, h2⟩ := List.append_inj h rfl
    rw [bits_inj h1, flatMap_bits_inj h2]

theorem b64DecodeQ_iff (url : Bool) (t d : List UInt8) :
    b64DecodeQ url t = (d, true) ↔ Base64Text (alphabetOf url) t d := by
  constructor
  · intro h
    obtain ⟨l, hl, hm, rfl⟩ := b64DecodeQ_text url t d h
    obtain ⟨d', e, hp, hlen⟩ := b64DecodeQ_digits url l hl hm
    rw [h] at e
    obtain rfl : d = d' := (Prod.mk.inj e).1
    exact ⟨l, hl, digitText_alphabet url l hl, hp, hlen⟩
  · rintro ⟨l, hl, rfl, hp, hlen⟩
    rw [← digitText_alphabet url l hl]
    have h1 := hp.length_le
    rw [flatMap_bits_length, flatMap_bits6_length] at h1
    obtain ⟨d', e, hp', hlen'⟩ := b64DecodeQ_digits url l hl (by omega)
    have h2 := hp'.length_le
    rw [flatMap_bits_length, flatMap_bits6_length] at h2
    have : d = d' := by
      apply flatMap_bits_inj
      rw [List.prefix_iff_eq_take] at hp hp'
      rw [hp, hp', flatMap_bits_length, flatMap_bits_length]
      congr 2
      omega
    rw [this, e]

theorem b64Decode_iff (url : Bool) (t d : List UInt8) :
    b64Decode url t = (d, true) ↔ Base64Text (alphabetOf url) (unbroken t) d := by
  rw [← b64DecodeQ_iff]
  have : unbroken t = t.filter (fun c => c != 10 && c != 13) := by
    unfold unbroken
    congr 1
    funext c
    by_cases h1 : c = 10 <;> by_cases h2 : c = 13 <;> simp [h1, h2]
  rw [this]
  rfl

theorem cut_iff (sep : UInt8) (s a b : GoStr) :
    cut sep s = (a, b, true) ↔ s = a ++ sep :: b ∧ sep ∉ a := by
  constructor
  · intro h
    have h1 := cut_fst_append_rest sep s
    have h2 := cut_fst_no_sep sep s
    rw [h] at h1 h2
    exact ⟨by simpa using h1.symm, h2⟩
  · rintro ⟨rfl, h⟩
    exact cut_append sep b a h

theorem parseBasicAuth_iff (v cid sec : GoStr) : Req.parseBasicAuth v = some (cid, sec) ↔
    ∃ scheme text, v = scheme ++ text ∧ SameFold scheme b!"Basic " ∧ (58 : UInt8) ∉ cid ∧
      Base64Text base64Alphabet (unbroken text) (cid ++ 58 :: sec) := by
  have hd : ∀ t d, b64Decode false t = (d, true) ↔ Base64Text base64Alphabet (unbroken t) d :=
    fun t d => b64Decode_iff false t d
  constructor
  · intro h
    unfold Req.parseBasicAuth at h
    split at h
    · simp at h
    · rename_i hc
      rw [not_or, Decidable.not_not] at hc
      dsimp only at h
      cases hq : b64Decode false (v.drop 6) with
      | mk d ok =>
      rw [hq] at h
      cases ok with
      | false => simp at h
      | true =>
        simp only [Bool.true_eq_false, if_false] at h
        cases hk : cut 58 d with
        | mk a rest =>
        obtain ⟨b, ok⟩ := rest
        rw [hk] at h
        cases ok with
        | false => simp at h
        | true =>
          simp only [Bool.true_eq_false, if_false, Option.some.injEq, Prod.mk.injEq] at h
          obtain ⟨rfl, rfl⟩ := h
          obtain ⟨rfl, hn⟩ := (cut_iff _ _ _ _).1 hk
          exact ⟨v.take 6, v.drop 6, (List.take_append_drop 6 v).symm,
            (toLower_eq_iff _ _).1 (by rw [hc.2]; decide), hn, (hd _ _).1 hq⟩
  · rintro ⟨scheme, text, rfl, hs, hn, hb⟩
    have hlen : scheme.length = 6 := sameFold_length hs
    unfold Req.parseBasicAuth
    rw [if_neg, List.drop_left' hlen, (hd _ _).2 hb]
    · simp [(cut_iff 58 _ _ _).2 ⟨rfl, hn⟩]
    · rw [List.take_left' hlen, (toLower_eq_iff _ _).2 hs]
      simp only [List.length_append, hlen]
      intro h
      rcases h with h | h
      · omega
      · exact h (by decide)

theorem basicAuth_iff (r : Req) (cid sec : GoStr) :
    r.basicAuth = some (cid, sec) ↔ BasicCredentials r cid sec := by
  unfold Req.basicAuth BasicCredentials
  rcases header_or r b!"Authorization" with h | ⟨h, he⟩
  · split
    · rename_i he
      simp only [reduceCtorEq, false_iff]
      rintro ⟨v, scheme, text, hv, rfl, hs, -⟩
      rw [header_first hv] at he
      have := sameFold_length hs
      simp only [List.append_eq_nil_iff] at he
      rw [he.1] at this
      simp at this
    · rw [parseBasicAuth_iff]
      constructor
      · rintro ⟨scheme, text, e, rest⟩
        exact ⟨_, scheme, text, h, e, rest⟩
      · rintro ⟨v, scheme, text, hv, e, rest⟩
        exact ⟨scheme, text, by rw [header_first hv, e], rest⟩
  · rw [if_pos he]
    simp only [reduceCtorEq, false_iff]
    rintro ⟨v, scheme, text, ⟨pre, n, post, e, hs, -⟩, -⟩
    exact h (n, v) (by rw [e]; simp) hs

end Goidc
