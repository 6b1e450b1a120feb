import Verif.Lemmas.JsonLoose
import Verif.Lemmas.JwsRead
import Verif.Spec.LooseJws

/-! # golang-jwt reads only `LooseJws` -/

namespace Goidc.Jws

open Spec

/-! ## base64 -/

theorem b64Val_sound {c : UInt8} {n : Nat} (h : b64Val true c = some n) : n < 64 ∧ c = base64urlAlphabet.getD n 0 := by
  have : ∀ i : Fin 256, ∀ m ∈ b64Val true (UInt8.ofNat i), m < 64 ∧ UInt8.ofNat i = base64urlAlphabet.getD m 0 := by
    decide +kernel
  have hc := this ⟨c.toNat, c.toNat_lt⟩ n
  simp only [UInt8.ofNat_toNat] at hc
  exact hc h

theorem first_bits {x y : Nat} (hx : x < 64) (hy : y < 64) :
    bits (UInt8.ofNat (x * 4 + y / 16)) = digitBits x ++ (digitBits y).take 2 := by
  have : ∀ (a b : Fin 64), bits (UInt8.ofNat (a.val * 4 + b.val / 16)) = digitBits a.val ++ (digitBits b.val).take 2 := by decide +kernel
  exact this ⟨x, hx⟩ ⟨y, hy⟩

theorem second_bits {x y : Nat} (hx : x < 64) (hy : y < 64) :
    bits (UInt8.ofNat (x % 16 * 16 + y / 4)) = (digitBits x).drop 2 ++ (digitBits y).take 4 := by
  have : ∀ (a b : Fin 64), bits (UInt8.ofNat (a.val % 16 * 16 + b.val / 4)) = (digitBits a.val).drop 2 ++ (digitBits b.val).take 4 := by
    decide +kernel
  exact this ⟨x, hx⟩ ⟨y, hy⟩

theorem third_bits {x y : Nat} (hx : x < 64) (hy : y < 64) :
    bits (UInt8.ofNat (x % 4 * 64 + y)) = (digitBits x).drop 4 ++ digitBits y := by
  have : ∀ (a b : Fin 64), bits (UInt8.ofNat (a.val % 4 * 64 + b.val)) = (digitBits a.val).drop 4 ++ digitBits b.val := by
    decide +kernel
  exact this ⟨x, hx⟩ ⟨y, hy⟩

theorem b64DecodeQ_sound : ∀ (n : Nat) (u data : GoStr), u.length ≤ n → b64DecodeQ true u = (data, true) →
    ∃ (digits : List Nat) (pads : GoStr), u = (digits.map fun n => base64urlAlphabet.getD n 0) ++ pads ∧
      (∀ n ∈ digits, n < 64) ∧ (∀ c ∈ pads, c = 61) ∧
      data.flatMap bits <+: digits.flatMap digitBits ∧ 6 * digits.length < 8 * data.length + 6 := by
  intro n
  induction n with
  | zero =>
    intro u data hn h
    cases u with
    | nil =>
      simp only [b64DecodeQ, Prod.mk.injEq, and_true] at h
      subst h
      exact ⟨[], [], rfl, by simp, by simp, by simp, by simp⟩
    | cons c u => simp at hn
  | succ n ih =>
    intro u data hn h
    unfold b64DecodeQ at h
    split at h
    · simp only [Prod.mk.injEq, and_true] at h
      subst h
      exact ⟨[], [], rfl, by simp, by simp, by simp, by simp⟩
    · rename_i a b c d rest
      split at h
      · rename_i x y hx hy
        obtain ⟨hx', rfl⟩ := b64Val_sound hx
        obtain ⟨hy', rfl⟩ := b64Val_sound hy
        split at h
        · rename_i z hz
          obtain ⟨hz', rfl⟩ := b64Val_sound hz
          split at h
          · rename_i w hw
            obtain ⟨hw', rfl⟩ := b64Val_sound hw
            simp only [Prod.mk.injEq] at h
            obtain ⟨rfl, h2⟩ := h
            obtain ⟨digits, pads, e1, e2, e3, e4, e5⟩ := ih rest (b64DecodeQ true rest).1
              (by simp only [List.length_cons] at hn; omega) (Prod.ext rfl h2)
            refine ⟨x :: y :: z :: w :: digits, pads, congrArg (fun u => _ :: _ :: _ :: _ :: u) e1, ?_, e3, ?_, ?_⟩
            · intro m hm
              simp only [List.mem_cons] at hm
              rcases hm with rfl | rfl | rfl | rfl | hm <;> first | assumption | exact e2 _ hm
            · simp only [List.flatMap_cons]
              rw [first_bits hx' hy', second_bits hy' hz', third_bits hz' hw']
              have : digitBits x ++ List.take 2 (digitBits y) ++
                  (List.drop 2 (digitBits y) ++ List.take 4 (digitBits z) ++
                  (List.drop 4 (digitBits z) ++ digitBits w ++ (b64DecodeQ true rest).1.flatMap bits)) =
                  digitBits x ++ (digitBits y ++ (digitBits z ++ (digitBits w ++ (b64DecodeQ true rest).1.flatMap bits))) := by
                conv => rhs; rw [← List.take_append_drop 2 (digitBits y), ← List.take_append_drop 4 (digitBits z)]
                simp only [List.append_assoc]
              rw [this]
              simp only [List.prefix_append_right_inj]
              exact e4
            · simp only [List.length_cons]; omega
          · split at h
            · rename_i hd
              subst hd
              simp only [Prod.mk.injEq, List.isEmpty_iff] at h
              obtain ⟨rfl, rfl⟩ := h
              refine ⟨[x, y, z], [61], rfl, ?_, by simp, ?_, by simp⟩
              · intro m hm
                simp only [List.mem_cons, List.not_mem_nil, or_false] at hm
                rcases hm with rfl | rfl | rfl <;> assumption
              · simp only [List.flatMap_cons, List.flatMap_nil]
                rw [first_bits hx' hy', second_bits hy' hz']
                refine ⟨(digitBits z).drop 4, ?_⟩
                conv => rhs; rw [← List.take_append_drop 2 (digitBits y), ← List.take_append_drop 4 (digitBits z)]
                simp only [List.append_assoc, List.append_nil, List.nil_append]
            · cases h
        · split at h
          · rename_i hd
            obtain ⟨rfl, rfl⟩ := hd
            simp only [Prod.mk.injEq, List.isEmpty_iff] at h
            obtain ⟨rfl, rfl⟩ := h
            refine ⟨[x, y], [61, 61], rfl, ?_, by simp, ?_, by simp⟩
            · intro m hm
              simp only [List.mem_cons, List.not_mem_nil, or_false] at hm
              rcases hm with rfl | rfl <;> assumption
            · simp only [List.flatMap_cons, List.flatMap_nil]
              rw [first_bits hx' hy']
              refine ⟨(digitBits y).drop 2, ?_⟩
              conv => rhs; rw [← List.take_append_drop 2 (digitBits y)]
              simp only [List.append_assoc, List.append_nil, List.nil_append]
          · cases h
      · cases h
    · cases h

theorem alphabet_no_pad {digits : List Nat} (h : ∀ n ∈ digits, n < 64) :
    (61 : UInt8) ∉ digits.map fun n => base64urlAlphabet.getD n 0 := by
  have : ∀ n : Fin 64, base64urlAlphabet.getD n.val 0 ≠ 61 := by decide
  intro hm
  obtain ⟨n, hn, e⟩ := List.mem_map.1 hm
  exact this ⟨n, h n hn⟩ e

theorem decodeSegment_sound {s data : GoStr} (h : decodeSegment s = some data) : LooseBase64url s data := by
  unfold decodeSegment at h
  dsimp only at h
  split at h
  · rename_i hok
    cases h
    generalize (4 - s.length % 4) % 4 = k at hok ⊢
    obtain ⟨digits, pads, e1, e2, e3, e4, e5⟩ := b64DecodeQ_sound _ _ (b64Decode true (s ++ List.replicate k 61)).1
      (Nat.le_refl _) (show b64Decode true (s ++ List.replicate k 61) = _ from Prod.ext rfl hok)
    have hf : ((s ++ List.replicate k 61).filter fun c => c != 10 && c != 13) =
        (s.filter fun c => c ≠ 10 ∧ c ≠ 13) ++ List.replicate k 61 := by
      rw [List.filter_append]
      congr 1
      · refine List.filter_congr fun c _ => ?_
        simp [bne, Bool.beq_eq_decide_eq]
      · rw [List.filter_eq_self]
        intro c hc
        rw [List.eq_of_mem_replicate hc]
        decide
    rw [hf] at e1
    rcases List.append_eq_append_iff.1 e1 with ⟨a', h1, h2⟩ | ⟨c', h1, h2⟩
    · -- the digits go on into the padding: impossible
      have : a' = [] := by
        cases a' with
        | nil => rfl
        | cons x a' =>
          have hx : x = 61 := List.eq_of_mem_replicate (show x ∈ List.replicate k 61 by rw [h2]; simp)
          subst hx
          exact absurd (by rw [h1]; simp) (alphabet_no_pad e2)
      subst this
      exact ⟨digits, [], by rw [List.append_nil] at h1 ⊢; exact h1.symm, e2, by simp, e4, e5⟩
    · exact ⟨digits, c', h1, e2, fun c hc => e3 c (by rw [h2]; simp [hc]), e4, e5⟩
  · cases h

/-! ## Numbers -/

mutual
theorem fit_of_numbersOk {p : Prims} : ∀ j : Json, numbersOk p j = true → ∀ lit, NumberIn lit j.value → (p.float lit).isSome = true
  | .null, _, lit, h => by simp only [Json.value] at h; cases h
  | .bool _, _, lit, h => by simp only [Json.value] at h; cases h
  | .str _, _, lit, h => by simp only [Json.value] at h; cases h
  | .num raw, hn, lit, h => by
    simp only [Json.value] at h
    cases h
    simpa [numbersOk] using hn
  | .arr l, hn, lit, h => by
    simp only [Json.value] at h
    cases h with
    | arr hv hl => exact fit_of_numbersOkL l (by simpa [numbersOk] using hn) _ hv lit hl
  | .obj m, hn, lit, h => by
    simp only [Json.value] at h
    cases h with
    | obj hv hl => exact fit_of_numbersOkM m (by simpa [numbersOk] using hn) _ _ hv lit hl

theorem fit_of_numbersOkL {p : Prims} : ∀ l : List Json, numbersOkL p l = true →
    ∀ v ∈ Json.values l, ∀ lit, NumberIn lit v → (p.float lit).isSome = true
  | [], _, v, hv, _, _ => by simp [Json.values] at hv
  | j :: l, hn, v, hv, lit, h => by
    simp only [numbersOkL, Bool.and_eq_true] at hn
    simp only [Json.values, List.mem_cons] at hv
    rcases hv with rfl | hv
    · exact fit_of_numbersOk j hn.1 lit h
    · exact fit_of_numbersOkL l hn.2 v hv lit h

theorem fit_of_numbersOkM {p : Prims} : ∀ m : List (GoStr × Json), numbersOkM p m = true →
    ∀ k v, (k, v) ∈ Json.membersValue m → ∀ lit, NumberIn lit v → (p.float lit).isSome = true
  | [], _, k, v, hv, _, _ => by simp [Json.membersValue] at hv
  | (k', j) :: m, hn, k, v, hv, lit, h => by
    simp only [numbersOkM, Bool.and_eq_true] at hn
    simp only [Json.membersValue, List.mem_cons, Prod.mk.injEq] at hv
    rcases hv with ⟨_, rfl⟩ | hv
    · exact fit_of_numbersOk j hn.1 lit h
    · exact fit_of_numbersOkM m hn.2 k v hv lit h
end


/-! ## Tokens -/

theorem toMap_some {p : Prims} {j : Json} {m : List (GoStr × Goidc.JVal)} (h : toMap p j = some m) :
    m = [] ∨ ∃ js, j = .obj js ∧ m = mapOf p js ∧ NumbersFit p (Json.membersValue js) := by
  unfold toMap at h
  split at h
  · cases h; exact .inl rfl
  · rename_i js
    split at h
    · rename_i hn
      cases h
      refine .inr ⟨js, rfl, rfl, fun lit hl => ?_⟩
      cases hl with
      | obj hv hl => exact fit_of_numbersOkM js hn _ _ hv lit hl
    · cases h
  · cases h

/-- Whatever golang-jwt reads: a text in three parts, each of them base64url, the first JSON, the second beginning
with JSON.  (`null` counts as an object without members; then there is no algorithm, or no claim.) -/
theorem decode_sound {p : Prims} {tok : GoStr} {tk : JwtToken} (h : decode p tok = some tk) (ha : tk.alg ≠ none)
    (hc : tk.claims ≠ []) :
    ∃ a b g ht ct header payload, split 46 tok = [a, b, g] ∧ LooseBase64url a ht ∧ LooseText ht (.obj header) ∧
      LooseBase64url b ct ∧ LooseStart ct (.obj payload) ∧ NumbersFit p header ∧ NumbersFit p payload ∧
      (∀ a, tk.alg = some a ↔ LastMember header b!"alg" (.str a)) ∧
      (∀ a, tk.kid = some a ↔ LastMember header b!"kid" (.str a)) ∧
      ∀ k v, tk.claim k = some v ↔ ∃ j, LastMember payload k j ∧ ReadAs p j v := by
  unfold decode at h
  split at h
  · rename_i a b g hs
    split at h
    · rename_i hm cm h1 h2
      cases h
      obtain ⟨ht, e1, e2⟩ := Option.bind_eq_some_iff.1 h1
      obtain ⟨ct, e3, e4⟩ := Option.bind_eq_some_iff.1 h2
      unfold readHeader at e2
      obtain ⟨j1, e5, e6⟩ := Option.bind_eq_some_iff.1 e2
      unfold readClaims at e4
      split at e4
      · rename_i j2 rest e7
        rcases toMap_some e6 with rfl | ⟨js1, rfl, rfl, hf1⟩
        · exact absurd rfl ha
        · rcases toMap_some e4 with rfl | ⟨js2, rfl, rfl, hf2⟩
          · exact absurd rfl hc
          · refine ⟨a, b, g, ht, ct, Json.membersValue js1, Json.membersValue js2, hs, decodeSegment_sound e1,
              Json.Loose.parse_iff.2 ⟨_, e5, by simp only [Json.value]⟩, decodeSegment_sound e3, ?_, hf1, hf2,
              fun _ => strOf_iff hf1, fun _ => strOf_iff hf1, ?_⟩
            · have := Json.Loose.start_of_parseValue e7
              simpa only [Json.value] using this
            · intro k v
              rw [← find_iff_last hf2]
              unfold JwtToken.claim
              dsimp only
              cases (mapOf p js2).find? (fun kv => kv.1 == k) with
              | none => simp
              | some kv => obtain ⟨a, b⟩ := kv; simp
      · cases e4
    · cases h
  · cases h

theorem bits_inj {a b : List UInt8} (hl : a.length = b.length) (h : a.flatMap bits = b.flatMap bits) : a = b := by
  induction a generalizing b with
  | nil => cases b with
    | nil => rfl
    | cons => simp at hl
  | cons x a ih =>
    cases b with
    | nil => simp at hl
    | cons y b =>
      simp only [List.flatMap_cons] at h
      have hlen : ∀ z : UInt8, (bits z).length = 8 := fun z => rfl
      obtain ⟨h1, h2⟩ := List.append_inj h (by rw [hlen, hlen])
      have hx : x = y := by
        have hv : ∀ z : UInt8, bitsValue (bits z) = z.toNat := by
          have : ∀ i : Fin 256, bitsValue (bits (UInt8.ofNat i)) = i.val := by decide +kernel
          intro z
          have := this ⟨z.toNat, z.toNat_lt⟩
          simpa using this
        have := congrArg bitsValue h1
        rw [hv, hv] at this
        exact UInt8.toNat_inj.1 this
      rw [hx, ih (by simpa using hl) h2]

theorem alphabet_inj {d d' : List Nat} (h : ∀ n ∈ d, n < 64) (h' : ∀ n ∈ d', n < 64)
    (he : (d.map fun n => base64urlAlphabet.getD n 0) = d'.map fun n => base64urlAlphabet.getD n 0) : d = d' := by
  have inj : ∀ a b : Fin 64, base64urlAlphabet.getD a.val 0 = base64urlAlphabet.getD b.val 0 → a = b := by decide +kernel
  induction d generalizing d' with
  | nil => cases d' with
    | nil => rfl
    | cons => simp at he
  | cons x d ih =>
    cases d' with
    | nil => simp at he
    | cons y d' =>
      simp only [List.map_cons, List.cons.injEq] at he
      have := inj ⟨x, h x (by simp)⟩ ⟨y, h' y (by simp)⟩ he.1
      simp only [Fin.mk.injEq] at this
      rw [this, ih (fun n hn => h n (by simp [hn])) (fun n hn => h' n (by simp [hn])) he.2]

theorem looseBase64_unique {s a b : GoStr} (h : LooseBase64url s a) (h' : LooseBase64url s b) : a = b := by
  obtain ⟨d, pads, e1, e2, e3, e4, e5⟩ := h
  obtain ⟨d', pads', f1, f2, f3, f4, f5⟩ := h'
  have key : ∀ {x y px py : GoStr}, (61 : UInt8) ∉ x → (∀ c ∈ py, c = 61) → x ++ px = y ++ py → ∃ u, y = x ++ u := by
    intro x y px py hx hp he
    rcases List.append_eq_append_iff.1 he with ⟨a', h1, h2⟩ | ⟨c', h1, h2⟩
    · exact ⟨a', h1⟩
    · have : c' = [] := by
        cases c' with
        | nil => rfl
        | cons z c' =>
          have hz : z = 61 := hp z (by rw [h2]; simp)
          subst hz
          exact absurd (by rw [h1]; simp) hx
      subst this
      exact ⟨[], by simpa using h1.symm⟩
  have hd : d = d' := by
    refine alphabet_inj e2 f2 ?_
    obtain ⟨u, hu⟩ := key (alphabet_no_pad e2) f3 (e1.symm.trans f1)
    obtain ⟨v, hv⟩ := key (alphabet_no_pad f2) e3 (f1.symm.trans e1)
    rw [hu, List.append_assoc] at hv
    have := congrArg List.length hv
    simp only [List.length_append] at this
    have : u = [] := by cases u with
      | nil => rfl
      | cons => simp only [List.length_cons] at this; omega
    rw [hu, this, List.append_nil]
  subst hd
  have hlen : ∀ z : List UInt8, (z.flatMap bits).length = 8 * z.length := by
    intro z
    induction z with
    | nil => rfl
    | cons x z ih =>
      rw [List.flatMap_cons, List.length_append, ih, List.length_cons]
      have : (bits x).length = 8 := rfl
      omega
  have hdl : (d.flatMap digitBits).length = 6 * d.length := by
    clear e1 e2 e4 e5 f1 f2 f4 f5
    induction d with
    | nil => rfl
    | cons x z ih =>
      rw [List.flatMap_cons, List.length_append, ih, List.length_cons]
      have : (digitBits x).length = 6 := rfl
      omega
  have l1 := e4.length_le
  have l2 := f4.length_le
  rw [hlen, hdl] at l1 l2
  refine bits_inj (by omega) ?_
  have : (a.flatMap bits).length = (b.flatMap bits).length := by rw [hlen, hlen]; omega
  rcases List.prefix_or_prefix_of_prefix e4 f4 with h | h
  · exact h.eq_of_length this
  · exact (h.eq_of_length this.symm).symm

theorem start_obj {t : GoStr} {m : List (GoStr × Spec.JVal)} (h : LooseStart t (.obj m)) :
    ∃ js rest, Json.parseValue (t.length + 1) (Json.skipWs t) = some (.obj js, rest) ∧ Json.membersValue js = m := by
  obtain ⟨w, u, rest, hw, hv, rfl⟩ := h
  obtain ⟨j, h1, h2⟩ := Json.Loose.raw_of_value hv
  rw [Json.skipWs_append hw, Json.Loose.skipWs_value h1]
  cases h1 with
  | objNil hw' =>
    refine ⟨[], rest, ?_, by simpa [Json.value] using h2⟩
    unfold Json.parseValue
    simp only [List.cons_append, List.append_assoc, List.nil_append]
    rw [Json.skipWs_append hw', Json.skipWs_cons (by decide)]
    rfl
  | obj he =>
    refine ⟨_, rest, ?_, by simpa [Json.value] using h2⟩
    simp only [List.cons_append, List.append_assoc, List.nil_append]
    rw [Json.Loose.parseValue_obj (Json.Loose.jmembers_head he _),
      Json.Loose.parseMembers_complete he _ rest (by simp only [List.length_append, List.length_cons, List.length_nil]; omega)]
    rfl
  | _ => simp [Json.value] at h2

theorem looseStart_unique {t : GoStr} {m m' : List (GoStr × Spec.JVal)} (h : LooseStart t (.obj m)) (h' : LooseStart t (.obj m')) :
    m = m' := by
  obtain ⟨js, r, e, rfl⟩ := start_obj h
  obtain ⟨js', r', e', rfl⟩ := start_obj h'
  rw [e] at e'
  cases e'
  rfl

theorem looseText_of_json {t : GoStr} {v : Spec.JVal} (h : JsonText t v) : LooseText t v :=
  Json.Loose.parse_iff.2 (Json.parse_complete h)

theorem looseStart_of_json {t : GoStr} {v : Spec.JVal} (h : JsonText t v) : LooseStart t v := by
  obtain ⟨w, u, w', hw, hv, hw', rfl⟩ := looseText_of_json h
  exact ⟨w, u, w', hw, hv, rfl⟩

theorem looseBase64_of (b : GoStr) : LooseBase64url (base64url b) b := by
  rw [← encodeSegment_spec]
  exact decodeSegment_sound (decode_encode b)

end Goidc.Jws
