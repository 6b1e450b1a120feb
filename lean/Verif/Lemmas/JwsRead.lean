import Verif.Lemmas.Jws

/-! # Reading any JSON web token -/

namespace Goidc.Jws

open Spec Goidc.Json

theorem base64url_inj {a b : GoStr} (h : base64url a = base64url b) : a = b := by
  rw [← encodeSegment_spec, ← encodeSegment_spec] at h
  have := decode_encode a
  rw [h, decode_encode] at this
  exact (Option.some.inj this).symm

theorem base64url_no_dot (b : GoStr) : (46 : UInt8) ∉ base64url b := by
  rw [← encodeSegment_spec]; exact encodeSegment_no_dot b

theorem split_jws (h c g : GoStr) : split 46 (base64url h ++ 46 :: base64url c ++ 46 :: base64url g) =
    [base64url h, base64url c, base64url g] :=
  split_three (base64url_no_dot h) (base64url_no_dot c) (base64url_no_dot g)

/-- A JWS is unambiguous. -/
theorem isJws_unique {tok : GoStr} {h1 p1 h2 p2 : List (GoStr × Spec.JVal)} {s1 g1 s2 g2 : GoStr}
    (a : IsJws tok h1 p1 s1 g1) (b : IsJws tok h2 p2 s2 g2) : h1 = h2 ∧ p1 = p2 ∧ s1 = s2 ∧ g1 = g2 := by
  obtain ⟨ha, ca, a1, a2, rfl, rfl⟩ := a
  obtain ⟨hb, cb, b1, b2, rfl, hb'⟩ := b
  have := congrArg (split 46) hb'
  rw [split_jws, split_jws] at this
  simp only [List.cons.injEq, and_true] at this
  obtain ⟨e1, e2, e3⟩ := this
  obtain rfl := base64url_inj e1
  obtain rfl := base64url_inj e2
  obtain rfl := base64url_inj e3
  have := jsonText_unique a1 b1
  have := jsonText_unique a2 b2
  simp_all

/-! ## Numbers -/

mutual
theorem numbersOk_of {p : Prims} : ∀ j : Json, (∀ lit, NumberIn lit j.value → (p.float lit).isSome = true) → numbersOk p j = true
  | .null, _ => by simp [numbersOk]
  | .bool _, _ => by simp [numbersOk]
  | .str _, _ => by simp [numbersOk]
  | .num raw, h => by simp only [numbersOk]; exact h raw .here
  | .arr l, h => by
    simp only [numbersOk]
    exact numbersOkL_of l fun v hv lit hl => h lit (by simp only [Json.value]; exact .arr hv hl)
  | .obj m, h => by
    simp only [numbersOk]
    exact numbersOkM_of m fun k v hv lit hl => h lit (by simp only [Json.value]; exact .obj hv hl)

theorem numbersOkL_of {p : Prims} : ∀ l : List Json,
    (∀ v ∈ Json.values l, ∀ lit, NumberIn lit v → (p.float lit).isSome = true) → numbersOkL p l = true
  | [], _ => by simp [numbersOkL]
  | v :: l, h => by
    simp only [numbersOkL, Bool.and_eq_true]
    exact ⟨numbersOk_of v fun lit hl => h v.value (by simp [Json.values]) lit hl,
      numbersOkL_of l fun w hw => h w (by simp [Json.values, hw])⟩

theorem numbersOkM_of {p : Prims} : ∀ m : List (GoStr × Json),
    (∀ k v, (k, v) ∈ Json.membersValue m → ∀ lit, NumberIn lit v → (p.float lit).isSome = true) → numbersOkM p m = true
  | [], _ => by simp [numbersOkM]
  | (k, v) :: m, h => by
    simp only [numbersOkM, Bool.and_eq_true]
    exact ⟨numbersOk_of v fun lit hl => h _ v.value (by simp only [Json.membersValue]; exact List.mem_cons_self) lit hl,
      numbersOkM_of m fun k' w hw => h k' w (by simp only [Json.membersValue]; exact List.mem_cons_of_mem _ hw)⟩
end

/-! ## Members -/

theorem readAs_toClaim {p : Prims} {j : Json} (h : ∀ lit, NumberIn lit j.value → (p.float lit).isSome = true) :
    ReadAs p j.value (toClaim p j) := by
  cases j with
  | null => simp only [Json.value, toClaim]; exact .null
  | bool b => simp only [Json.value, toClaim]; exact .bool
  | str s => simp only [Json.value, toClaim]; exact .str
  | arr l => simp only [Json.value, toClaim]; exact .arr
  | obj m => simp only [Json.value, toClaim]; exact .obj
  | num raw =>
    simp only [Json.value, toClaim]
    have := h raw (by simp only [Json.value]; exact .here)
    obtain ⟨n, hn⟩ := Option.isSome_iff_exists.1 this
    rw [hn]
    exact .num hn

/-- The map read from the members. -/
def mapOf (p : Prims) (m : List (GoStr × Json)) : List (GoStr × Goidc.JVal) :=
  (m.map fun kv => (Json.unquote kv.1, toClaim p kv.2)).reverse

theorem find_reverse_last {l : List (GoStr × Goidc.JVal)} {k : GoStr} {v : Goidc.JVal} {l1 l2 : List (GoStr × Goidc.JVal)}
    (h : l = l1 ++ (k, v) :: l2) (hn : ∀ kv ∈ l2, kv.1 ≠ k) : l.reverse.find? (fun kv => kv.1 == k) = some (k, v) := by
  subst h
  rw [List.reverse_append, List.reverse_cons, List.append_assoc, List.find?_append, List.find?_append]
  have : l2.reverse.find? (fun kv => kv.1 == k) = none := by
    rw [List.find?_eq_none]
    intro kv hkv
    simpa using hn kv (List.mem_reverse.1 hkv)
  rw [this]
  simp

theorem find_mapOf {p : Prims} {m : List (GoStr × Json)} (hf : NumbersFit p (Json.membersValue m)) {k : GoStr} {j : Spec.JVal}
    (h : LastMember (Json.membersValue m) k j) :
    ∃ v, ReadAs p j v ∧ (mapOf p m).find? (fun kv => kv.1 == k) = some (k, v) := by
  obtain ⟨l1, l2, he, hn⟩ := h
  rw [membersValue_map] at he
  obtain ⟨m1, m', rfl, rfl, he2⟩ := List.map_eq_append_iff.1 he
  obtain ⟨⟨k', j'⟩, m2, rfl, he3, rfl⟩ := List.map_eq_cons_iff.1 he2
  cases he3
  refine ⟨toClaim p j', readAs_toClaim fun lit hl => hf lit (.obj (k := Json.unquote k') (v := j'.value) ?_ hl), ?_⟩
  · rw [membersValue_map]; simp
  · refine find_reverse_last (l1 := m1.map fun kv => (Json.unquote kv.1, toClaim p kv.2))
      (l2 := m2.map fun kv => (Json.unquote kv.1, toClaim p kv.2)) (by simp) ?_
    intro kv hkv
    obtain ⟨x, hx, rfl⟩ := List.mem_map.1 hkv
    exact hn (Json.unquote x.1, x.2.value) (List.mem_map.2 ⟨x, hx, rfl⟩)

theorem find_mapOf_none {p : Prims} {m : List (GoStr × Json)} {k : GoStr} (h : ∀ j, (k, j) ∉ Json.membersValue m) :
    (mapOf p m).find? (fun kv => kv.1 == k) = none := by
  refine find_absent fun v hv => ?_
  unfold mapOf at hv
  obtain ⟨x, hx, he⟩ := List.mem_map.1 (List.mem_reverse.1 hv)
  cases he
  refine h x.2.value ?_
  rw [membersValue_map]
  exact List.mem_map.2 ⟨x, hx, rfl⟩

theorem parse_obj {t : GoStr} {m : List (GoStr × Spec.JVal)} (h : JsonText t (.obj m)) :
    ∃ js, Json.parse t = some (.obj js) ∧ Json.membersValue js = m := by
  obtain ⟨j, h1, h2⟩ := parse_complete h
  cases j with
  | obj js => simp only [Json.value] at h2; cases h2; exact ⟨js, h1, rfl⟩
  | null => simp [Json.value] at h2
  | bool b => simp [Json.value] at h2
  | num b => simp [Json.value] at h2
  | str b => simp [Json.value] at h2
  | arr b => simp [Json.value] at h2

theorem readHeader_obj {p : Prims} {t : GoStr} {m : List (GoStr × Spec.JVal)} (h : JsonText t (.obj m)) (hf : NumbersFit p m) :
    ∃ js, readHeader p t = some (mapOf p js) ∧ readClaims p t = some (mapOf p js) ∧ Json.membersValue js = m := by
  obtain ⟨js, h1, h2⟩ := parse_obj h
  have hm : toMap p (.obj js) = some (mapOf p js) := by
    have : numbersOkM p js = true := numbersOkM_of js fun k v hv lit hl => by
      rw [h2] at hv
      exact hf lit (.obj hv hl)
    simp only [toMap, this, if_true]; rfl
  refine ⟨js, ?_, ?_, h2⟩
  · unfold readHeader; rw [h1]; exact hm
  · unfold readClaims
    unfold Json.parse at h1
    split at h1
    · rename_i v r hv
      split at h1
      · cases h1; rw [hv]; exact hm
      · cases h1
    · cases h1

theorem last_or_absent (m : List (GoStr × Spec.JVal)) (k : GoStr) : (∃ j, LastMember m k j) ∨ ∀ j, (k, j) ∉ m := by
  induction m with
  | nil => exact .inr fun j h => by cases h
  | cons x m ih =>
    rcases ih with ⟨j, l1, l2, rfl, hn⟩ | h
    · exact .inl ⟨j, x :: l1, l2, rfl, hn⟩
    · by_cases hx : x.1 = k
      · subst hx
        exact .inl ⟨x.2, [], m, rfl, fun kv hkv he => h kv.2 (by rw [← he]; exact hkv)⟩
      · refine .inr fun j hj => ?_
        rcases List.mem_cons.1 hj with rfl | hj
        · exact hx rfl
        · exact h j hj

theorem readAs_unique {p : Prims} {j : Spec.JVal} {v w : Goidc.JVal} (h : ReadAs p j v) (h' : ReadAs p j w) : v = w := by
  cases h <;> cases h' <;> simp_all

theorem find_iff_last {p : Prims} {m : List (GoStr × Json)} (hf : NumbersFit p (Json.membersValue m)) {k : GoStr} {v : Goidc.JVal} :
    (∃ k', (mapOf p m).find? (fun kv => kv.1 == k) = some (k', v)) ↔ ∃ j, LastMember (Json.membersValue m) k j ∧ ReadAs p j v := by
  constructor
  · rintro ⟨k', h⟩
    rcases last_or_absent (Json.membersValue m) k with ⟨j, hj⟩ | hn
    · obtain ⟨w, h1, h2⟩ := find_mapOf hf hj
      rw [h2] at h
      cases h
      exact ⟨j, hj, h1⟩
    · rw [find_mapOf_none hn] at h; cases h
  · rintro ⟨j, hj, hr⟩
    obtain ⟨w, h1, h2⟩ := find_mapOf hf hj
    rw [readAs_unique hr h1]
    exact ⟨k, h2⟩

theorem strOf_iff {p : Prims} {m : List (GoStr × Json)} (hf : NumbersFit p (Json.membersValue m)) {k s : GoStr} :
    strOf (mapOf p m) k = some s ↔ LastMember (Json.membersValue m) k (.str s) := by
  have h1 : strOf (mapOf p m) k = some s ↔ ∃ k', (mapOf p m).find? (fun kv => kv.1 == k) = some (k', .str s) := by
    unfold strOf
    split
    · rename_i k' s' h
      rw [h]; simp
    · rename_i h
      constructor
      · intro h'; cases h'
      · rintro ⟨k', h'⟩; exact absurd h' (h k' s)
  rw [h1, find_iff_last hf]
  constructor
  · rintro ⟨j, hj, hr⟩; cases hr; exact hj
  · exact fun h => ⟨_, h, .str⟩

/-- Any JWS is read as its JSON says. -/
theorem decode_jws {p : Prims} {tok : GoStr} {header payload : List (GoStr × Spec.JVal)} {signed sig : GoStr}
    (h : IsJws tok header payload signed sig) (hh : NumbersFit p header) (hc : NumbersFit p payload) :
    ∃ tk, decode p tok = some tk ∧
      (∀ a, tk.alg = some a ↔ LastMember header b!"alg" (.str a)) ∧
      (∀ a, tk.kid = some a ↔ LastMember header b!"kid" (.str a)) ∧
      ∀ k v, tk.claim k = some v ↔ ∃ j, LastMember payload k j ∧ ReadAs p j v := by
  obtain ⟨ht, ct, h1, h2, rfl, rfl⟩ := h
  obtain ⟨hj, r1, _, rfl⟩ := readHeader_obj h1 hh
  obtain ⟨cj, _, r2, rfl⟩ := readHeader_obj h2 hc
  refine ⟨⟨base64url ht ++ 46 :: base64url ct ++ 46 :: base64url sig, strOf (mapOf p hj) b!"alg",
    strOf (mapOf p hj) b!"kid", mapOf p cj⟩, ?_, fun a => strOf_iff hh, fun a => strOf_iff hh, ?_⟩
  · unfold decode
    rw [split_jws]
    simp only [← encodeSegment_spec, decode_encode, Option.bind_some, r1, r2]
  · intro k v
    rw [← find_iff_last hc]
    unfold JwtToken.claim
    dsimp only
    cases (mapOf p cj).find? (fun kv => kv.1 == k) with
    | none => simp
    | some kv => obtain ⟨a, b⟩ := kv; simp

theorem sigOk_jws {p : Prims} {tok : GoStr} {header payload : List (GoStr × Spec.JVal)} {signed sig alg key : GoStr}
    (h : IsJws tok header payload signed sig) (ha : alg ≠ b!"none") : sigOk p alg tok key = p.verify alg key signed sig := by
  obtain ⟨ht, ct, h1, h2, rfl, rfl⟩ := h
  unfold sigOk
  rw [split_jws]
  simp only [ha, if_false]
  rw [← encodeSegment_spec sig, decode_encode]

end Goidc.Jws
