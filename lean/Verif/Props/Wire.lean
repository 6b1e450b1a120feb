import Verif.Spec.Wire
import Verif.Lemmas.Escape
import Verif.Lemmas.Front
import Verif.Props.Http
import Verif.Props.Ignored

/-! # C109: any spelling of the same parameters is the same request -/

namespace Goidc.Props

open Spec

theorem hexNumeral_iff {c : UInt8} {n : Nat} : unhex c = some n ↔ HexNumeral c n := by
  have h : ∀ c : UInt8, ∀ n : Fin 16, unhex c = some n.val ↔ HexNumeral c n.val := by
    apply forall_byte
    unfold HexNumeral
    decide +kernel
  have hb : ∀ c : UInt8, ∀ m, unhex c = some m → m < 16 := by
    intro c m hm
    have : ∀ c : UInt8, (unhex c).all (· < 16) = true := by apply forall_byte; decide +kernel
    have := this c
    rw [hm] at this
    simpa using this
  constructor
  · intro hu
    exact (h c ⟨n, hb c n hu⟩).1 hu
  · intro hd
    have hn : n < 16 := by
      rcases hd with hd | hd <;> exact (List.getElem?_eq_some_iff.1 hd).1
    exact (h c ⟨n, hn⟩).2 hd

theorem spells_iff : ∀ {s d : GoStr}, queryUnescape s = some d ↔ Spells s d := by
  intro s d
  constructor
  · intro h
    fun_induction queryUnescape s generalizing d with
    | case1 => cases h; exact .nil
    | case2 a b rest x y hb ha ih =>
      obtain ⟨d', hd', rfl⟩ := Option.map_eq_some_iff.1 h
      rw [Nat.mul_comm]
      exact .hex (hexNumeral_iff.1 ha) (hexNumeral_iff.1 hb) (ih hd')
    | case3 => simp_all
    | case4 => cases h
    | case5 cs _ ih =>
      obtain ⟨d', hd', rfl⟩ := Option.map_eq_some_iff.1 h
      exact .plus (ih hd')
    | case6 c cs h1 h2 ih =>
      obtain ⟨d', hd', rfl⟩ := Option.map_eq_some_iff.1 h
      exact .plain _ h1 h2 (ih hd')
  · intro h
    induction h with
    | nil => rfl
    | plain c h1 h2 _ ih => rw [queryUnescape.eq_def]; simp [h1, h2, ih]
    | plus _ ih => rw [queryUnescape.eq_def]; simp [ih]
    | hex ha hb _ ih =>
      rw [queryUnescape.eq_def]
      simp [hexNumeral_iff.2 ha, hexNumeral_iff.2 hb, ih, Nat.mul_comm]

theorem oneParam_iff {p : GoStr} {kv : GoStr × GoStr} : parsePiece p = some kv ↔ OneParam p kv := by
  unfold parsePiece OneParam
  by_cases h59 : (59 : UInt8) ∈ p
  · simp [h59]
  · have hc : p.contains 59 = false := by simpa using h59
    rw [if_neg (by simpa using h59)]
    simp only [h59, not_false_eq_true, true_and]
    by_cases hp : p = []
    · subst hp
      simp
    · rw [if_neg hp]
      by_cases h61 : (61 : UInt8) ∈ p
      · have ht := (cut_true_iff 61 p).2 h61
        obtain ⟨k, v, hkv⟩ : ∃ k v, cut 61 p = (k, v, true) := ⟨_, _, by rw [← ht]⟩
        obtain ⟨rfl, hk⟩ := (cut_iff 61 p k v).1 hkv
        rw [hkv]
        dsimp only
        constructor
        · intro h
          refine .inl ⟨k, v, rfl, hk, ?_⟩
          cases hk' : queryUnescape k <;> cases hv' : queryUnescape v <;> rw [hk', hv'] at h <;> cases h
          exact ⟨spells_iff.1 hk', spells_iff.1 hv'⟩
        · rintro (⟨k', v', he, hk', h1, h2⟩ | ⟨hn, _⟩)
          · have := (cut_iff 61 (k ++ 61 :: v) k' v').2 ⟨he, hk'⟩
            rw [hkv] at this
            cases this
            rw [spells_iff.2 h1, spells_iff.2 h2]
          · exact absurd h61 hn
      · rw [cut_none 61 p h61]
        dsimp only
        constructor
        · intro h
          refine .inr ⟨h61, hp, ?_⟩
          cases hk' : queryUnescape p <;> rw [hk'] at h <;> simp only [queryUnescape] at h <;> cases h
          exact ⟨spells_iff.1 hk', rfl⟩
        · rintro (⟨k', v', rfl, _⟩ | ⟨_, _, h1, h2⟩)
          · simp at h61
          · rw [spells_iff.2 h1]
            simp [queryUnescape, ← h2]

theorem listed_iff {ps : List GoStr} {l : Params} : ps.filterMap parsePiece = l ↔ Listed ps l := by
  constructor
  · rintro rfl
    induction ps with
    | nil => exact .nil
    | cons p ps ih =>
      rw [List.filterMap_cons]
      cases h : parsePiece p with
      | none => exact .bad (fun kv hkv => by rw [oneParam_iff.2 hkv] at h; cases h) ih
      | some kv => exact .good (oneParam_iff.1 h) ih
  · intro h
    induction h with
    | nil => rfl
    | good h _ ih => rw [List.filterMap_cons, oneParam_iff.2 h, ih]
    | @bad p _ _ h _ ih =>
      rw [List.filterMap_cons]
      cases hp : parsePiece p with
      | none => exact ih
      | some kv => exact absurd (oneParam_iff.1 hp) (h kv)

/-- C109: a text is read as the parameters it says, and says exactly one list of parameters. -/
theorem C109_form_text {text : GoStr} {ps : Params} : parseQuery text = ps ↔ FormText text ps := by
  unfold parseQuery FormText
  constructor
  · intro h
    exact ⟨_, fields_iff.2 rfl, listed_iff.1 h⟩
  · rintro ⟨pieces, hf, hl⟩
    rw [fields_iff.1 hf]
    exact listed_iff.2 hl

theorem contentType_iff {wl : WireLib} {w : Wire} {ct : GoStr} :
    ContentType w.headers ct ↔ (w.toReq wl).header b!"Content-Type" = ct := by
  have key : ∀ r : Req, r.headers = w.headers → (ContentType w.headers ct ↔ r.header b!"Content-Type" = ct) := by
    intro r hr
    rw [← hr]
    constructor
    · rintro (h | ⟨h, rfl⟩)
      · exact header_first h
      · exact header_none h
    · intro h
      rcases header_or r b!"Content-Type" with h' | h'
      · rw [h] at h'; exact .inl h'
      · exact .inr ⟨h'.1, by rw [← h, h'.2]⟩
  exact key _ rfl

/-- C109: what goidc sees of a request is what was sent, and nothing else is. -/
theorem C109_seen {wl : WireLib} {w : Wire} {r : Req} : r = w.toReq wl ↔ Seen wl w r := by
  have hct := contentType_iff (wl := wl) (w := w) (ct := (w.toReq wl).header b!"Content-Type") |>.2 rfl
  have hbody : (w.toReq wl).body = w.bodyParams wl ((w.toReq wl).header b!"Content-Type") := rfl
  have hmul : (w.toReq wl).multipart = decide (wl.media ((w.toReq wl).header b!"Content-Type") = .multipart) := rfl
  constructor
  · rintro rfl
    refine ⟨rfl, rfl, rfl, C109_form_text.1 rfl, ?_, ?_, ?_, ?_, ?_⟩
    all_goals intro ct h
    all_goals rw [contentType_iff (wl := wl)] at h
    all_goals rw [h] at hbody hmul
    all_goals unfold Wire.bodyParams at hbody
    · intro hm hl
      rw [hm] at hbody
      exact C109_form_text.1 (by rw [hbody]; exact (if_pos hl).symm)
    · intro hm hl
      rw [hm] at hbody
      rw [hbody]
      exact if_neg (by unfold maxFormSize; omega)
    · intro hm
      rw [hbody, hm]
    · intro hm
      rw [hbody, hm]
    · rw [hmul, decide_eq_true_iff]
  · intro h
    have e1 : r.query = (w.toReq wl).query := (C109_form_text.2 h.query).symm
    have e2 : r.body = (w.toReq wl).body := by
      rw [hbody]
      unfold Wire.bodyParams
      split
      · rename_i hm
        split
        · rename_i hl
          exact (C109_form_text.2 (h.form _ hct hm hl)).symm
        · rename_i hl
          exact h.tooLarge _ hct hm (by unfold maxFormSize at hl; omega)
      · rename_i hm
        exact h.parts _ hct hm
      · rename_i hm
        exact h.other _ hct hm
    have e3 : r.multipart = (w.toReq wl).multipart := by
      rw [hmul, Bool.eq_iff_iff, h.multipart _ hct, decide_eq_true_iff]
    have e : r = ⟨r.method, r.path, r.headers, r.body, r.query, r.multipart⟩ := rfl
    rw [e, e1, e2, e3, h.method, h.path, h.headers]
    rfl

/-- C109: two requests that say the same parameters in whatever spelling - other escapes, `+` or `%20`, unreadable
pieces in between, an equals sign left out where the value is empty - are the same request to goidc, whatever it does with
them. -/
theorem C109_spelling {wl : WireLib} {w w' : Wire} (hm : w'.method = w.method) (hp : w'.path = w.path)
    (hh : w'.headers = w.headers) (hq : ∀ ps, FormText w.rawQuery ps ↔ FormText w'.rawQuery ps)
    (hb : ∀ ct, ContentType w.headers ct → wl.media ct = .form ∧ w.payload.length ≤ 10 * 1024 * 1024 ∧
      w'.payload.length ≤ 10 * 1024 * 1024 ∧ ∀ ps, FormText w.payload ps ↔ FormText w'.payload ps) :
    w'.toReq wl = w.toReq wl := by
  have hs := (C109_seen (wl := wl) (w := w)).1 rfl
  refine ((C109_seen (wl := wl) (w := w')).2 ⟨?_, ?_, ?_, ?_, ?_, ?_, ?_, ?_, ?_⟩).symm
  · exact hs.method.trans hm.symm
  · exact hs.path.trans hp.symm
  · exact hs.headers.trans hh.symm
  · exact (hq _).1 hs.query
  all_goals intro ct h
  all_goals rw [hh] at h
  · intro _ _
    exact ((hb ct h).2.2.2 _).1 (hs.form ct h (hb ct h).1 (hb ct h).2.1)
  · intro _ hl
    have := (hb ct h).2.2.1
    omega
  · intro hm'
    rw [(hb ct h).1] at hm'; cases hm'
  · intro hm'
    rw [(hb ct h).1] at hm'; cases hm'
  · exact hs.multipart ct h

/-- C109: the body of a request that is no form is not looked at. -/
theorem C109_no_form {wl : WireLib} {w : Wire} {payload : GoStr} (h : ∀ ct, ContentType w.headers ct → wl.media ct = .other) :
    { w with payload := payload }.toReq wl = w.toReq wl := by
  have hs := (C109_seen (wl := wl) (w := w)).1 rfl
  refine ((C109_seen (wl := wl) (w := { w with payload := payload })).2
    ⟨hs.method, hs.path, hs.headers, hs.query, ?_, ?_, ?_, hs.other, hs.multipart⟩).symm
  all_goals intro ct hct hm
  all_goals rw [h ct hct] at hm
  all_goals cases hm

theorem lookup_nodup {ps : Params} (h : (ps.map (·.1)).Nodup) {kv : GoStr × GoStr} (hkv : kv ∈ ps) :
    lookupParam ps kv.1 = kv.2 := by
  induction ps with
  | nil => cases hkv
  | cons x xs ih =>
    rw [List.map_cons, List.nodup_cons] at h
    rcases List.mem_cons.1 hkv with rfl | hkv
    · simp [lookupParam]
    · have hne : x.1 ≠ kv.1 := fun e => h.1 (by rw [e]; exact List.mem_map.2 ⟨kv, hkv, rfl⟩)
      rw [← ih h.2 hkv]
      have hf : (x.1 == kv.1) = false := by simpa using hne
      unfold lookupParam
      rw [List.find?_cons, hf]

/-- C109: parameters posted the way Go's `http.PostForm` (or any client using `url.Values.Encode`) posts them arrive as they were
meant, byte for byte, and no others do. -/
theorem C109_posted {wl : WireLib} {w : Wire} {ps : Params} (hn : (ps.map (·.1)).Nodup) (hm : w.method = b!"POST")
    (hb : w.payload = valuesEncode ps) (hl : w.payload.length ≤ 10 * 1024 * 1024)
    (hct : ∀ ct, ContentType w.headers ct → wl.media ct = .form) :
    (∀ k v, (k, v) ∈ ps → (w.toReq wl).postFormValue k = v ∧ (w.toReq wl).formValue k = v) ∧
    ∀ k, (∀ v, (k, v) ∉ ps) → (w.toReq wl).postFormValue k = [] := by
  have hs := (C109_seen (wl := wl) (w := w)).1 rfl
  have hc := contentType_iff (wl := wl) (w := w) (ct := (w.toReq wl).header b!"Content-Type") |>.2 rfl
  have hbody : (w.toReq wl).body = sortPairs ps := by
    have := C109_form_text.2 (hs.form _ hc (hct _ hc) hl)
    rw [← this, hb, parseQuery_valuesEncode]
  have hmp : (w.toReq wl).multipart = false := by
    rw [Bool.eq_false_iff]
    intro h
    have := (hs.multipart _ hc).1 h
    rw [hct _ hc] at this; cases this
  have hp : (w.toReq wl).bodyParams = sortPairs ps := by
    rw [← hbody]; exact if_pos (.inr (.inl hm))
  have hperm := sortPairs_perm ps
  have hn' : ((sortPairs ps).map (·.1)).Nodup := (hperm.map _).nodup_iff.2 hn
  refine ⟨fun k v hkv => ?_, fun k hk => ?_⟩
  · have hl := lookup_nodup hn' (hperm.mem_iff.2 hkv)
    refine ⟨by rw [Req.postFormValue, hp]; exact hl, ?_⟩
    rw [Req.formValue, Req.formParams, hmp, if_neg (by decide), hp]
    have := lookup_behind (ps := sortPairs ps) (qs := (w.toReq wl).query) (qs' := []) (n := k)
      (fun h => absurd (hperm.mem_iff.2 hkv) (h v))
    rw [this, List.append_nil]
    exact hl
  · rw [Req.postFormValue, hp]
    refine lookup_none fun x hx e => hk x.2 ?_
    rw [← e]
    exact hperm.mem_iff.1 hx

/-- A library that knows two content types. -/
def sampleWireLib : WireLib where
  media ct := if ct = b!"application/x-www-form-urlencoded" then .form
    else if ct.take 20 = b!"multipart/form-data;" then .multipart else .other
  parts _ _ := []

/-- A token request on the wire. -/
def sampleWire (payload : GoStr) : Wire :=
  { method := b!"POST", path := b!"/token", rawQuery := [], payload := payload,
    headers := [(b!"content-type", b!"application/x-www-form-urlencoded"), Sample.basic] }

/-- The hypotheses of C109_spelling are met by texts that look quite different. -/
example : ∀ ps, FormText b!"a+b=%63d&x=&%zz=1&y;z=2" ps ↔ FormText b!"&a%20b=c%64&x" ps := by
  intro ps
  rw [← C109_form_text, ← C109_form_text, show parseQuery b!"a+b=%63d&x=&%zz=1&y;z=2" = parseQuery b!"&a%20b=c%64&x" by decide +kernel]

/-- And those of C109_posted by the code exchange of the samples, which is granted from the wire. -/
example : (Sample.codeBody.map (·.1)).Nodup ∧ (∀ ct, ContentType (sampleWire []).headers ct → sampleWireLib.media ct = .form) ∧
    ({} : Sample.World).status (TokenEndpoint.handler Sample.tokenCfg Sample.lib
      ((sampleWire (valuesEncode Sample.codeBody)).toReq sampleWireLib)) = some 200 := by
  refine ⟨by decide +kernel, fun ct h => ?_, by decide +kernel⟩
  rw [contentType_iff (wl := sampleWireLib)] at h
  rw [← h]
  decide +kernel

/-- A request without Content-Type: its body is not looked at. -/
example : ∀ ct, ContentType [] ct → sampleWireLib.media ct = .other := by
  rintro ct (⟨b, n, a, h, _⟩ | ⟨_, rfl⟩)
  · cases b <;> cases h
  · decide +kernel

end Goidc.Props
