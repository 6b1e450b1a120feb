import Verif.Spec.LogText
import Verif.Lemmas.JsonEncode
import Verif.Lemmas.Escape
import Verif.Props.PureStrings
import Verif.Props.Json

/-! # C83: what a log line says -/

namespace Goidc.Props

open Spec Json

/-! ## Sorted parameters -/

theorem strLe_iff : ∀ {s t : GoStr}, strLe s t = true ↔ s ≤ t
  | [], t => by simp [strLe]
  | _ :: _, [] => by simp [strLe]
  | a :: s, b :: t => by
    unfold strLe
    rw [List.cons_le_cons_iff, ← strLe_iff (s := s) (t := t)]
    rcases strLe_total.UInt8.lt_or_lt_or_eq a b with h | h | h
    · simp [h]
    · have h' := UInt8.lt_asymm h
      have hne : a ≠ b := fun e => by subst e; exact UInt8.lt_irrefl _ h
      simp [h, h', hne]
    · subst h
      simp [UInt8.lt_irrefl]

theorem insertPair_sorted (x : GoStr × GoStr) {l : Params} (h : KeysSorted l) : KeysSorted (insertPair x l) := by
  induction l with
  | nil => exact List.pairwise_singleton _ _
  | cons y ys ih =>
    obtain ⟨h1, h2⟩ := List.pairwise_cons.1 h
    unfold insertPair
    split
    · rename_i hle
      refine List.pairwise_cons.2 ⟨fun z hz => ?_, h⟩
      rcases List.mem_cons.1 hz with rfl | hz
      · exact strLe_iff.1 hle
      · exact strLe_iff.1 (strLe_trans _ _ _ hle (strLe_iff.2 (h1 z hz)))
    · rename_i hle
      refine List.pairwise_cons.2 ⟨fun z hz => ?_, ih h2⟩
      rcases List.mem_cons.1 ((insertPair_perm x ys).subset hz) with rfl | hz
      · exact strLe_iff.1 ((strLe_total z.1 y.1).resolve_left hle)
      · exact h1 z hz

theorem sortPairs_sorted : ∀ l : Params, KeysSorted (sortPairs l)
  | [] => .nil
  | x :: xs => insertPair_sorted x (sortPairs_sorted xs)

/-- The order in which a map is written does not depend on the order it is held in. -/
theorem sortPairs_perm_eq {ps ps' : Params} (h : ps.Perm ps') (hd : (ps.map (·.1)).Nodup) : sortPairs ps = sortPairs ps' := by
  refine List.Perm.eq_of_pairwise (le := fun (a b : GoStr × GoStr) => a.1 ≤ b.1) (fun a b ha hb h1 h2 => ?_) (sortPairs_sorted ps)
    (sortPairs_sorted ps') (((sortPairs_perm ps).trans h).trans (sortPairs_perm ps').symm)
  have hk : a.1 = b.1 := strLe_antisymm _ _ (strLe_iff.2 h1) (strLe_iff.2 h2)
  have ha' := (sortPairs_perm ps).subset ha
  have hb' := h.symm.subset ((sortPairs_perm ps').subset hb)
  have : ∀ l : Params, (l.map (·.1)).Nodup → a ∈ l → b ∈ l → a = b := by
    intro l
    induction l with
    | nil => intro _ h; cases h
    | cons x l ih =>
      intro hn h1 h2
      obtain ⟨hx, hn⟩ := List.nodup_cons.1 hn
      rcases List.mem_cons.1 h1 with e1 | m1 <;> rcases List.mem_cons.1 h2 with e2 | m2
      · rw [e1, e2]
      · subst e1; exact absurd (List.mem_map.2 ⟨b, m2, hk.symm⟩) hx
      · subst e2; exact absurd (List.mem_map.2 ⟨a, m1, hk⟩) hx
      · exact ih hn m1 m2
  exact this ps hd ha' hb'

/-! ## The attributes -/

theorem jsonMap_json (ps : Params) (hv : ∀ kv ∈ ps, ValidUtf8 kv.1 ∧ ValidUtf8 kv.2) :
    JsonText (Log.jsonMap ps) (.obj (strMembers (sortPairs ps))) := by
  unfold Log.jsonMap
  have hv' : ∀ kv ∈ sortPairs ps, ValidUtf8 kv.1 ∧ ValidUtf8 kv.2 := fun kv h => hv kv ((sortPairs_perm ps).subset h)
  generalize sortPairs ps = l at hv'
  cases l with
  | nil => exact ⟨[], _, [], ws_nil, .objNil ws_nil, ws_nil, rfl⟩
  | cons x l =>
    have h := jsonText_of_raw (robj_join ((x :: l).map fun kv => Field.ofStr kv.1 kv.2) (by simp)
      (fun y hy => by obtain ⟨kv, _, rfl⟩ := List.mem_map.1 hy; exact field_ofStr _ _))
    rw [List.map_map, List.map_map] at h
    have e : (Json.obj ((x :: l).map ((fun y : Field => (y.key, y.value)) ∘ fun kv => Field.ofStr kv.1 kv.2))).value =
        .obj (strMembers (x :: l)) := by
      simp only [Json.value, membersValue_map, List.map_map, strMembers]
      congr 1
      refine List.map_congr_left fun kv hkv => ?_
      obtain ⟨h1, h2⟩ := hv' kv hkv
      simp only [Function.comp, Field.ofStr, unquote_rawOf, toValid_of_valid h1, value_str h2]
    rw [e] at h
    exact h

theorem hexDigit_ge {c : UInt8} {x : Nat} (h : HexDigit c x) : 32 ≤ c := by
  obtain ⟨hx, h | h⟩ := h <;> subst h
  · have : ∀ x, x < 16 → 32 ≤ b!"0123456789abcdef".getD x 0 := by decide
    exact this x hx
  · have : ∀ x, x < 16 → 32 ≤ b!"0123456789ABCDEF".getD x 0 := by decide
    exact this x hx

theorem quad_ge {a b c d : UInt8} {n : Nat} (h : HexQuad a b c d n) : 32 ≤ a ∧ 32 ≤ b ∧ 32 ≤ c ∧ 32 ≤ d := by
  obtain ⟨_, _, _, _, h1, h2, h3, h4, _⟩ := h
  exact ⟨hexDigit_ge h1, hexDigit_ge h2, hexDigit_ge h3, hexDigit_ge h4⟩

/-- The text of a JSON string has no control characters. -/
theorem jchars_ge {raw : GoStr} {cps : List Nat} (h : JChars raw cps) : ∀ c ∈ raw, 32 ≤ c := by
  induction h with
  | nil => intro c hc; cases hc
  | plain h1 h2 h3 h4 _ ih =>
    intro c hc
    rcases List.mem_append.1 hc with hc | hc
    · have := (utf8_plain h1 h2 h3 h4 c hc).1
      exact UInt8.not_lt.1 this
    · exact ih c hc
  | short he _ ih =>
    intro c hc
    simp only [List.mem_cons] at hc
    rcases hc with rfl | rfl | hc
    · decide
    · have : ∀ x ∈ shortEscapes, 32 ≤ x.1 := by decide
      exact this _ he
    · exact ih c hc
  | unicode hq _ _ ih =>
    obtain ⟨h1, h2, h3, h4⟩ := quad_ge hq
    intro c hc
    simp only [List.mem_cons] at hc
    rcases hc with rfl | rfl | rfl | rfl | rfl | rfl | hc
    any_goals decide
    all_goals first | assumption | exact ih c hc
  | surrogates hq hq' _ _ _ _ _ ih =>
    obtain ⟨h1, h2, h3, h4⟩ := quad_ge hq
    obtain ⟨h5, h6, h7, h8⟩ := quad_ge hq'
    intro c hc
    simp only [List.mem_cons] at hc
    rcases hc with rfl | rfl | rfl | rfl | rfl | rfl | rfl | rfl | rfl | rfl | rfl | rfl | hc
    any_goals decide
    all_goals first | assumption | exact ih c hc

theorem jsonString_ge (s : GoStr) : ∀ c ∈ jsonString s, 32 ≤ c := by
  intro c hc
  unfold jsonString at hc
  simp only [List.mem_cons, List.mem_append, List.not_mem_nil, or_false] at hc
  rcases hc with rfl | hc | rfl
  · decide
  · exact jchars_ge (jchars_runes s) c hc
  · decide

theorem join_mem {sep : UInt8} {l : List GoStr} {c : UInt8} (h : c ∈ join sep l) : c = sep ∨ ∃ s ∈ l, c ∈ s := by
  induction l with
  | nil => cases h
  | cons x l ih =>
    cases l with
    | nil => exact .inr ⟨x, List.mem_cons_self, h⟩
    | cons y l =>
      simp only [join, List.mem_append, List.mem_cons] at h
      rcases h with h | rfl | h
      · exact .inr ⟨x, List.mem_cons_self, h⟩
      · exact .inl rfl
      · rcases ih h with h | ⟨s, hs, h⟩
        · exact .inl h
        · exact .inr ⟨s, List.mem_cons_of_mem _ hs, h⟩

theorem jsonMap_ge (ps : Params) : ∀ c ∈ Log.jsonMap ps, 32 ≤ c := by
  intro c hc
  unfold Log.jsonMap at hc
  simp only [List.mem_append] at hc
  rcases hc with (hc | hc) | hc
  · revert hc; revert c; decide
  · rcases join_mem hc with rfl | ⟨s, hs, h⟩
    · decide
    · obtain ⟨kv, _, rfl⟩ := List.mem_map.1 hs
      simp only [List.mem_append, List.mem_cons] at h
      rcases h with h | rfl | h
      · exact jsonString_ge _ c h
      · decide
      · exact jsonString_ge _ c h
  · revert hc; revert c; decide

/-! ## Colours -/

theorem uncoloured_append {a b a' b' : List UInt8} (h : Uncoloured a a') (h' : Uncoloured b b') : Uncoloured (a ++ b) (a' ++ b') := by
  induction h with
  | nil => exact h'
  | char hc _ ih => exact .char hc ih
  | colour hc _ ih =>
    simp only [List.cons_append, List.append_assoc]
    exact .colour hc ih

theorem uncoloured_plain {s : List UInt8} (h : 27 ∉ s) : Uncoloured s s := by
  induction s with
  | nil => exact .nil
  | cons c s ih =>
    simp only [List.mem_cons, not_or] at h
    exact .char (fun e => h.1 e.symm) (ih h.2)

theorem uncoloured_paint {txt col : List UInt8} (h : 27 ∉ txt) (hc : ∀ c ∈ col, (48 ≤ c ∧ c ≤ 57) ∨ c = 59) :
    Uncoloured (27 :: 91 :: (col ++ 109 :: (txt ++ [27, 91, 109]))) txt := by
  refine .colour hc ?_
  have := uncoloured_append (uncoloured_plain h) (.colour (code := []) (by simp) .nil)
  simpa using this

/-- Taking the colours out is a function. -/
theorem uncoloured_unique {s t t' : List UInt8} (h : Uncoloured s t) (h' : Uncoloured s t') : t = t' := by
  induction h generalizing t' with
  | nil => cases h'; rfl
  | char hc _ ih =>
    cases h' with
    | char _ h' => rw [ih h']
    | colour _ _ => exact absurd rfl hc
  | @colour code line text hc _ ih =>
    generalize hl : (27 :: 91 :: (code ++ 109 :: line) : List UInt8) = l at h'
    cases h' with
    | nil => cases hl
    | char hc' _ => cases hl; exact absurd rfl hc'
    | @colour code' line' _ hc' h' =>
      simp only [List.cons.injEq, true_and] at hl
      have key : ∀ {a b x y : List UInt8}, (∀ c ∈ a, (48 ≤ c ∧ c ≤ 57) ∨ c = 59) → (∀ c ∈ b, (48 ≤ c ∧ c ≤ 57) ∨ c = 59) →
          a ++ 109 :: x = b ++ 109 :: y → x = y := by
        intro a
        induction a with
        | nil =>
          intro b x y _ hb he
          cases b with
          | nil => simpa using he
          | cons c b =>
            simp only [List.nil_append, List.cons_append, List.cons.injEq] at he
            exact absurd (hb c List.mem_cons_self) (by rw [← he.1]; decide)
        | cons c a ih =>
          intro b x y ha hb he
          cases b with
          | nil =>
            simp only [List.nil_append, List.cons_append, List.cons.injEq] at he
            exact absurd (ha c List.mem_cons_self) (by rw [he.1]; decide)
          | cons d b =>
            simp only [List.cons_append, List.cons.injEq] at he
            exact ih (fun z hz => ha z (List.mem_cons_of_mem _ hz)) (fun z hz => hb z (List.mem_cons_of_mem _ hz)) he.2
      have := key hc hc' hl
      subst this
      exact ih h'

/-! ## C83 -/

theorem line_uncoloured (endpoint realm : GoStr) (ev : LogEvent) (params : Params) (msg : GoStr)
    (he : 27 ∉ endpoint) (hr : 27 ∉ realm) (hm : 27 ∉ msg) :
    Uncoloured (Log.endpointLog endpoint realm ev params msg)
      (b!"[goidc:" ++ endpoint ++ b!":" ++ realm ++ b!":" ++ Log.eventString ev ++ b!"] " ++ msg ++ b!" " ++ Log.jsonMap params) := by
  unfold Log.endpointLog
  have hev : 27 ∉ Log.eventString ev := by cases ev <;> decide
  have ha : 27 ∉ Log.jsonMap params := fun h => absurd (jsonMap_ge params 27 h) (by decide)
  have p : ∀ {s : List UInt8}, 27 ∉ s → Uncoloured s s := uncoloured_plain
  have hp : ∀ {txt col : GoStr}, 27 ∉ txt → (∀ c ∈ col, (48 ≤ c ∧ c ≤ 57) ∨ c = 59) → Uncoloured (Log.paint txt col) txt := by
    intro txt col h1 h2
    have := uncoloured_paint h1 h2
    unfold Log.paint
    simpa using this
  have hlp : ∀ {txt col : GoStr}, 27 ∉ txt → (∀ c ∈ col, (48 ≤ c ∧ c ≤ 57) ∨ c = 59) → Uncoloured (Log.lightPaint txt col) txt := by
    intro txt col h1 h2
    have := uncoloured_paint (col := b!"1;" ++ col) h1 (by
      intro c hc
      rcases List.mem_append.1 hc with hc | hc
      · have : ∀ c ∈ b!"1;", (48 ≤ c ∧ c ≤ 57) ∨ c = 59 := by decide
        exact this c hc
      · exact h2 c hc)
    unfold Log.lightPaint
    simpa using this
  have q1 := p (s := b!"[goidc:") (by decide)
  have q2 := p (s := b!":") (by decide)
  have q3 := p (s := b!"] ") (by decide)
  have q4 := p (s := b!" ") (by decide)
  exact uncoloured_append (uncoloured_append (uncoloured_append (uncoloured_append (uncoloured_append (uncoloured_append
    (uncoloured_append (uncoloured_append (uncoloured_append q1 (p he)) q2) (hlp hr (by decide))) q2) (hp hev (by decide))) q3)
    (p hm)) q4) (hlp ha (by decide))

theorem line_text (endpoint realm : GoStr) (ev : LogEvent) (params : Params) (msg : GoStr)
    (he : 27 ∉ endpoint) (hr : 27 ∉ realm) (hm : 27 ∉ msg) (hv : ∀ kv ∈ params, ValidUtf8 kv.1 ∧ ValidUtf8 kv.2) :
    ∃ attributes members, members.Perm params ∧ KeysSorted members ∧
      JsonText attributes (.obj (strMembers members)) ∧
      Uncoloured (Log.endpointLog endpoint realm ev params msg)
        (b!"[goidc:" ++ endpoint ++ b!":" ++ realm ++ b!":" ++ Log.eventString ev ++ b!"] " ++ msg ++ b!" " ++ attributes) := by
  exact ⟨Log.jsonMap params, sortPairs params, sortPairs_perm params, sortPairs_sorted params, jsonMap_json params hv,
    line_uncoloured endpoint realm ev params msg he hr hm⟩

theorem called (ev : LogEvent) : Called ev (Log.eventString ev) := by
  unfold Called; cases ev <;> decide

/-- C83: without its colours a log line reads `[goidc:ENDPOINT:REALM:EVENT] MESSAGE ATTRIBUTES`, and the
attributes are a JSON object with exactly the parameters of the line, sorted by key. -/
theorem C83_line (endpoint realm : GoStr) (ev : LogEvent) (params : Params) (msg : GoStr)
    (he : 27 ∉ endpoint) (hr : 27 ∉ realm) (hm : 27 ∉ msg) (hv : ∀ kv ∈ params, ValidUtf8 kv.1 ∧ ValidUtf8 kv.2) :
    ∃ name attributes members, Called ev name ∧ members.Perm params ∧ KeysSorted members ∧
      JsonText attributes (.obj (strMembers members)) ∧
      Uncoloured (Log.endpointLog endpoint realm ev params msg)
        (b!"[goidc:" ++ endpoint ++ b!":" ++ realm ++ b!":" ++ name ++ b!"] " ++ msg ++ b!" " ++ attributes) := by
  obtain ⟨a, m, h1, h2, h3, h4⟩ := line_text endpoint realm ev params msg he hr hm hv
  exact ⟨_, a, m, called ev, h1, h2, h3, h4⟩

/-- C83: a line does not depend on the order in which its parameters are held. -/
theorem C83_deterministic {ps ps' : Params} (h : ps.Perm ps') (hd : (ps.map (·.1)).Nodup) (endpoint realm : GoStr)
    (ev : LogEvent) (msg : GoStr) : Log.endpointLog endpoint realm ev ps msg = Log.endpointLog endpoint realm ev ps' msg := by
  unfold Log.endpointLog Log.jsonMap
  rw [sortPairs_perm_eq h hd]

/-- C83: a line determines its event and its parameters. -/
theorem C83_readable {endpoint realm msg : GoStr} {ev ev' : LogEvent} {ps ps' : Params}
    (he : 27 ∉ endpoint) (hr : 27 ∉ realm) (hm : 27 ∉ msg) (hv : ∀ kv ∈ ps, ValidUtf8 kv.1 ∧ ValidUtf8 kv.2)
    (hv' : ∀ kv ∈ ps', ValidUtf8 kv.1 ∧ ValidUtf8 kv.2)
    (h : Log.endpointLog endpoint realm ev ps msg = Log.endpointLog endpoint realm ev' ps' msg) : ev = ev' ∧ ps.Perm ps' := by
  obtain ⟨a, m, h1, _, h2, h3⟩ := line_text endpoint realm ev ps msg he hr hm hv
  obtain ⟨a', m', h1', _, h2', h3'⟩ := line_text endpoint realm ev' ps' msg he hr hm hv'
  rw [h] at h3
  have heq := uncoloured_unique h3 h3'
  simp only [List.append_assoc, List.append_cancel_left_eq] at heq
  have hn : 93 ∉ Log.eventString ev := by cases ev <;> decide
  have hn' : 93 ∉ Log.eventString ev' := by cases ev' <;> decide
  have key : ∀ {x y u v : List UInt8}, 93 ∉ x → 93 ∉ y → x ++ 93 :: u = y ++ 93 :: v → x = y ∧ u = v := by
    intro x
    induction x with
    | nil =>
      intro y u v _ hy he
      cases y with
      | nil => simpa using he
      | cons c y => simp only [List.nil_append, List.cons_append, List.cons.injEq] at he; simp [← he.1] at hy
    | cons c x ih =>
      intro y u v hx hy he
      cases y with
      | nil => simp only [List.nil_append, List.cons_append, List.cons.injEq] at he; simp [he.1] at hx
      | cons d y =>
        simp only [List.cons_append, List.cons.injEq] at he
        obtain ⟨h1, h2⟩ := ih (fun h => hx (List.mem_cons_of_mem _ h)) (fun h => hy (List.mem_cons_of_mem _ h)) he.2
        exact ⟨by rw [he.1, h1], h2⟩
  obtain ⟨hev, hrest⟩ := key hn hn' (show Log.eventString ev ++ 93 :: (32 :: (msg ++ (b!" " ++ a))) =
    Log.eventString ev' ++ 93 :: (32 :: (msg ++ (b!" " ++ a'))) from heq)
  refine ⟨C59_event_names_injective hev, ?_⟩
  simp only [List.cons.injEq, true_and, List.append_cancel_left_eq] at hrest
  rw [hrest] at h2
  have hj := jsonText_unique h2 h2'
  simp only [Spec.JVal.obj.injEq] at hj
  have hmm : m = m' := by
    have inj : ∀ (l l' : Params), strMembers l = strMembers l' → l = l' := by
      intro l
      induction l with
      | nil => intro l' h; cases l' with
        | nil => rfl
        | cons x l' => cases h
      | cons x l ih => intro l' h; cases l' with
        | nil => cases h
        | cons y l' =>
          simp only [strMembers, List.map_cons, List.cons.injEq, Prod.mk.injEq, Spec.JVal.str.injEq] at h
          rw [Prod.ext h.1.1 h.1.2, ih l' h.2]
    exact inj _ _ hj
  rw [hmm] at h1
  exact h1.symm.trans h1'

/-- C83: the default logger prints a message exactly when its level is at least the threshold, on a line of
its own: a label, a space and the message. -/
theorem C83_printed (min level : LogLevel) (msg : GoStr) :
    (AtLeast min level → ∃ label name, Labelled level name ∧ Uncoloured label (b!"[" ++ name ++ b!"]") ∧
      Log.defaultPrint min level msg = some (label ++ b!" " ++ msg ++ [10])) ∧
    (¬ AtLeast min level → Log.defaultPrint min level msg = none) := by
  have hlev : AtLeast min level ↔ Log.levelNum min ≤ Log.levelNum level := by
    cases min <;> cases level <;> decide
  rw [hlev]
  unfold Log.defaultPrint
  refine ⟨fun h => ⟨Log.paint (b!"[" ++ Log.levelString level ++ b!"]") (Log.levelColor level), Log.levelString level, by cases level <;> rfl, ?_, ?_⟩, fun h => if_neg h⟩
  · have := uncoloured_paint (txt := b!"[" ++ Log.levelString level ++ b!"]") (col := Log.levelColor level)
      (by cases level <;> decide) (by cases level <;> decide)
    unfold Log.paint
    simpa using this
  · rw [if_pos h]; rfl

/-- The line of the repository's own test (log/text_test.go). -/
example : Log.endpointLog b!"token_endpoint" b!"authorization_code" .interfaceUnsupported [(b!"method", b!"FoobarMethod")]
    b!"foobar" = b!"[goidc:token_endpoint:\x1b[1;34mauthorization_code\x1b[m:\x1b[36minterface_unsupported\x1b[m] foobar \x1b[1;31m{\"method\":\"FoobarMethod\"}\x1b[m" := by
  decide +kernel

/-- The hypotheses of `C83_line` and `C83_readable` are met by a line with two parameters, held in either
order. -/
example : (27 : UInt8) ∉ b!"token_endpoint" ∧ (27 : UInt8) ∉ b!"password" ∧ (27 : UInt8) ∉ b!"user not found" ∧
    (∀ kv ∈ [(b!"method", b!"FindUserId"), (b!"client_id", b!"app")], ValidUtf8 kv.1 ∧ ValidUtf8 kv.2) ∧
    Log.jsonMap [(b!"method", b!"FindUserId"), (b!"client_id", b!"app")] =
      b!"{\"client_id\":\"app\",\"method\":\"FindUserId\"}" := by
  refine ⟨by decide, by decide, by decide, fun kv h => ?_, by decide +kernel⟩
  simp only [List.mem_cons, List.not_mem_nil, or_false] at h
  rcases h with rfl | rfl <;> exact ⟨valid_ascii (by decide), valid_ascii (by decide)⟩

example : AtLeast .info .error ∧ ¬ AtLeast .error .info := by decide

end Goidc.Props
