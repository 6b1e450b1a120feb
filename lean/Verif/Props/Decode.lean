import Verif.Lemmas.Decode
import Verif.Lemmas.HttpRead
import Verif.Props.Json

/-! # C103: `DecodeRequest` reads the request its JSON says -/

namespace Goidc.Props

open Spec Goidc.Json

variable {enc text : GoStr} {m : List (GoStr × Spec.JVal)}

/-- C103: the base64url text of a JSON object decodes to the request its members say, if the values of members named `flow` are
written without escapes. -/
theorem C103_decode_partial (he : Base64Text base64urlAlphabet (unbroken enc) text) (h : PlainFlowText text m) :
    RequestSaid m (Request.decode enc) := by
  unfold Request.decode
  rw [(b64Decode_iff true enc text).2 he]
  exact Loose.unmarshal_said h

/-- C103: in particular if the text contains no backslash, or no member named `flow`. -/
theorem C103_plain_partial (he : Base64Text base64urlAlphabet (unbroken enc) text) (h : LooseText text (.obj m))
    (hp : (92 : UInt8) ∉ text ∨ ∀ k v, (k, v) ∈ m → ¬ SameName k b!"flow") : RequestSaid m (Request.decode enc) :=
  C103_decode_partial he (Loose.plainFlow_of h hp)

/-- C103: the base64url text of anything but a JSON object decodes to the request that says nothing. -/
theorem C103_blank (he : Base64Text base64urlAlphabet (unbroken enc) text) (h : ∀ m, ¬ LooseText text (.obj m)) :
    Request.decode enc = blankRequest := by
  unfold Request.decode
  rw [(b64Decode_iff true enc text).2 he]
  exact Loose.unmarshal_blank h

/-! ## One request only -/

section
variable {α : Type} {P : Spec.JVal → α → Prop}

theorem last_unique (hP : ∀ v a b, P v a → P v b → a = b) {m : List (GoStr × Spec.JVal)} {name : GoStr} {d a b : α}
    (ha : LastOf P m name d a) (hb : LastOf P m name d b) : a = b := by
  cases ha with
  | @found l1 l2 k v _ e hs hp hn =>
    cases hb with
    | @found l1' l2' k' v' _ e' hs' hp' hn' =>
      rw [e] at e'
      rcases List.append_eq_append_iff.1 e' with ⟨c, h1, h2⟩ | ⟨c, h1, h2⟩
      · cases c with
        | nil =>
          rw [List.nil_append, List.cons.injEq] at h2
          obtain ⟨h2, _⟩ := h2
          cases h2
          exact hP _ _ _ hp hp'
        | cons x c =>
          rw [List.cons_append, List.cons.injEq] at h2
          exact absurd hp' (hn k' v' (by rw [h2.2]; simp) hs' _)
      · cases c with
        | nil =>
          rw [List.nil_append, List.cons.injEq] at h2
          obtain ⟨h2, _⟩ := h2
          cases h2
          exact hP _ _ _ hp hp'
        | cons x c =>
          rw [List.cons_append, List.cons.injEq] at h2
          exact absurd hp (hn' k v (by rw [h2.2]; simp) hs _)
    | absent hn' => exact absurd hp (hn' k v (by rw [e]; simp) hs _)
  | absent hn =>
    cases hb with
    | @found l1' l2' k' v' _ e' hs' hp' hn' => exact absurd hp' (hn k' v' (by rw [e']; simp) hs' _)
    | absent _ => rfl

theorem upTo_unique {bad : GoStr → Spec.JVal → Prop} {m a b : List (GoStr × Spec.JVal)} (ha : UpTo bad m a) (hb : UpTo bad m b) : a = b := by
  obtain ⟨a1, a2⟩ := ha
  obtain ⟨b1, b2⟩ := hb
  rcases a2 with rfl | ⟨k, v, rest, rfl, hk⟩
  · rcases b2 with rfl | ⟨k', v', rest', rfl, hk'⟩
    · rfl
    · exact absurd hk' (a1 k' v' (by simp))
  · rcases b2 with rfl | ⟨k', v', rest', e, hk'⟩
    · exact absurd hk (b1 k v (by simp))
    · rcases List.append_eq_append_iff.1 e with ⟨c, h1, h2⟩ | ⟨c, h1, h2⟩
      · cases c with
        | nil => simpa using h1.symm
        | cons x c =>
          rw [List.cons_append, List.cons.injEq] at h2
          obtain ⟨rfl, _⟩ := h2
          exact absurd hk (b1 k v (by rw [h1]; simp))
      · cases c with
        | nil => simpa using h1
        | cons x c =>
          rw [List.cons_append, List.cons.injEq] at h2
          obtain ⟨rfl, _⟩ := h2
          exact absurd hk' (a1 k' v' (by rw [h1]; simp))
end

theorem isStr_unique : ∀ v a b, IsStr v a → IsStr v b → a = b := by
  intro v a b h1 h2; rw [IsStr] at h1 h2; rw [h1] at h2; cases h2; rfl

theorem isBool_unique : ∀ v a b, IsBool v a → IsBool v b → a = b := by
  intro v a b h1 h2; rw [IsBool] at h1 h2; rw [h1] at h2; cases h2; rfl

theorem isInt_unique : ∀ v a b, IsInt v a → IsInt v b → a = b := by
  rintro v a b ⟨l, h1, h2⟩ ⟨l', h3, h4⟩
  rw [h1] at h3
  cases h3
  have := (atoi_iff _ _).2 h2
  rw [(atoi_iff _ _).2 h4] at this
  cases this; rfl

theorem isFlowType_unique : ∀ v a b, IsFlowType v a → IsFlowType v b → a = b := by
  intro v a b h1 h2
  rw [IsFlowType] at h1 h2
  rw [h1] at h2
  have h2 := Spec.JVal.str.inj h2
  cases a <;> cases b <;> first | rfl | exact absurd h2 (by decide)

theorem flowMerge_unique {f g h : Flow} {m : List (GoStr × Spec.JVal)} (h1 : FlowMerge f m g) (h2 : FlowMerge f m h) : g = h := by
  obtain ⟨m1, u1, a1, a2, a3⟩ := h1
  obtain ⟨m2, u2, b1, b2, b3⟩ := h2
  obtain rfl := upTo_unique u1 u2
  cases g; cases h
  simp only at a1 a2 a3 b1 b2 b3
  rw [last_unique isFlowType_unique a1 b1, last_unique isBool_unique a2 b2, last_unique isBool_unique a3 b3]

theorem flowSaid_unique {f g : Option Flow} {m : List (GoStr × Spec.JVal)} (h : FlowSaid f m g) : ∀ {g'}, FlowSaid f m g' → g = g' := by
  induction h with
  | done => intro g' h; cases h; rfl
  | skip hn _ ih =>
    intro g' h
    cases h with
    | skip _ h => exact ih h
    | null hs _ => exact absurd hs hn
    | obj hs _ _ _ => exact absurd hs hn
    | stop hs _ => exact absurd hs.1 hn
    | other hs _ _ _ => exact absurd hs hn
  | null hs _ ih =>
    intro g' h
    cases h with
    | skip hn _ => exact absurd hs hn
    | null _ h => exact ih h
    | other _ hn _ _ => exact absurd rfl hn
  | obj hs hb hm _ ih =>
    intro g' h
    cases h with
    | skip hn _ => exact absurd hs hn
    | obj _ _ hm' h => obtain rfl := flowMerge_unique hm hm'; exact ih h
    | stop hb' _ => exact absurd hb' hb
    | other _ _ hn _ => exact absurd rfl (hn _)
  | stop hb hm =>
    intro g' h
    cases h with
    | skip hn _ => exact absurd hb.1 hn
    | obj _ hb' _ _ => exact absurd hb hb'
    | stop _ hm' => rw [flowMerge_unique hm hm']
    | other _ _ hn _ => exact absurd rfl (hn _)
  | other hs h1 h2 _ ih =>
    intro g' h
    cases h with
    | skip hn _ => exact absurd hs hn
    | null _ _ => exact absurd rfl h1
    | obj _ _ _ _ => exact absurd rfl (h2 _)
    | stop _ _ => exact absurd rfl (h2 _)
    | other _ _ _ h => exact ih h

/-- C103: the members say one request only. -/
theorem C103_unique {r r' : Request} (h : RequestSaid m r) (h' : RequestSaid m r') : r = r' := by
  obtain ⟨f1, m1, u1, i1, s1⟩ := h
  obtain ⟨f2, m2, u2, i2, s2⟩ := h'
  obtain rfl := upTo_unique u1 u2
  have hf := flowSaid_unique f1 f2
  have hi := last_unique isInt_unique i1 i2
  have hs : ∀ name value value', (name, value) ∈ Loose.strFields r → (name, value') ∈ Loose.strFields r' → value = value' :=
    fun name v v' h1 h2 => last_unique isStr_unique (s1 name v h1) (s2 name v' h2)
  cases r; cases r'
  simp only [Loose.strFields] at hs hf hi
  rw [Request.mk.injEq]
  refine ⟨hf, hs b!"client_id" _ _ ?_ ?_, hs b!"scope" _ _ ?_ ?_, hs b!"redirect_uri" _ _ ?_ ?_, hs b!"response_mode" _ _ ?_ ?_,
    hs b!"state" _ _ ?_ ?_, hs b!"code_verifier" _ _ ?_ ?_, hs b!"nonce" _ _ ?_ ?_, hs b!"display" _ _ ?_ ?_, hs b!"prompt" _ _ ?_ ?_,
    hi, hs b!"ui_locale" _ _ ?_ ?_, hs b!"id_token_hint" _ _ ?_ ?_, hs b!"login_hint" _ _ ?_ ?_⟩ <;>
  simp only [List.mem_cons, true_or, or_true]

/-! ## What is missing -/

/-- A flow type written with an escape. -/
def escapedFlow : GoStr := b!"{\"flow\":{\"type\":\"\\u0068ybrid\"},\"state\":\"s\"}"
/-- The same JSON value, written without. -/
def plainFlow : GoStr := b!"{\"flow\":{\"type\":\"hybrid\"},\"state\":\"s\"}"
/-- Their common value. -/
def flowMembers : List (GoStr × Spec.JVal) := [(b!"flow", .obj [(b!"type", .str b!"hybrid")]), (b!"state", .str b!"s")]

theorem text_of {t : GoStr} {j : Json} {v : Spec.JVal} (h : parse t = some j) (hv : j.value = v) : LooseText t v :=
  Loose.parse_iff.2 ⟨j, h, hv⟩

theorem escapedFlow_text : LooseText escapedFlow (.obj flowMembers) :=
  text_of (j := .obj [(b!"flow", .obj [(b!"type", .str b!"\\u0068ybrid")]), (b!"state", .str b!"s")]) (by rfl) (by
    simp only [Json.value, membersValue, flowMembers]
    rw [show unquote b!"flow" = b!"flow" by decide +kernel, show unquote b!"type" = b!"type" by decide +kernel,
      show unquote b!"\\u0068ybrid" = b!"hybrid" by decide +kernel, show unquote b!"state" = b!"state" by decide +kernel,
      show unquote b!"s" = b!"s" by decide +kernel])

theorem plainFlow_text : LooseText plainFlow (.obj flowMembers) :=
  text_of (j := .obj [(b!"flow", .obj [(b!"type", .str b!"hybrid")]), (b!"state", .str b!"s")]) (by rfl) (by rfl)

theorem encoded_text (t : GoStr) : Base64Text base64urlAlphabet (unbroken (b64Encode true t)) t :=
  (b64Decode_iff true _ t).1 (b64Decode_encode true t)

/-- C103 in full is false: flow/flow.go compares the text of the flow's type, so a type written with an escape is not recognised, and
what stands behind it is not read. -/
theorem C103_false : ∃ enc text m, Base64Text base64urlAlphabet (unbroken enc) text ∧ LooseText text (.obj m) ∧
    ¬ RequestSaid m (Request.decode enc) := by
  refine ⟨_, _, _, encoded_text escapedFlow, escapedFlow_text, fun h => ?_⟩
  have h' := C103_plain_partial (encoded_text plainFlow) plainFlow_text (.inl (by decide))
  have := congrArg Request.state (C103_unique h h')
  exact absurd this (by decide +kernel)

/-! ## Samples -/

/-- Spacing, case, duplicates, a member of the wrong sort, unknown members. -/
def oddText : GoStr :=
  b!" { \"STATE\" : \"one\", \"x\":[{},1.5e3], \"Max_Age\":12, \"state\":\"two\", \"state\":null, \"max_age\":\"7\", \"Flow\":{\"type\":\"implicit\", \"require_id_token\":true} } "

def oddMembers : List (GoStr × Spec.JVal) :=
  [(b!"STATE", .str b!"one"), (b!"x", .arr [.obj [], .num b!"1.5e3"]), (b!"Max_Age", .num b!"12"), (b!"state", .str b!"two"),
   (b!"state", .null), (b!"max_age", .str b!"7"), (b!"Flow", .obj [(b!"type", .str b!"implicit"), (b!"require_id_token", .bool true)])]

theorem ws (w : GoStr) (h : w.all (fun c => c == 32 || c == 9 || c == 10 || c == 13) = true := by decide) : IsWs w := by
  intro c hc
  have := List.all_eq_true.1 h c hc
  revert this
  simp [or_assoc]

theorem str_text {text raw s : GoStr} (h : scanString (raw ++ [34]) = some (raw, [])) (ht : text = 34 :: raw ++ [34]) (hs : unquote raw = s) :
    LooseStr text s := by
  have := (Loose.scanString_sound _ _ _ _ (Nat.le_refl _) h).2
  rw [← hs]
  exact Loose.jstr_of_rstr ⟨ht, this⟩

set_option maxRecDepth 20000 in
theorem oddText_plain : LooseText oddText (.obj oddMembers) :=
  text_of (j := .obj [(b!"STATE", .str b!"one"), (b!"x", .arr [.obj [], .num b!"1.5e3"]), (b!"Max_Age", .num b!"12"), (b!"state", .str b!"two"),
   (b!"state", .null), (b!"max_age", .str b!"7"), (b!"Flow", .obj [(b!"type", .str b!"implicit"), (b!"require_id_token", .bool true)])])
    (by rfl) (by rfl)

/-- C103 applies to the odd text, and says what one expects. -/
example : RequestSaid oddMembers (Request.decode (b64Encode true oddText)) :=
  C103_plain_partial (encoded_text oddText) oddText_plain (.inl (by decide +kernel))
example : Request.decode (b64Encode true oddText) =
    { blankRequest with state := b!"two", maxAge := 12, flow := some ⟨.implicit, false, true⟩ } := by decide +kernel

/-- An escape outside the flow. -/
def escapedState : GoStr := b!"{\"state\":\"\\\"\",\"flow\":{\"type\":\"hybrid\"}}"

example : PlainFlowText escapedState [(b!"state", .str b!"\""), (b!"flow", .obj [(b!"type", .str b!"hybrid")])] := by
  have e : escapedState = [] ++ (123 :: (([] ++ (b!"\"state\"" ++ ([] ++ 58 :: ([] ++ (b!"\"\\\"\"" ++ ([] ++ 44 ::
      ([] ++ (b!"\"flow\"" ++ ([] ++ 58 :: ([] ++ ((123 :: (([] ++ (b!"\"type\"" ++ ([] ++ 58 :: ([] ++ (b!"\"hybrid\"" ++ []))))) ++ [125]))
        ++ []))))))))))) ++ [125]) ++ []) := by decide
  refine ⟨_, _, _, ws [], ws [], e, .inr (.cons (ws []) (str_text (raw := b!"state") (by rfl) rfl (by rfl)) (ws []) (ws [])
    (.str (str_text (raw := b!"\\\"") (by rfl) rfl (by rfl))) (ws []) (fun h => ?_)
    (.one (ws []) (str_text (raw := b!"flow") (by rfl) rfl (by rfl)) (ws []) (ws []) (.obj (.one (ws [])
      (str_text (raw := b!"type") (by rfl) rfl (by rfl)) (ws []) (ws []) (.str (str_text (raw := b!"hybrid") (by rfl) rfl (by rfl))) (ws [])))
      (ws []) (fun _ => by decide)))⟩
  obtain ⟨cps, h1, h2, h3, _⟩ := h
  have : cps = b!"state".map (·.toNat) := Loose.utf8s_inj h1 (by decide) (by rw [← h2]; decide)
  rw [this] at h3
  exact absurd h3 (by decide)

/-- Texts that are no objects. -/
example : Request.decode (b64Encode true b!"[1]") = blankRequest := by
  refine C103_blank (encoded_text _) fun m h => ?_
  cases Loose.looseText_unique h (text_of (j := .arr [.num b!"1"]) (by rfl) (by rfl))

end Goidc.Props
