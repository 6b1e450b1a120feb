import Verif.Spec.LogText
import Verif.Lemmas.Str
import Verif.Spec.ResponseTypes
import Verif.Model.Scope
import Verif.Model.Prompt
import Verif.Model.Flow
import Verif.Model.ResponseMode
import Verif.Model.Log

/-!
# C46–C50, C59: scope, prompt, response type, response mode, flow type, log names
-/

namespace Goidc.Props

open Spec

/-! ## C46: scope algebra -/

theorem scope_includeLoop_iff (t : GoStr) : ∀ l, Scope.includeLoop t l = true ↔ t ∈ l
  | [] => by simp [Scope.includeLoop]
  | s :: l => by
    unfold Scope.includeLoop
    by_cases h : s = t
    · simp [h]
    · rw [if_neg h, scope_includeLoop_iff t l]
      simp only [List.mem_cons, Ne.symm h, false_or]

/-- C46: `scope.Include` is membership among the space-separated tokens. -/
theorem C46_include {scopes target : GoStr} {ws : List GoStr} (h : Words scopes ws) :
    Scope.includes scopes target = true ↔ target ∈ ws := by
  rw [← fields_iff.1 h]; exact scope_includeLoop_iff target _

example : Words b!"openid email" [b!"openid", b!"email"] := by decide +kernel
example : Scope.includes b!"openid email" b!"email" = true ∧
    Scope.includes b!"openidx email" b!"openid" = false := by decide

theorem scope_includeAllLoop_true (ex : List GoStr) : ∀ l, (∀ x ∈ l, x ∈ ex) →
    Scope.includeAllLoop ex l = (true, [])
  | [], _ => rfl
  | s :: l, h => by
    have hs : ex.contains s = true := by simpa using h s (by simp)
    simp only [Scope.includeAllLoop, hs, if_true]
    exact scope_includeAllLoop_true ex l fun x hx => h x (by simp [hx])

theorem scope_includeAllLoop_false (ex : List GoStr) (x : GoStr) (post : List GoStr) (hx : x ∉ ex) :
    ∀ pre, (∀ y ∈ pre, y ∈ ex) → Scope.includeAllLoop ex (pre ++ x :: post) = (false, x)
  | [], _ => by simp [Scope.includeAllLoop, hx]
  | s :: l, h => by
    have hs : ex.contains s = true := by simpa using h s (by simp)
    simp only [List.cons_append, Scope.includeAllLoop, hs, if_true]
    exact scope_includeAllLoop_false ex x post hx l fun y hy => h y (by simp [hy])

/-- C46: `scope.IncludeAll` succeeds, reporting nothing, when every target is a token … -/
theorem C46_includeAll_true {scopes : GoStr} {ws target : List GoStr} (h : Words scopes ws)
    (ht : ∀ x ∈ target, x ∈ ws) : Scope.includeAll scopes target = (true, []) := by
  unfold Scope.includeAll Scope.split
  rw [fields_iff.1 h]; exact scope_includeAllLoop_true ws target ht

/-- … and otherwise fails, reporting the first target that is not a token. -/
theorem C46_includeAll_fails {scopes x : GoStr} {ws pre post : List GoStr} (h : Words scopes ws)
    (hpre : ∀ y ∈ pre, y ∈ ws) (hx : x ∉ ws) :
    Scope.includeAll scopes (pre ++ x :: post) = (false, x) := by
  unfold Scope.includeAll Scope.split
  rw [fields_iff.1 h]; exact scope_includeAllLoop_false ws x post hx pre hpre

/-- Every target list falls in one of the two cases above. -/
theorem C46_includeAll_cases (ws : List GoStr) : ∀ target : List GoStr,
    (∀ x ∈ target, x ∈ ws) ∨
    ∃ pre x post, target = pre ++ x :: post ∧ (∀ y ∈ pre, y ∈ ws) ∧ x ∉ ws
  | [] => .inl (by simp)
  | a :: l => by
    by_cases ha : a ∈ ws
    · rcases C46_includeAll_cases ws l with h | ⟨pre, x, post, rfl, hp, hx⟩
      · exact .inl (by simpa [ha] using h)
      · exact .inr ⟨a :: pre, x, post, rfl, by simpa [ha] using hp, hx⟩
    · exact .inr ⟨[], a, l, rfl, by simp, ha⟩

example : Scope.includeAll b!"a b c" [b!"c", b!"a"] = (true, []) ∧
    Scope.includeAll b!"a b c" [b!"c", b!"d", b!"e"] = (false, b!"d") := by decide

/-- C46: `scope.Remove` keeps exactly the tokens different from the target, in order. -/
theorem C46_remove {scopes target : GoStr} {ws : List GoStr} (h : Words scopes ws)
    (hne : ∃ w ∈ ws, w ≠ target) :
    Words (Scope.remove scopes target) (ws.filter fun w => decide (w ≠ target)) := by
  have hs := fields_iff.1 h
  unfold Scope.remove Scope.split
  rw [hs]
  have hf : (ws.filter fun s => s != target) = ws.filter fun w => decide (w ≠ target) := by
    congr 1; funext w; by_cases hw : w = target <;> simp [hw]
  rw [hf]
  refine ⟨?_, ?_, (join_eq_intercalate _ _).symm⟩
  · obtain ⟨w, hw, hn⟩ := hne
    intro e
    have : w ∈ ws.filter fun w => decide (w ≠ target) := by simp [hw, hn]
    rw [e] at this; simp at this
  · intro w hw
    exact h.2.1 w (List.mem_filter.1 hw).1

/-- C46: when every token equals the target, `scope.Remove` gives the empty string. -/
theorem C46_remove_all {scopes target : GoStr} {ws : List GoStr} (h : Words scopes ws)
    (hall : ∀ w ∈ ws, w = target) : Scope.remove scopes target = [] := by
  unfold Scope.remove Scope.split
  rw [fields_iff.1 h]
  have : (ws.filter fun s => s != target) = [] := by
    rw [List.filter_eq_nil_iff]; intro a ha; simp [hall a ha]
  rw [this]; rfl

example : Scope.remove b!"a offline_access b" b!"offline_access" = b!"a b" ∧
    Scope.remove b!"x x" b!"x" = [] := by decide

/-- C46: `scope.Same` holds exactly when the tokens are the same up to order (with multiplicity). -/
theorem C46_same_iff_perm {s t : GoStr} {ws wt : List GoStr} (hs : Words s ws) (ht : Words t wt) :
    Scope.same s t = true ↔ ws.Perm wt := by
  unfold Scope.same Scope.sort Scope.split
  rw [beq_iff_eq, join_sort_split_eq_iff, fields_iff.1 hs, fields_iff.1 ht]

/-- C46: `scope.Same` is an equivalence relation. -/
theorem C46_same_equivalence : Equivalence fun s t => Scope.same s t = true := by
  refine ⟨fun s => ?_, fun {s t} h => ?_, fun {s t u} h1 h2 => ?_⟩ <;>
    simp only [Scope.same, beq_iff_eq] at * <;> simp_all

example : Scope.same b!"email openid" b!"openid email" = true ∧
    Scope.same b!"email openid" b!"openid email openid" = false := by decide

/-! ## C47: response_type -/

theorem judgeSorted_some {s : GoStr} {f : Flow} (h : Flow.judgeSorted s = some f) :
    ∃ e ∈ responseTypes, s = join 32 (sortStrings e.1) ∧ f = e.2 := by
  unfold Flow.judgeSorted at h
  repeat' split at h
  all_goals first
    | (simp only [Option.some.injEq] at h; subst h; subst s
       simp only [responseTypes, List.mem_cons, List.not_mem_nil, or_false, exists_eq_or_imp,
         exists_eq_left]
       decide)
    | simp at h

theorem judgeSorted_entry : ∀ e ∈ responseTypes,
    Flow.judgeSorted (join 32 (sortStrings e.1)) = some e.2 := by decide

/-- C47: `JudgeByResponseType` accepts exactly the seven response types, in any order of their
tokens, with the flow of the table. -/
theorem C47_judge_iff {rt : GoStr} {ws : List GoStr} (h : Words rt ws) (f : Flow) :
    Flow.judgeByResponseType rt = some f ↔ ∃ e ∈ responseTypes, ws.Perm e.1 ∧ f = e.2 := by
  have hs := fields_iff.1 h
  unfold Flow.judgeByResponseType
  rw [hs]
  have hno : ∀ e ∈ responseTypes, ∀ w ∈ e.1, (32 : UInt8) ∉ w := by decide
  have hne : ∀ e ∈ responseTypes, e.1 ≠ [] := by decide
  constructor
  · intro hj
    obtain ⟨e, he, hj, hf⟩ := judgeSorted_some hj
    refine ⟨e, he, ?_, hf⟩
    have := join_inj (sortStrings_ne_nil h.1) (sortStrings_ne_nil (hne e he))
      (fun w hw => h.2.1 w ((sortStrings_perm _).mem_iff.1 hw))
      (fun w hw => hno e he w ((sortStrings_perm _).mem_iff.1 hw)) hj
    exact sortStrings_eq_iff.1 this
  · rintro ⟨e, he, hp, rfl⟩
    rw [sortStrings_eq_iff.2 hp]
    exact judgeSorted_entry e he

/-- C47: the order of the tokens does not matter. -/
theorem C47_order_insensitive {a b : GoStr} {wa wb : List GoStr} (ha : Words a wa) (hb : Words b wb)
    (h : wa.Perm wb) : Flow.judgeByResponseType a = Flow.judgeByResponseType b := by
  unfold Flow.judgeByResponseType
  rw [fields_iff.1 ha, fields_iff.1 hb, sortStrings_eq_iff.2 h]

theorem asks_iff {rt : GoStr} {f : Flow} : Asks rt f ↔ Flow.judgeByResponseType rt = some f := by
  constructor
  · rintro ⟨ws, e, hw, h⟩
    exact (C47_judge_iff hw f).2 ⟨e, h⟩
  · intro h
    obtain ⟨e, h⟩ := (C47_judge_iff (fields_iff.2 rfl) f).1 h
    exact ⟨_, e, fields_iff.2 rfl, h⟩

/-- C47: an accepted response type has no repeated, empty or foreign token (in particular no `none`
and no extra space), and is never a direct grant. -/
theorem C47_accepted_tokens {rt : GoStr} {ws : List GoStr} (h : Words rt ws) {f : Flow}
    (hj : Flow.judgeByResponseType rt = some f) :
    ws.Nodup ∧ (∀ w ∈ ws, w = b!"code" ∨ w = b!"id_token" ∨ w = b!"token") ∧
      f.type ≠ .directGrant ∧
      (b!"code" ∈ ws ↔ f.type = .authorizationCode ∨ f.type = .hybrid) ∧
      (b!"id_token" ∈ ws ↔ f.requireIdToken = true) ∧
      (b!"token" ∈ ws ↔ f.requireAccessToken = true) := by
  obtain ⟨e, he, hp, rfl⟩ := (C47_judge_iff h f).1 hj
  rw [hp.nodup_iff]
  simp only [hp.mem_iff]
  clear hp hj h
  revert e
  decide

example : Flow.judgeByResponseType b!"token code" = some ⟨.hybrid, true, false⟩ ∧
    Flow.judgeByResponseType b!"none" = none ∧ Flow.judgeByResponseType b!"code code" = none ∧
    Flow.judgeByResponseType b!"code  token" = none ∧ Flow.judgeByResponseType [] = none := by decide

/-! ## C48: prompt -/

theorem prompt_validateLoop_iff : ∀ (l : List GoStr) (hn ho : Bool),
    Prompt.validateLoop hn ho l = true ↔
      (∀ w ∈ l, w = b!"none" ∨ w = b!"login" ∨ w = b!"consent" ∨ w = b!"select_account") ∧
      ¬ ((hn = true ∨ b!"none" ∈ l) ∧ (ho = true ∨ ∃ w ∈ l, w ≠ b!"none"))
  | [], hn, ho => by cases hn <;> cases ho <;> simp [Prompt.validateLoop]
  | p :: l, hn, ho => by
    unfold Prompt.validateLoop
    by_cases h1 : p = Prompt.pNone
    · rw [if_pos h1, prompt_validateLoop_iff l]; subst h1; simp [Prompt.pNone]
    · rw [if_neg h1]
      by_cases h2 : p = Prompt.pLogin
      · rw [if_pos h2, prompt_validateLoop_iff l]; subst h2; simp [Prompt.pLogin]
      · rw [if_neg h2]
        by_cases h3 : p = Prompt.pConsent
        · rw [if_pos h3, prompt_validateLoop_iff l]; subst h3; simp [Prompt.pConsent]
        · rw [if_neg h3]
          by_cases h4 : p = Prompt.pSelectAccount
          · rw [if_pos h4, prompt_validateLoop_iff l]; subst h4; simp [Prompt.pSelectAccount]
          · rw [if_neg h4]
            simp only [Prompt.pNone, Prompt.pLogin, Prompt.pConsent, Prompt.pSelectAccount] at h1 h2 h3 h4
            simp [h1, h2, h3, h4]

/-- C48: `prompt.Validate` accepts exactly the strings all of whose tokens are known and that do not
combine `none` with another token. -/
theorem C48_prompt_validate_iff {p : GoStr} {ws : List GoStr} (h : Words p ws) :
    Prompt.validate p = true ↔
      (∀ w ∈ ws, w ∈ [b!"none", b!"login", b!"consent", b!"select_account"]) ∧
      (b!"none" ∈ ws → ∀ w ∈ ws, w = b!"none") := by
  unfold Prompt.validate Prompt.split
  rw [fields_iff.1 h, prompt_validateLoop_iff]
  simp

/-- C48: the `Include*` helpers are membership among the tokens. -/
theorem C48_prompt_include_iff {p t : GoStr} {ws : List GoStr} (h : Words p ws) :
    Prompt.includes p t = true ↔ t ∈ ws := by
  rw [← fields_iff.1 h]
  show Prompt.includeLoop t (Goidc.split 32 p) = true ↔ _
  generalize Goidc.split 32 p = l
  induction l with
  | nil => simp [Prompt.includeLoop]
  | cons s l ih =>
    unfold Prompt.includeLoop
    by_cases h : s = t
    · simp [h]
    · rw [if_neg h, ih]; simp only [List.mem_cons, Ne.symm h, false_or]

theorem prompt_includeAllLoop_eq (ex : List GoStr) : ∀ l, Prompt.includeAllLoop ex l = Scope.includeAllLoop ex l
  | [] => rfl
  | s :: l => by unfold Prompt.includeAllLoop Scope.includeAllLoop; rw [prompt_includeAllLoop_eq ex l]

/-- C48: `prompt.IncludeAll` is the conjunction of memberships. -/
theorem C48_prompt_includeAll_iff {p : GoStr} {ws target : List GoStr} (h : Words p ws) :
    (Prompt.includeAll p target).1 = true ↔ ∀ x ∈ target, x ∈ ws := by
  unfold Prompt.includeAll
  rw [prompt_includeAllLoop_eq]
  have he : Scope.includeAllLoop (Prompt.split p) target = Scope.includeAll p target := rfl
  rw [he]
  rcases C46_includeAll_cases ws target with ht | ⟨pre, x, post, rfl, hp, hx⟩
  · rw [C46_includeAll_true h ht]; simpa using ht
  · rw [C46_includeAll_fails h hp hx]
    simp only [Bool.false_eq_true, false_iff]
    intro hall; exact hx (hall x (by simp))

example : Prompt.validate b!"login consent" = true ∧ Prompt.validate b!"none login" = false ∧
    Prompt.validate b!"login  consent" = false ∧ Prompt.validate [] = false := by decide

/-! ## C49: response mode -/

/-- C49: `CompareSecurityLevel` is reflexive, transitive and total. -/
theorem C49_preorder :
    (∀ a, ResponseMode.compareSecurityLevel a a = true) ∧
    (∀ a b c, ResponseMode.compareSecurityLevel a b = true →
      ResponseMode.compareSecurityLevel b c = true → ResponseMode.compareSecurityLevel a c = true) ∧
    (∀ a b, ResponseMode.compareSecurityLevel a b = true ∨
      ResponseMode.compareSecurityLevel b a = true) := by
  simp only [ResponseMode.compareSecurityLevel, decide_eq_true_eq]
  exact ⟨fun a => Int.le_refl _, fun a b c h1 h2 => Int.le_trans h2 h1, fun a b => by omega⟩

/-- C49: `Validate` accepts exactly the three modes. -/
theorem C49_validate_iff (m : GoStr) :
    ResponseMode.validate m = true ↔ m ∈ [b!"query", b!"fragment", b!"form_post"] := by
  simp [ResponseMode.validate, ResponseMode.query, ResponseMode.fragment, ResponseMode.formPost,
    or_assoc]

/-- C49: query < fragment < form_post, and an unknown mode is strictly below every valid one (and
equivalent to every other unknown mode). -/
theorem C49_order :
    (∀ a b, ResponseMode.validate a = true → ResponseMode.validate b = true →
      (ResponseMode.compareSecurityLevel a b = true ↔
        a = b ∨ a = b!"form_post" ∨ b = b!"query")) ∧
    (∀ a b, ResponseMode.validate a = false → ResponseMode.validate b = true →
      ResponseMode.compareSecurityLevel a b = false ∧ ResponseMode.compareSecurityLevel b a = true) ∧
    (∀ a b, ResponseMode.validate a = false → ResponseMode.validate b = false →
      ResponseMode.compareSecurityLevel a b = true) := by
  have lv : ∀ m, ResponseMode.validate m = false → ResponseMode.securityLevelForMode m = -1 := by
    intro m hm
    simp only [ResponseMode.validate, Bool.or_eq_false_iff, beq_eq_false_iff_ne] at hm
    simp [ResponseMode.securityLevelForMode, hm.1.1, hm.1.2, hm.2]
  refine ⟨?_, ?_, ?_⟩
  · intro a b ha hb
    replace ha := (C49_validate_iff a).1 ha
    replace hb := (C49_validate_iff b).1 hb
    simp only [List.mem_cons, List.not_mem_nil, or_false] at ha hb
    rcases ha with rfl | rfl | rfl <;> rcases hb with rfl | rfl | rfl <;> decide
  · intro a b ha hb
    replace hb := (C49_validate_iff b).1 hb
    simp only [ResponseMode.compareSecurityLevel, lv a ha]
    simp only [List.mem_cons, List.not_mem_nil, or_false] at hb
    rcases hb with rfl | rfl | rfl <;> decide
  · intro a b ha hb
    simp [ResponseMode.compareSecurityLevel, lv a ha, lv b hb]

example : ResponseMode.validate b!"fragment" = true ∧ ResponseMode.validate b!"xfragment" = false ∧
    ResponseMode.compareSecurityLevel b!"query" b!"fragment" = false := by decide

/-! ## C50: FlowType JSON -/

/-- C50: a flow type survives JSON encoding. -/
theorem C50_roundtrip (f : FlowType) : Flow.unmarshalJSON (Flow.marshalJSON f) = some f := by
  cases f <;> decide

/-- C50: nothing but the four encodings is accepted. -/
theorem C50_only_encodings {data : GoStr} {f : FlowType} (h : Flow.unmarshalJSON data = some f) :
    data = Flow.marshalJSON f := by
  unfold Flow.unmarshalJSON at h
  repeat' split at h
  all_goals first
    | (simp only [Option.some.injEq] at h; subst h; subst data; decide)
    | simp at h

example : Flow.marshalJSON .hybrid = b!"\"hybrid\"" ∧ Flow.unmarshalJSON b!"\"Hybrid\"" = none := by
  decide

/-! ## C59: log names, labels and threshold -/

/-- C59: distinct events have distinct, non-empty names. -/
theorem C59_event_names_injective {a b : LogEvent} (h : Log.eventString a = Log.eventString b) :
    a = b := by
  cases a <;> cases b <;> first | rfl | (exact absurd h (by decide))

/-- C59: a message is printed exactly when its level is at least the configured one, in the order
debug < info < warn < error < fatal. -/
theorem C59_threshold (min level : LogLevel) (msg : GoStr) :
    (Log.defaultPrint min level msg).isSome = true ↔ Spec.AtLeast min level := by
  unfold Log.defaultPrint
  have h : ∀ min level : LogLevel, Log.levelNum min ≤ Log.levelNum level ↔ Spec.AtLeast min level := by
    intro min level; cases min <;> cases level <;> decide
  rw [← h min level]
  split <;> simp_all

/-- C59 (partial): the labels of the levels `debug`, `info` and `warn` are pairwise distinct, and no
other level shares the label of `info` or `warn`.  Missing: `error` and `fatal` have the label of
`debug` (see `C59_labels_not_injective`). -/
theorem C59_labels_partial {a b : LogLevel} (h : Log.levelString a = Log.levelString b) :
    a = b ∨ (a ∈ [LogLevel.debug, .error, .fatal] ∧ b ∈ [LogLevel.debug, .error, .fatal]) := by
  revert h; cases a <;> cases b <;> decide

/-- The full C59 is false of the code: ERROR and FATAL messages are labelled `[DEBUG]`. -/
theorem C59_labels_not_injective :
    ¬ ∀ a b, Log.levelString a = Log.levelString b → a = b :=
  fun h => absurd (h .debug .error (by decide)) (by decide)

/-- C59: every printed message has its own line and carries the whole text. -/
theorem C59_printed {min level : LogLevel} {msg out : GoStr}
    (h : Log.defaultPrint min level msg = some out) : ∃ label, out = label ++ b!" " ++ msg ++ [10] := by
  unfold Log.defaultPrint at h
  split at h
  · simp only [Option.some.injEq] at h
    exact ⟨_, h.symm⟩
  · simp at h

example : Log.eventString .missingParam = b!"missing_param" ∧
    (Log.defaultPrint .info .debug b!"x").isSome = false := by decide

end Goidc.Props
