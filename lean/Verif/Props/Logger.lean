import Verif.Spec.Logger

/-! # C108: the default logger -/

namespace Goidc.Props

open Spec

variable {sprintf : GoStr → List LogArg → GoStr} {ops : List LoggerOp}

theorem levelAfter_snoc (op : LoggerOp) :
    Logger.levelAfter sprintf (ops ++ [op]) = (Logger.step sprintf (Logger.levelAfter sprintf ops) op).1 := by
  simp [Logger.levelAfter]

theorem fatal_value : (Logger.levelValue .fatal).toInt = 4 := by decide
theorem value_rank (l : LogLevel) : (Logger.levelValue l).toInt = rank l := by cases l <;> decide

/-- C108: after any history of calls the level is the threshold of that history. -/
theorem C108_threshold {n : Int} : Threshold ops n ↔ (Logger.levelAfter sprintf ops).toInt = n := by
  have key : ∀ {ops : List LoggerOp} {n : Int}, Threshold ops n → (Logger.levelAfter sprintf ops).toInt = n := by
    intro ops n h
    induction h with
    | start => show (0 : Int64).toInt = 0; decide
    | set level _ hl ih =>
      rw [levelAfter_snoc]
      show (Logger.setLevel _ level).1.toInt = _
      unfold Logger.setLevel
      rw [if_neg]
      show ¬ (Logger.levelValue .fatal < level)
      rw [Int64.lt_iff_toInt_lt, fatal_value]; omega
    | refused level _ hl ih =>
      rw [levelAfter_snoc]
      show (Logger.setLevel _ level).1.toInt = _
      unfold Logger.setLevel
      rw [if_pos]
      · exact ih
      · show Logger.levelValue .fatal < level
        rw [Int64.lt_iff_toInt_lt, fatal_value]; exact hl
    | print l args _ ih => rw [levelAfter_snoc]; exact ih
    | printf l f args _ ih => rw [levelAfter_snoc]; exact ih
  refine ⟨key, ?_⟩
  have total : ∀ k, ∀ ops : List LoggerOp, ops.length = k → ∃ n, Threshold ops n := by
    intro k
    induction k with
    | zero => intro ops h; rw [List.length_eq_zero_iff.1 h]; exact ⟨0, .start⟩
    | succ k ih =>
      intro ops h
      rcases List.eq_nil_or_concat ops with rfl | ⟨pre, op, rfl⟩
      · cases h
      · rw [List.concat_eq_append] at h ⊢
        obtain ⟨n, hn⟩ := ih pre (by simp at h; exact h)
        cases op with
        | setLevel level =>
          rcases Int.lt_or_le 4 level.toInt with hl | hl
          · exact ⟨_, .refused level hn hl⟩
          · exact ⟨_, .set level hn hl⟩
        | print l args => exact ⟨_, .print l args hn⟩
        | printf l f args => exact ⟨_, .printf l f args hn⟩
  intro h
  obtain ⟨m, hm⟩ := total _ ops rfl
  rw [← h, key hm]
  exact hm

/-- C108: a level above `fatal` is refused with a panic, and that is the only thing `SetLevelForDefaultLogger` refuses; it never
prints anything. -/
theorem C108_set_level {level : Int64} :
    (4 < level.toInt → Logger.effect sprintf ops (.setLevel level) = .panic) ∧
    (level.toInt ≤ 4 → Logger.effect sprintf ops (.setLevel level) = .out []) := by
  show (_ → (Logger.setLevel _ level).2 = _) ∧ (_ → (Logger.setLevel _ level).2 = _)
  unfold Logger.setLevel
  have : level > Logger.levelValue .fatal ↔ 4 < level.toInt := by
    show Logger.levelValue .fatal < level ↔ _
    rw [Int64.lt_iff_toInt_lt, fatal_value]
  constructor
  · intro h; rw [if_pos (this.2 h)]
  · intro h; rw [if_neg (by rw [this]; omega)]

theorem label_eq (l : LogLevel) (text : GoStr) : Log.insertLevelLabel l text = labelled l (Log.levelString l) text := by
  unfold Log.insertLevelLabel Log.paint labelled
  cases l <;> simp [Log.levelColor, Log.levelString, colour]

/-- C108: a message is printed, on a line of its own behind its label, exactly if its level is at or above the threshold of the
calls before; otherwise nothing is. -/
theorem C108_printed {n : Int} (h : Threshold ops n) (l : LogLevel) (text : GoStr) (more : List LogArg) :
    Logger.effect sprintf ops (.print l (.str text :: more)) =
      if n ≤ rank l then .out (labelled l (Log.levelString l) text ++ [10]) else .out [] := by
  have he := (C108_threshold (sprintf := sprintf)).1 h
  unfold Logger.effect Logger.step Logger.print
  simp only [Int64.le_iff_toInt_le, he, value_rank, label_eq]

/-- C108: the same for the methods with a format, the label being no part of the format. -/
theorem C108_formatted (hs : CopiesText sprintf) {n : Int} (h : Threshold ops n) (l : LogLevel) (format : GoStr) (args : List LogArg) :
    Logger.effect sprintf ops (.printf l format args) =
      if n ≤ rank l then .out (labelled l (Log.levelString l) (sprintf format args) ++ [10]) else .out [] := by
  have he := (C108_threshold (sprintf := sprintf)).1 h
  have hf : sprintf (Log.insertLevelLabel l format) args = labelled l (Log.levelString l) (sprintf format args) := by
    have e : Log.insertLevelLabel l format = labelled l (Log.levelString l) [] ++ format := by
      rw [label_eq]
      simp [labelled]
    rw [e, hs _ _ _ (by cases l <;> decide)]
    simp [labelled]
  unfold Logger.effect Logger.step Logger.printf
  simp only [Int64.le_iff_toInt_le, he, value_rank, hf]

/-- C108: the methods without a format panic on a first argument that is no string, unless the level is suppressed. -/
theorem C108_no_string {n : Int} (h : Threshold ops n) (l : LogLevel) {args : List LogArg} (ha : ∀ s more, args ≠ .str s :: more) :
    Logger.effect sprintf ops (.print l args) = if n ≤ rank l then .panic else .out [] := by
  have he := (C108_threshold (sprintf := sprintf)).1 h
  have hm : (match args with
      | .str s :: _ => LoggerEffect.out (Log.insertLevelLabel l s ++ [10])
      | _ => .panic) = .panic := by
    rcases args with _ | ⟨a | a, more⟩
    · rfl
    · exact absurd rfl (ha _ _)
    · rfl
  unfold Logger.effect Logger.step Logger.print
  simp only [Int64.le_iff_toInt_le, he, value_rank]

/-- C108: a printed line tells its level and its text: whatever was printed, at two times with any thresholds, two
equal lines come from messages of the same level with the same text.  (The name of the level does not tell that,
C59_labels_not_injective; the colour does.) -/
theorem C108_tells {l l' : LogLevel} {text text' : GoStr}
    (h : labelled l (Log.levelString l) text ++ [10] = labelled l' (Log.levelString l') text' ++ [10]) : l = l' ∧ text = text' := by
  unfold labelled at h
  cases l <;> cases l' <;> simp_all [colour, Log.levelString]

/-- A history with two accepted levels and a refused one. -/
example : Threshold [.setLevel 1, .print .debug [.str b!"x"], .setLevel 3, .setLevel 5] 3 :=
  .refused (ops := [.setLevel 1, .print .debug [.str b!"x"], .setLevel 3]) 5
    (.set (ops := [.setLevel 1, .print .debug [.str b!"x"]]) 3 (.print (ops := [.setLevel 1]) _ _ (.set (ops := []) 1 .start (by decide)))
      (by decide)) (by decide)

/-- Calls without a message, and with one that is no string. -/
example : (∀ s more, ([] : List LogArg) ≠ .str s :: more) ∧ ∀ s more, [LogArg.other 3, .str b!"x"] ≠ .str s :: more := by
  simp

/-- `fmt.Sprintf` without verbs, as an instance of CopiesText. -/
example : CopiesText fun f _ => f := fun _ _ _ _ => rfl

end Goidc.Props
