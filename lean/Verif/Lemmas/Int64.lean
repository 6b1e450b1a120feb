/-! # Facts about Go's int64 -/

namespace Goidc

theorem int64_bounds (a : Int64) : -2 ^ 63 ≤ a.toInt ∧ a.toInt < 2 ^ 63 := by
  have h1 := a.le_toInt
  have h2 := a.toInt_lt
  exact ⟨h1, h2⟩

/-- Overflow of `start + lifetime` can only make the check stricter. -/
theorem not_expired_sound {a b now : Int64} (ha : 0 ≤ a.toInt) (hb : 0 ≤ b.toInt) (h : ¬ (a + b < now)) :
    now.toInt ≤ a.toInt + b.toInt := by
  rw [Int64.lt_iff_toInt_lt, Int64.toInt_add] at h
  have h1 := int64_bounds a
  have h2 := int64_bounds b
  have h3 := int64_bounds now
  simp only [Int.bmod_def] at h
  split at h <;> omega

theorem not_expired_complete {a b now : Int64} (ha : 0 ≤ a.toInt) (hb : 0 ≤ b.toInt)
    (hs : a.toInt + b.toInt < 2 ^ 63) (h : now.toInt ≤ a.toInt + b.toInt) : ¬ (a + b < now) := by
  rw [Int64.lt_iff_toInt_lt, Int64.toInt_add]
  simp only [Int.bmod_def]
  split <;> omega

/-- Overflow can only make "still later than now" harder to satisfy when the period is not negative. -/
theorem later_sound {a b now : Int64} (hb : 0 ≤ b.toInt) (h : a + b > now) :
    now.toInt < a.toInt + b.toInt := by
  have h : now < a + b := h
  rw [Int64.lt_iff_toInt_lt, Int64.toInt_add] at h
  have h1 := int64_bounds a
  have h2 := int64_bounds b
  have h3 := int64_bounds now
  simp only [Int.bmod_def] at h
  split at h <;> omega

/-- The age check on non-negative times. -/
theorem age_sound {m a now : Int64} (ha : 0 ≤ a.toInt) (hn : 0 ≤ now.toInt) (h : ¬ m < now - a) :
    now.toInt - a.toInt ≤ m.toInt := by
  rw [Int64.lt_iff_toInt_lt, Int64.toInt_sub] at h
  have h1 := int64_bounds a
  have h3 := int64_bounds now
  simp only [Int.bmod_def] at h
  split at h <;> omega

end Goidc
