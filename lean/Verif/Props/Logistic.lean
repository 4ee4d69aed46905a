import Verif.Model.Logistic
import Mathlib.Tactic.Linarith
import Mathlib.Tactic.NormNum
import Mathlib.Tactic.Positivity
import Mathlib.Tactic.FieldSimp
import Mathlib.Tactic.Ring

/-!
# Property C102 (the logistic curve)
-/

namespace Trumania

/-- the logistic function, as documented -/
noncomputable def Spec.logisticCurve (k x0 L x : ℝ) : ℝ := L / (1 + Real.exp (-k * (x - x0)))

/-- **C102** the value is always between 0 and `L`, both excluded, and is `L / 2` at the midpoint. -/
theorem C102_range {k x0 L : ℝ} (hL : 0 < L) (x : ℝ) :
    0 < logistic k x0 L x ∧ logistic k x0 L x < L ∧ logistic k x0 L x0 = L / 2 := by
  have he := Real.exp_pos (min (-k * (x - x0)) 10)
  refine ⟨by rw [logistic]; positivity, ?_, ?_⟩
  · rw [logistic, div_lt_iff₀ (by positivity)]
    nlinarith
  · rw [logistic]
    norm_num

/-- **C102** it grows with `x` for a positive steepness, and decreases for a negative one. -/
theorem C102_monotone {k x0 L : ℝ} (hL : 0 ≤ L) {x y : ℝ} (hxy : x ≤ y) :
    (0 ≤ k → logistic k x0 L x ≤ logistic k x0 L y) ∧
    (k ≤ 0 → logistic k x0 L y ≤ logistic k x0 L x) := by
  have key : ∀ a b : ℝ, a ≤ b → L / (1 + Real.exp (min b 10)) ≤ L / (1 + Real.exp (min a 10)) := by
    intro a b hab
    have h1 : Real.exp (min a 10) ≤ Real.exp (min b 10) :=
      Real.exp_le_exp.2 (min_le_min hab le_rfl)
    have h2 := Real.exp_pos (min a 10)
    exact div_le_div_of_nonneg_left hL (by positivity) (by linarith)
  exact ⟨fun hk => key _ _ (by nlinarith), fun hk => key _ _ (by nlinarith)⟩

/-- **C102** it is the documented function as long as this one is at least `L / (1 + e^10)`, and that
floor otherwise. -/
theorem C102_documented_curve {k x0 L : ℝ} (hL : 0 < L) (x : ℝ) :
    logistic k x0 L x = max (Spec.logisticCurve k x0 L x) (L / (1 + Real.exp 10)) := by
  rw [logistic, Spec.logisticCurve]
  have key : ∀ a b : ℝ, a ≤ b → L / (1 + Real.exp b) ≤ L / (1 + Real.exp a) := by
    intro a b hab
    have h1 := Real.exp_le_exp.2 hab
    have h2 := Real.exp_pos a
    exact div_le_div_of_nonneg_left hL.le (by positivity) (by linarith)
  rcases le_total (-k * (x - x0)) 10 with h | h
  · rw [min_eq_left h, max_eq_left (key _ _ h)]
  · rw [min_eq_right h, max_eq_right (key _ _ h)]

/-- **C102** the documented function tends to 0, the implemented one does not: with `k = -0.01` and
`x0 = 1000`, the example of the documentation, it is the same for all values from 2000 on. -/
theorem C102_floor (x : ℝ) (hx : 2000 ≤ x) :
    logistic (-0.01) 1000 1 x = 1 / (1 + Real.exp 10) ∧
    (2000 < x → Spec.logisticCurve (-0.01) 1000 1 x < logistic (-0.01) 1000 1 x) := by
  have h10 : (10 : ℝ) ≤ -(-0.01) * (x - 1000) := by norm_num; linarith
  have h1 : logistic (-0.01) 1000 1 x = 1 / (1 + Real.exp 10) := by
    rw [logistic, min_eq_right h10]
  refine ⟨h1, fun hlt => ?_⟩
  rw [h1, Spec.logisticCurve]
  have h2 : (10 : ℝ) < -(-0.01) * (x - 1000) := by norm_num; linarith
  have h3 := Real.exp_lt_exp.2 h2
  have h4 := Real.exp_pos 10
  exact div_lt_div_of_pos_left one_pos (by positivity) (by linarith)

/-- the curve is not constant -/
example : logistic 1 0 1 0 < logistic 1 0 1 5 := by
  rw [(C102_range (k := 1) (x0 := 0) one_pos 0).2.2, logistic]
  have h1 := Real.exp_lt_exp.2 (show min (-(1 : ℝ) * (5 - 0)) 10 < 0 by norm_num)
  rw [Real.exp_zero] at h1
  have h2 := Real.exp_pos (min (-(1 : ℝ) * (5 - 0)) 10)
  generalize Real.exp (min (-(1 : ℝ) * (5 - 0)) 10) = e at h1 h2 ⊢
  exact div_lt_div_of_pos_left one_pos (by linarith) (by linarith)

end Trumania
