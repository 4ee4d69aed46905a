import Mathlib.Analysis.Complex.Exponential

/-!
# `logistic` and `scale` of `trumania/core/operations.py`, on the real numbers

The code computes with floats, of which the rounding is not modelled.
-/

namespace Trumania

/-- `logistic(k, x0, L)(x)` (operations.py:294-317): the exponent is capped to 10 (line 314). `np.exp`
is the real exponential. -/
noncomputable def logistic (k x0 L x : ℝ) : ℝ := L / (1 + Real.exp (min (-k * (x - x0)) 10))

/-- `scale(factor)(value)` (operations.py:287-291) -/
def scale (factor value : ℝ) : ℝ := value * factor

end Trumania
