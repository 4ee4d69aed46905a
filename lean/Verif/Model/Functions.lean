import Verif.Model.Base
import Mathlib.Algebra.Order.Field.Rat

/-!
# Numeric helpers of `trumania/core/operations.py`
-/

namespace Trumania

/-- `bound_value(lb, ub)(value)` (operations.py:273-284) -/
def bound_value (lb ub : Option Rat) (value : Rat) : Rat :=
  let limited := match lb with
    | none => value
    | some l => max l value
  match ub with
  | none => limited
  | some u => min u limited

/-- `bounded_sigmoid(x_min, x_max, shape, incrementing)(x)` (operations.py:320-363).
`cdf` and `sf` are scipy's `stats.beta.cdf` and `stats.beta.sf` for the given shape. -/
def bounded_sigmoid (cdf sf : Rat → Rat) (x_min x_max : Rat) (incrementing : Bool) (x : Rat) :
    Py Rat :=
  let x_b := bound_value (some x_min) (some x_max) x
  if x_max - x_min = 0 then .error .zeroDivisionError
  else if incrementing then .ok (cdf ((x_b - x_min) / (x_max - x_min)))
  else .ok (sf ((x_b - x_min) / (x_max - x_min)))

end Trumania
