import Verif.Model.Functions
import Mathlib.Algebra.Order.Field.Basic
import Mathlib.Tactic.Linarith
import Mathlib.Tactic.NormNum

/-!
# Properties C48 (bound_value) and C49 (bounded_sigmoid)
-/

namespace Trumania

/-! ### C48 -/

/-- `y` is within the given (optional) bounds -/
def Spec.Within (lb ub : Option Rat) (y : Rat) : Prop :=
  (∀ l ∈ lb, l ≤ y) ∧ (∀ u ∈ ub, y ≤ u)

/-- **C48** values within the bounds are unchanged. -/
theorem C48_bound_value_inside (lb ub : Option Rat) (x : Rat) (h : Spec.Within lb ub x) :
    bound_value lb ub x = x := by
  obtain ⟨h1, h2⟩ := h
  cases lb <;> cases ub <;> simp_all [bound_value]

/-- **C48** a value below the lower bound gives the lower bound, a value above the upper bound gives
the upper bound (for consistent bounds). -/
theorem C48_bound_value_outside (lb ub : Option Rat) (x : Rat)
    (hb : ∀ l ∈ lb, ∀ u ∈ ub, l ≤ u) :
    (∀ l ∈ lb, x < l → bound_value lb ub x = l) ∧
    (∀ u ∈ ub, u < x → bound_value lb ub x = u) := by
  constructor
  · rintro l hl hx
    cases hl
    cases ub with
    | none => simp [bound_value, hx.le]
    | some u => simp [bound_value, hx.le, hb l rfl u rfl]
  · rintro u hu hx
    cases hu
    cases lb with
    | none => simp [bound_value, hx.le]
    | some l => simp [bound_value, hx.le]

/-- **C48** the result is within bounds, idempotent and monotone. -/
theorem C48_bound_value_clamp (lb ub : Option Rat) (hb : ∀ l ∈ lb, ∀ u ∈ ub, l ≤ u) :
    (∀ x, Spec.Within lb ub (bound_value lb ub x)) ∧
    (∀ x, bound_value lb ub (bound_value lb ub x) = bound_value lb ub x) ∧
    (∀ x y, x ≤ y → bound_value lb ub x ≤ bound_value lb ub y) := by
  have h1 : ∀ x, Spec.Within lb ub (bound_value lb ub x) := by
    intro x
    cases lb <;> cases ub <;> simp_all [bound_value, Spec.Within]
  refine ⟨h1, fun x => C48_bound_value_inside _ _ _ (h1 x), ?_⟩
  intro x y hxy
  cases lb <;> cases ub <;> simp [bound_value, hxy]
  all_goals grind

/-- **C48** with inconsistent bounds the upper bound wins. -/
theorem C48_bound_value_inconsistent (l u x : Rat) (h : u < l) :
    bound_value (some l) (some u) x = u := by
  simp only [bound_value]
  exact min_eq_left (le_trans h.le (le_max_left _ _))

example : bound_value (some 1) (some 3) 7 = 3 ∧ bound_value (some 1) none (-7) = 1 ∧
    bound_value (some 1) (some 3) 2 = 2 := by decide +kernel

/-! ### C49 -/

/-- What is used of a cumulative distribution on [0,1] and of its survival function. -/
structure Spec.UnitCdf (cdf sf : Rat → Rat) : Prop where
  zero : cdf 0 = 0
  one : cdf 1 = 1
  mono : ∀ x y, 0 ≤ x → x ≤ y → y ≤ 1 → cdf x ≤ cdf y
  sf_eq : ∀ x, sf x = 1 - cdf x

/-- **C49** for `x_min < x_max`, the sigmoid is 0 up to `x_min` and 1 from `x_max` on (the opposite
when decreasing), stays in [0,1] and is monotone. -/
theorem C49_bounded_sigmoid (cdf sf : Rat → Rat) (hc : Spec.UnitCdf cdf sf) (x_min x_max : Rat)
    (h : x_min < x_max) (incrementing : Bool) :
    ∃ f : Rat → Rat, (∀ x, bounded_sigmoid cdf sf x_min x_max incrementing x = .ok (f x)) ∧
      (∀ x, x ≤ x_min → f x = if incrementing then 0 else 1) ∧
      (∀ x, x_max ≤ x → f x = if incrementing then 1 else 0) ∧
      (∀ x, 0 ≤ f x ∧ f x ≤ 1) ∧
      (∀ x y, x ≤ y → if incrementing then f x ≤ f y else f y ≤ f x) := by
  have hpos : 0 < x_max - x_min := by linarith
  set g : Rat → Rat := fun x =>
    (bound_value (some x_min) (some x_max) x - x_min) / (x_max - x_min) with hg
  have hb := C48_bound_value_clamp (some x_min) (some x_max) (by
    intro l hl u hu; cases hl; cases hu; exact h.le)
  have g01 : ∀ x, 0 ≤ g x ∧ g x ≤ 1 := by
    intro x
    have h1 := (hb.1 x).1 x_min rfl
    have h2 := (hb.1 x).2 x_max rfl
    exact ⟨div_nonneg (by linarith) hpos.le, by rw [hg, div_le_one hpos]; linarith⟩
  have gm : ∀ x y, x ≤ y → g x ≤ g y := fun x y hxy =>
    div_le_div_of_nonneg_right (by have := hb.2.2 x y hxy; linarith) hpos.le
  have glo : ∀ x, x ≤ x_min → g x = 0 := by
    intro x hx
    have : bound_value (some x_min) (some x_max) x = x_min := by
      simp [bound_value, hx, h.le]
    simp [hg, this]
  have ghi : ∀ x, x_max ≤ x → g x = 1 := by
    intro x hx
    have : bound_value (some x_min) (some x_max) x = x_max := by
      simp [bound_value, hx]
    simp [hg, this, hpos.ne']
  have c01 : ∀ x, 0 ≤ cdf (g x) ∧ cdf (g x) ≤ 1 := by
    intro x
    have := g01 x
    constructor
    · rw [← hc.zero]; exact hc.mono _ _ le_rfl this.1 this.2
    · rw [← hc.one]; exact hc.mono _ _ this.1 this.2 le_rfl
  have cm : ∀ x y, x ≤ y → cdf (g x) ≤ cdf (g y) := fun x y hxy =>
    hc.mono _ _ (g01 x).1 (gm x y hxy) (g01 y).2
  refine ⟨fun x => if incrementing then cdf (g x) else sf (g x), ?_, ?_, ?_, ?_, ?_⟩
  · intro x
    simp only [bounded_sigmoid, hpos.ne', if_false]
    cases incrementing <;> rfl
  · intro x hx
    simp only [glo x hx, hc.sf_eq, hc.zero, sub_zero]
  · intro x hx
    simp only [ghi x hx, hc.sf_eq, hc.one, sub_self]
  · intro x
    have := c01 x
    simp only [hc.sf_eq]
    split
    · exact this
    · constructor <;> linarith
  · intro x y hxy
    have := cm x y hxy
    simp only [hc.sf_eq]
    split
    · exact this
    · linarith

/-- the uniform distribution (beta with shape 1) meets the contract of C49 -/
example : Spec.UnitCdf (fun x => x) (fun x => 1 - x) where
  zero := rfl
  one := rfl
  mono := fun _ _ _ h _ => h
  sf_eq := fun _ => rfl

example : bounded_sigmoid (fun x => x) (fun x => 1 - x) 2 6 true 5 = .ok (3/4) := by
  decide +kernel

end Trumania
