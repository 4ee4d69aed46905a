import Mathlib.Data.Int.Order.Basic

/-! Specifications for the utilities, written without reference to the model. -/

namespace Trumania.Spec

/-- what a keyed union holds for a key, from what each side holds -/
def unionAt {ν : Type} (f : ν → ν → ν) : Option ν → Option ν → Option ν
  | some a, some b => some (f a b)
  | some a, none => some a
  | none, o => o

/-- left fold of a non-empty list of values -/
def foldVals {ν : Type} (f : ν → ν → ν) : List ν → Option ν
  | [] => none
  | v :: vs => some (vs.foldl f v)

/-- greedy distribution of a budget `t` over the requested values, first come first served -/
def greedy : List Int → Int → List Int
  | [], _ => []
  | v :: vs, t => min v t :: greedy vs (t - min v t)

end Trumania.Spec
