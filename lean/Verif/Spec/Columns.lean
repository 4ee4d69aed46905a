import Verif.Spec.Frame

/-!
# Vocabulary of the properties on what operations add to story data
-/

namespace Trumania
namespace Spec

/-- `out` is `data` with one more column, named `name`: same rows in the same order, the values of all
the fields kept, and `values` in the new one, from the first row to the last -/
structure AddsColumn (name : String) (values : List Cell) (data out : Frame) : Prop where
  index : out.index = data.index
  cols : out.cols = data.cols ++ [name]
  kept : ∀ f ∈ data.cols, cellsOf out f = cellsOf data f
  added : cellsOf out name = values

/-- the whole number held by a cell -/
def HoldsCount (c : Cell) (n : Nat) : Prop := c = .num (n : Rat)

/-- a cell with its value if a condition holds, an empty one otherwise -/
def keptIf (cond value : Cell) : Cell := if cond = .bool true then value else .na

end Spec
end Trumania
