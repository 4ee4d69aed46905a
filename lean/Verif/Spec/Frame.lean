import Verif.Spec.Chain

/-!
# Vocabulary of the properties on story data and built-in operations
-/

namespace Trumania
namespace Spec

/-- every row has one cell per column -/
def Rect (f : Frame) : Prop := ∀ r ∈ f.rows, r.cells.length = f.cols.length

/-- the cell of a row of `f` in a column -/
def cell (f : Frame) (r : Row) (name : String) : Cell :=
  match (f.cols.zip r.cells).find? (fun x => decide (x.1 = name)) with
  | some x => x.2
  | none => .na

/-- `out` is `data` with the cells of `added` appended to each row: same rows, same order, same
index, the old cells first and unchanged -/
def Appended (data added out : Frame) : Prop :=
  out.rows.length = data.rows.length ∧ added.rows.length = data.rows.length ∧
  ∀ (k : Nat) (a b r : Row), data.rows[k]? = some a → added.rows[k]? = some b →
    out.rows[k]? = some r → r.idx = a.idx ∧ r.cells = a.cells ++ b.cells

/-- the list held by a cell -/
def listIn : Cell → List Val
  | .list vs => vs
  | .scalar _ => []

/-- the id held by a cell -/
def idIn : Cell → Val
  | .scalar v => v
  | .list _ => .na

/-- the lines logged for one row of `f` when the columns `exploded` are exploded: one line per element
of the list in the first of them, with the elements of the lists and the other fields repeated -/
def explodedLines (f : Frame) (cols exploded : List String) (r : Row) : List (List Cell) :=
  (List.range (listIn (cell f r (exploded.headD ""))).length).map fun k =>
    (cols ++ exploded).map fun c =>
      if c ∈ exploded then .scalar ((listIn (cell f r c)).getD k .na) else cell f r c

end Spec
end Trumania
