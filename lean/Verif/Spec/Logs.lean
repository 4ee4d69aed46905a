import Verif.Model.Logs
import Verif.Spec.Run
import Verif.Spec.Db

/-!
# Vocabulary of the properties on logs loaded again
-/

namespace Trumania
namespace Spec

/-- the cells of column `j` -/
def columnAt (j : Nat) (rows : List Row) : List Cell := rows.map fun r => r.cells.getD j (.scalar .na)

/-- what was logged under `id` is a table that its file can carry: the same columns each time, with
distinct names, one cell per column, and in each column values that keep their type -/
structure StorableLog (F : TextFormat) (id : String) (logs : Logs) (cols : List String) : Prop where
  sameColumns : ∀ f ∈ tablesOf id logs, f.rows ≠ [] → f.cols = cols
  someColumn : cols ≠ []
  distinct : cols.Nodup
  names : ∀ c ∈ cols, c ≠ "" ∧ CleanText c.toList
  notBlank : ¬ BlankLine (cols.map String.toList)
  noMark : ∀ c ∈ cols.head?, ¬ StartsWithBom c.toList
  width : ∀ r ∈ loggedRows id logs, r.cells.length = cols.length
  values : ∀ j < cols.length, ∃ vs : List Val,
    columnAt j (loggedRows id logs) = vs.map Cell.scalar ∧ KeptValues F vs
  visible : ∀ r ∈ loggedRows id logs, ∀ s, r.cells = [.scalar (.str s)] →
    ∃ c ∈ s.toList, c ≠ ' ' ∧ c ≠ '\t'

/-- the table of everything that was logged under `id`: all the rows in order, numbered from 0 -/
def fullTable (id : String) (logs : Logs) (cols : List String) : Frame :=
  ⟨cols, (loggedRows id logs).zipIdx.map fun x => ⟨.num (x.2 : Rat), x.1.cells⟩⟩

end Spec
end Trumania
