import Verif.Spec.Object
import Verif.Spec.Journal
import Verif.Spec.Cdr

/-!
# What the log of the cells tells
-/

namespace Trumania
namespace Spec

/-- the records of a log: what they say of each cell, in order -/
def statusRecords (l : Logs) : List (Cell × Cell) :=
  (tablesOf "cell_status" l).flatMap fun t => t.rows.map fun r => (cell t r "CELL_ID", cell t r "NEW_HEALTH_LEVEL")

/-- the levels logged for the cell `a` -/
def levelsOf (a : Val) (l : Logs) : List Cell :=
  ((statusRecords l).filter fun x => decide (x.1 = .scalar a)).map Prod.snd

/-- the last level logged for the cell `a`, or `v` if there is none -/
def lastLevel (a : Val) (v : Cell) (l : Logs) : Cell := (levelsOf a l).getLastD v

end Spec
end Trumania
