import Verif.Model.Base
import Mathlib.Data.List.Dedup

/-! Concrete instances of the environment contracts, used by the non-vacuity examples. -/

namespace Trumania

/-- sets iterated in order of last insertion -/
def SetOrder.dedup (κ : Type) [DecidableEq κ] : SetOrder κ where
  order l := l.dedup
  nodup := List.nodup_dedup
  mem l x := List.mem_dedup

/-- sets iterated in reverse order: a different hash seed -/
def SetOrder.rdedup (κ : Type) [DecidableEq κ] : SetOrder κ where
  order l := l.dedup.reverse
  nodup l := List.nodup_reverse.2 (List.nodup_dedup l)
  mem l x := by simp

end Trumania
