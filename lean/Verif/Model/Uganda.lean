import Verif.Model.Ops

/-!
# Model of the stories of `trumania/components/geographies/uganda.py`

The population of cells and the generators are given: they are built by
`build_uganda_populations` (uganda.py:122-165) or loaded, and by lines 43-49. What is modelled is what
`add_uganda_geography` does with them.
-/

namespace Trumania
namespace Uganda
variable {σ γ : Type} (env : Env σ γ)

/-- the population of cells and the generators in use (uganda.py:34-49, 68, 80-81) -/
structure Parts where
  cells : Nat
  timer : GenRef
  faults : GenRef
  repairs : GenRef
  unhealthy : GenRef
  healthy : GenRef

/-- `create_story(name="cell_break_down", ...)` (uganda.py:58-69) -/
def breakDownStory (u : Parts) : World.StoryConfig :=
  { name := "cell_break_down", population := u.cells, idField := "CELL_ID"
    activity := u.faults, timerGen := u.timer }

/-- `create_story(name="cell_repair_down", ...)` (uganda.py:71-86) -/
def repairStory (u : Parts) : World.StoryConfig :=
  { name := "cell_repair_down", population := u.cells, idField := "CELL_ID"
    activity := u.repairs, timerGen := u.timer, autoReset := false }

/-- the stories created by `add_uganda_geography` (uganda.py:58-86): break-downs, then repairs -/
def createStories (u : Parts) : Act (World σ γ) (Nat × Nat) := do
  let down ← World.createStory env (breakDownStory u)
  let repair ← World.createStory env (repairStory u)
  pure (down, repair)

/-- the operations of the break-downs (uganda.py:88-101), with the last operation that `set_operations`
adds (story.py:80-86). `fmt` is the format of the dates. The
attribute is looked up at each update, and not once when the operations are set. -/
def breakDownOps (u : Parts) (fmt : Int → Cell) (own repair : Nat) : List (Op (World σ γ)) :=
  [Ops.randomValues env u.unhealthy "NEW_HEALTH_LEVEL" none,
   Ops.attrUpdate u.cells "HEALTH" "CELL_ID" "NEW_HEALTH_LEVEL",
   Ops.resetTimers env repair (some "CELL_ID"),
   Ops.timestamp env "TIME" true fmt,
   Ops.fieldLogger "cell_status" ["TIME", "CELL_ID", "NEW_HEALTH_LEVEL"] [],
   Ops.maybeBackToDefault env own]

/-- the operations of the repairs (uganda.py:103-117) -/
def repairOps (u : Parts) (fmt : Int → Cell) (own : Nat) : List (Op (World σ γ)) :=
  [Ops.randomValues env u.healthy "NEW_HEALTH_LEVEL" none,
   Ops.attrUpdate u.cells "HEALTH" "CELL_ID" "NEW_HEALTH_LEVEL",
   Ops.timestamp env "TIME" true fmt,
   Ops.fieldLogger "cell_status" ["TIME", "CELL_ID", "NEW_HEALTH_LEVEL"] [],
   Ops.maybeBackToDefault env own]

end Uganda
end Trumania
