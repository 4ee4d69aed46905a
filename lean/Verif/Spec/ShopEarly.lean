import Verif.Spec.Shop

/-!
# The first steps of the example of points of sale (examples/tutorial/example2.py:407-449): reports, and restocks in steps 3 and 3bis
-/

namespace Trumania
namespace Shop
open Spec
variable {σ γ : Type}

/-- How the points of sale are restocked: not at all (steps 1 and 2), with volumes that are drawn, then logged (step 3),
or with volumes that are drawn but not logged (step 3bis). The number is that of the generator of the volumes. -/
inductive Supply
  | none | told (volumes : Nat) | untold (volumes : Nat)

/-- the generator of the volumes -/
def Supply.volumes : Supply → Option Nat
  | .none => .none
  | .told v => some v
  | .untold v => some v

/-- the operations of the stories -/
def Supply.chains (env : Env σ γ) (day : Int → Cell) : Supply → List (List (Op (World σ γ)))
  | .none => [reportOps env day 0 0]
  | .told v => [periodicOps env day 0 0 0 (.ref v) (.ref 4), reportOps env day 1 0]
  | .untold v => [combinedOps env day 0 0 0 (.ref v) (.ref 4), reportOps env day 1 0]

/-- A world where these stories can be played: population 0 are the points of sale, relationship 0 their items,
generator 4 that of the ids of the items, if there is one, and the volumes are drawn from `vols`. -/
structure Stands (env : Env σ (AnyGen σ)) (k : Supply) (vols : List Val) (w : World σ (AnyGen σ)) : Prop where
  wf : ∀ p ∈ w.pops, Population.WF p
  ids : ∀ s ∈ w.stories, s.ids.Nodup
  fields : ∀ s ∈ w.stories, s.idField = "POS_ID"
  stocks : StocksOk env [0] w
  own : NoTimerUses 4 w
  items : k.volumes ≠ Option.none → ∃ a, w.gens[4]? = some (.seq a)
  volumes : ∀ v, k.volumes = some v → v ≠ 4 ∧ ∃ p r, Began env w (.ref v) (.choice vols p r)

/-- `n` items are the total of as many volumes, all of them from `vols`, as the logs tell restocks of a point of
sale -/
def SumOf (vols : List Val) (pos : Val) (logs : Logs) (n : Nat) : Prop :=
  ∃ l : List Nat, (∀ x ∈ l, Val.num (x : Rat) ∈ vols) ∧ l.length = restocksOf pos logs ∧ n = l.sum

end Shop
end Trumania
