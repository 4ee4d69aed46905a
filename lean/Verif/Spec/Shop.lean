import Verif.Spec.Ledger
import Verif.Spec.Cdr
import Verif.Model.Shop
import Verif.Props.Replies

/-!
# What the logs of the example of points of sale (examples/tutorial/example2.py) should tell of the stocks
-/

namespace Trumania
namespace Shop
open Spec
variable {σ γ : Type}

/-- the purchases of some tables: the point of sale, the customer and the item of each row -/
def purchasesIn (ts : List Frame) : List (Val × Val × Val) :=
  ts.flatMap fun t => t.rows.map fun r =>
    (idIn (cell t r "POS_ID"), idIn (cell t r "CUST_ID"), idIn (cell t r "BOUGHT_ITEM_ID"))

/-- the total of the volumes of the rows of some tables that name a point of sale -/
def volumeIn (pos : Val) (ts : List Frame) : Rat :=
  (ts.map fun t => ((t.rows.filter fun r => decide (cell t r "POS_ID" = .scalar pos)).map fun r =>
    numIn (cell t r "RESTOCK_VOLUME")).sum).sum

/-- the purchases that the logs tell of -/
def purchases (logs : Logs) : List (Val × Val × Val) := purchasesIn (tablesOf "purchases" logs)

/-- how many items the logs tell to have been bought at a point of sale -/
def soldAt (pos : Val) (logs : Logs) : Nat := (purchases logs).countP fun m => decide (m.1 = pos)

/-- how many items the logs tell to have been delivered to a point of sale -/
def deliveredTo (pos : Val) (logs : Logs) : Rat := volumeIn pos (tablesOf "restock" logs)

/-- how many restocks of a point of sale are logged -/
def restocksOf (pos : Val) (logs : Logs) : Nat :=
  ((tablesOf "restock" logs).map fun t => t.rows.countP fun r => decide (cell t r "POS_ID" = .scalar pos)).sum

/-- what a point of sale that had `first` items has now, if one believes the logs -/
def levelAfter (first : Nat) (pos : Val) (logs : Logs) : Rat :=
  first + deliveredTo pos logs - soldAt pos logs

/-- The scenario of step 4, or that of step 5 if it has a trigger: the generators that it uses besides that of the
items, which is generator 4, and how it writes the time. -/
structure Scene where
  volumes : Nat
  choice : Nat
  trigger : Option Nat
  day : Int → Cell
  time : Int → Cell

/-- the operations of the three stories: restocks, reports and purchases -/
def Scene.chains (env : Env σ γ) (s : Scene) : List (List (Op (World σ γ))) :=
  match s.trigger with
  | none => [periodicOps env s.day 0 0 0 (.ref s.volumes) (.ref 4), reportOps env s.day 1 0,
      purchaseOps env 2 1 0 0 1 (.ref s.choice)]
  | some t => [restockOps env s.time 0 0 0 (.ref s.volumes) (.ref 4), reportOps env s.day 1 0,
      appendOperations (purchaseOps env 2 1 0 0 1 (.ref s.choice)) (triggerOps env 0 0 (.ref t))]

/-- no two things of the scenario use the generator of the items -/
structure Scene.Distinct (s : Scene) : Prop where
  volumes : s.volumes ≠ 4
  choice : s.choice ≠ 4
  trigger : s.trigger ≠ some 4

/-- A world where the scenario can be played: population 0 are the points of sale and 1 the customers, relationship 0
are the items of the former and 1 those of the latter, and the volumes of restocks are drawn from `vols`, the points of
sale where a purchase takes place from `poss`. -/
structure Plays (env : Env σ (AnyGen σ)) (s : Scene) (vols poss : List Val) (w : World σ (AnyGen σ)) : Prop where
  wf : ∀ p ∈ w.pops, Population.WF p
  ids : ∀ s ∈ w.stories, s.ids.Nodup
  fields : w.stories.map (·.idField) = ["POS_ID", "POS_ID", "CUST_ID"]
  stocks : StocksOk env [0, 1] w
  items : ∃ a, w.gens[4]? = some (.seq a)
  own : NoTimerUses 4 w
  volumes : ∃ p r, Began env w (.ref s.volumes) (.choice vols p r)
  choice : ∃ p r, Began env w (.ref s.choice) (.choice poss p r)

end Shop
end Trumania
