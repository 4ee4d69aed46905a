import Verif.Model.Cdr
import Verif.Spec.Ledger
import Verif.Spec.Object
import Verif.Spec.Trigger

/-!
# What the logs of test_cdr.py should say: accounts, calls, moves
-/

namespace Trumania
namespace Cdr
open Spec
variable {σ γ : Type}

/-- the member `s` of population `k` has the value `c` for an attribute -/
def ValueOf (w : World σ γ) (k : Nat) (name : String) (s : Val) (c : Cell) : Prop :=
  ∃ p a, w.pops[k]? = some p ∧ attributeOf p name a ∧ Holds a s c

/-- the total of the quantities in the rows of the log `logId` that have `m` in the field `key` -/
def totalOf (logId key qty : String) (m : Val) (logs : Logs) : Rat :=
  ((tablesOf logId logs).map fun t => ((t.rows.filter fun r =>
    decide (cell t r key = .scalar m)).map fun r => numIn (cell t r qty)).sum).sum

/-- what the logs say that the number `m` paid for calls and messages -/
def spent (m : Val) (logs : Logs) : Rat :=
  totalOf "voice_cdr" "MSISDN_A" "VALUE" m logs + totalOf "sms_cdr" "MSISDN_A" "VALUE" m logs

/-- what the logs say that the number `m` was topped up -/
def toppedUp (m : Val) (logs : Logs) : Rat := totalOf "topups" "CUSTOMER_NUMBER" "VALUE" m logs

/-- the prices of the logged calls of the number `m` are numbers -/
def Priced (m : Val) (logs : Logs) : Prop :=
  ∀ t ∈ tablesOf "voice_cdr" logs, ∀ r ∈ t.rows, cell t r "MSISDN_A" = .scalar m →
    ∃ q : Rat, cell t r "VALUE" = .num q

/-- the moves of the member `a` that are logged: from where, to where -/
def movesOf (a : Val) (logs : Logs) : List (Cell × Cell) :=
  (tablesOf "mobility_logs" logs).flatMap fun t =>
    (t.rows.filter fun r => decide (cell t r "A_ID" = .scalar a)).map fun r =>
      (cell t r "PREV_CELL", cell t r "NEW_CELL")

/-- moves that lead from `c` to `c'`: each one begins where the one before it ended -/
def Follows (c : Cell) : List (Cell × Cell) → Cell → Prop
  | [], c' => c' = c
  | m :: ms, c' => m.1 = c ∧ Follows m.2 ms c'

/-- The row `r` of `tbl` tells of a talk, in the world `w` before it, from `a` with the SIM `simA` to `b` with
the SIM `simB`. -/
structure Record (o : Orders) (w : World σ γ) (t : Talk) (tbl : Frame) (r : Row) (a b simA simB : Val) :
    Prop where
  friends : (a, b) ∈ stockAt o w t.friends
  ownA : (a, simA) ∈ stockAt o w t.simsOf
  ownB : (b, simB) ∈ stockAt o w t.simsOf
  numberA : ValueOf w t.sims "MSISDN" simA (cell tbl r "MSISDN_A")
  numberB : ValueOf w t.sims "MSISDN" simB (cell tbl r "MSISDN_B")
  operatorA : ValueOf w t.sims "OPERATOR" simA (cell tbl r "OPERATOR_A")
  operatorB : ValueOf w t.sims "OPERATOR" simB (cell tbl r "OPERATOR_B")
  /-- if the two have an operator in common, they use the same one -/
  common : ∀ s s' op, (a, s) ∈ stockAt o w t.simsOf → (b, s') ∈ stockAt o w t.simsOf →
    ValueOf w t.sims "OPERATOR" s (.scalar op) → ValueOf w t.sims "OPERATOR" s' (.scalar op) →
    cell tbl r "OPERATOR_A" = cell tbl r "OPERATOR_B"
  type : cell tbl r "TYPE" = .str "ONNET" ∧ cell tbl r "OPERATOR_A" = .str "OPERATOR_0" ∧
      cell tbl r "OPERATOR_B" = .str "OPERATOR_0" ∨
    cell tbl r "TYPE" = .str "OFFNET" ∧
      (cell tbl r "OPERATOR_A" ≠ .str "OPERATOR_0" ∨ cell tbl r "OPERATOR_B" ≠ .str "OPERATOR_0")
  cellA : ValueOf w t.subs "CELL" a (cell tbl r "CELL_A")
  cellB : ValueOf w t.subs "CELL" b (cell tbl r "CELL_B")
  status : cell tbl r "STATUS" = .str "OK" ∨ cell tbl r "STATUS" = .str "DROPPED"

/-- the price of a call (test_cdr.py:22-35): two per second -/
def CallPrice (tbl : Frame) (r : Row) : Prop :=
  (∃ q : Rat, cell tbl r "DURATION" = .num q ∧ cell tbl r "VALUE" = .num (2 * q)) ∨
  cell tbl r "DURATION" = .na ∧ cell tbl r "VALUE" = .na

/-- the price of a message (test_cdr.py:38-43) -/
def SmsPrice (tbl : Frame) (r : Row) : Prop := cell tbl r "VALUE" = .num 10

/-- the indices of the populations, relationships, stories and generators in use -/
structure Cast where
  t : Talk
  agents : Nat
  places : Nat
  mobility : Nat
  u : Uganda.Parts
  down : Nat
  repair : Nat

/-- the operations of the six stories, in the order of `Cdr.build` -/
def Cast.chains (env : Env σ γ) (fmt : Int → Cell) (c : Cast) : List (List (Op (World σ γ))) :=
  [Uganda.breakDownOps env c.u fmt c.down c.repair, Uganda.repairOps env c.u fmt c.repair,
   mobilityOps env fmt c.mobility c.t.subs c.places, topupOps env fmt c.t.topups c.t.sims c.agents,
   callOps env fmt c.t, smsOps env fmt c.t]

/-- the populations are three different ones, the friends are not the SIMs -/
structure Cast.Distinct (c : Cast) : Prop where
  subsSims : c.t.subs ≠ c.t.sims
  cellsSubs : c.u.cells ≠ c.t.subs
  cellsSims : c.u.cells ≠ c.t.sims
  friends : c.t.friends ≠ c.t.simsOf

/-- the stories are those of their operations -/
structure Cast.Placed (c : Cast) : Prop where
  repair : c.repair = 1
  topups : c.t.topups = 3
  calls : c.t.calls = 4
  sms : c.t.sms = 5

/-- the relationships in use -/
def Cast.rels (c : Cast) : List Nat := [c.t.friends, c.t.simsOf, c.agents, c.places]

/-- A circus with the six stories, the attributes and the relationships that they use. -/
structure Plays (env : Env σ γ) (c : Cast) (w : World σ γ) : Prop where
  wf : ∀ p ∈ w.pops, Population.WF p
  ids : ∀ s ∈ w.stories, s.ids.Nodup
  fields : w.stories.map (·.idField) = ["CELL_ID", "CELL_ID", "A_ID", "SIM_ID", "A_ID", "A_ID"]
  rels : StocksOk env c.rels w
  sims : ∃ p ao am ac, w.pops[c.t.sims]? = some p ∧ attributeOf p "OPERATOR" ao ∧ attributeOf p "MSISDN" am ∧
    attributeOf p "MAIN_ACCT" ac
  subs : ∃ p ac, w.pops[c.t.subs]? = some p ∧ attributeOf p "CELL" ac

/-- the first three seeds of `seed_provider(12345)` (uganda.py:31, 124) -/
def LocalSeeds (env : Env σ γ) (s1 s2 s3 : Int) : Prop :=
  ∃ t1 t2 t3, nextSeed env.R (env.R.seed 12345) = .ok (s1, t1) ∧ nextSeed env.R t1 = .ok (s2, t2) ∧
    nextSeed env.R t2 = .ok (s3, t3)

/-- The circus when it is built, and before anything happened in it. -/
structure Opening (env : Env σ γ) (p : Params) (g : Parts γ) (c : Cast) (w : World σ γ) (subs sims cells : List Val) :
    Prop where
  members : ∃ s m l, w.pops[c.t.subs]? = some s ∧ w.pops[c.t.sims]? = some m ∧ w.pops[c.t.cells]? = some l ∧
    s.ids = subs ∧ m.ids = sims ∧ l.ids = cells
  subsOnce : subs.Nodup
  simsOnce : sims.Nodup
  /-- there is 1000 on each account -/
  accounts : ∀ s v, ValueOf w c.t.sims "MAIN_ACCT" s v ↔ s ∈ sims ∧ v = .num 1000
  /-- each SIM has a number and an operator -/
  numbers : ∀ s ∈ sims, ∃ v, ValueOf w c.t.sims "MSISDN" s v
  /-- the numbers are those of one draw of their generator, in turn -/
  dealt : ∃ nums seed, (nums = [] ∨ ∃ n g', env.sem.generate (g.msisdns seed) n = .ok (nums, g')) ∧
    ∀ s v, ValueOf w c.t.sims "MSISDN" s v ↔ (s, v) ∈ sims.zip nums
  operators : ∀ s ∈ sims, ∃ op, ValueOf w c.t.sims "OPERATOR" s (.scalar op)
  /-- each SIM is of one subscriber -/
  owned : ∀ o, ((stockAt o w c.t.simsOf).map Prod.snd).Perm sims
  owners : ∀ o, ∀ x ∈ stockAt o w c.t.simsOf, x.1 ∈ subs
  /-- the operators of the SIMs of a subscriber are those drawn for this subscriber -/
  drawn : ∃ seed, (g.operators seed p.nSubscribers).length = subs.length ∧
    ∀ (k : Nat) a ops, subs[k]? = some a → (g.operators seed p.nSubscribers)[k]? = some ops →
      ∀ o, ∃ mine, (((stockAt o w c.t.simsOf).filter fun x => decide (x.1 = a)).map Prod.snd).Perm mine ∧
        List.Forall₂ (fun s op => ValueOf w c.t.sims "OPERATOR" s (.scalar op)) mine ops
  /-- friends are subscribers, and it goes both ways -/
  friends : ∀ o, ∀ x ∈ stockAt o w c.t.friends, x.1 ∈ subs ∧ x.2 ∈ subs ∧ (x.2, x.1) ∈ stockAt o w c.t.friends
  loops : (∀ n q seed, ∀ e ∈ g.friends n q seed, e.1 ≠ e.2) → ∀ o, ∀ x ∈ stockAt o w c.t.friends, x.1 ≠ x.2
  agents : ∀ o, ∀ x ∈ stockAt o w c.agents, x.1 ∈ sims ∧ x.2 ∈ (build_ids p.nAgents 0 "AGENT_" 3).map Val.str
  places : ∀ o, ∀ x ∈ stockAt o w c.places, x.1 ∈ subs ∧ x.2 ∈ cells
  /-- a subscriber is in a possible cell, if there is any -/
  inCell : ∀ a v, ValueOf w c.t.subs "CELL" a v → ∃ x, v = .scalar x ∧ ∀ o, (a, x) ∈ stockAt o w c.places
  somewhere : p.nSubscribers ≠ 0 → ∀ o, ∀ x ∈ stockAt o w c.places, ∃ v, ValueOf w c.t.subs "CELL" x.1 v
  placed : c.Placed
  /-- the objects that tell whether a cell lets a call through, and whether a SIM is to be topped up -/
  accepts : ∃ seed, Began env w c.t.flatTrigger (g.flatTrigger seed)
  recharges : ∃ seed, Began env w c.t.rechargeTrigger (g.rechargeTrigger seed)
  /-- nobody is about to be topped up, nor by itself later on -/
  dormant : ∃ s, w.stories[c.t.topups]? = some s ∧ s.timerGen = .constant (.num (-1)) ∧ ∀ id, ¬Scheduled s id
  /-- the cells that the stories of Uganda damage are those that the calls ask -/
  sameCells : c.t.cells = c.u.cells
  /-- the objects that give the levels of health have seeds that do not depend on the one of the circus -/
  levels : ∃ s1 s2 s3, LocalSeeds env s1 s2 s3 ∧ Began env w c.u.unhealthy (g.unhealthy s1) ∧
    Began env w c.u.healthy (g.healthy s2) ∧ (∀ a ∈ cells, ∃ v, ValueOf w c.t.cells "HEALTH" a v) ∧
    ∀ a v, ValueOf w c.t.cells "HEALTH" a v → a ∈ cells ∧ CanDraw env (g.cellHealth s3) v

end Cdr
end Trumania
