import Verif.Model.Networks
import Verif.Model.Snd
import Verif.Model.Uganda

/-!
# Model of the scenario `tests/scenarios/test_cdr.py` (calls, messages, top-ups, mobility)

The constructor of the scenario (test_cdr.py:111-131), step by step and in its order, since each step draws
from the seeder of the circus, with `build_uganda_populations` (uganda.py:122-165). The numbers of `params`
are arguments. The objects of the generator classes are given by `Parts`: those that take a seed are
functions of it. What numpy and networkx draw is given as functions of the seeds.
-/

namespace Trumania
namespace Cdr
open Circus
variable {σ γ : Type} (env : Env σ γ)

/-- `params` (test_cdr.py:645-653), without the durations, and without the number of cells, that the code
does not use -/
structure Params where
  nAgents : Nat
  nSubscribers : Nat
  degree : Rat

/-- the generator objects built by the scenario, and what is drawn by the libraries: the operators of each
subscriber (test_cdr.py:148, 157-168) and the graphs -/
structure Parts (γ : Type) where
  subIds : γ
  operators : Int → Nat → List (List Val)
  simIds : γ
  msisdns : Int → γ
  bipartite : Nat → Nat → Rat → Int → List (Nat × Nat)
  agentWeights : Int → γ
  cellIds : γ
  latitude : Int → γ
  longitude : Int → γ
  cellHealth : Int → γ
  cities : Int → γ
  cityPopulation : Int → γ
  repairTimer : Int → γ
  unhealthy : Int → γ
  healthy : Int → γ
  faults : Int → γ
  repairs : Int → γ
  mobilityTimer : Int → γ
  mobilityWeights : Int → γ
  friends : Nat → Rat → Int → List (Nat × Nat)
  durations : Int → γ
  callTimer : Int → γ
  rechargeTrigger : Int → γ
  normalActivity : Int → γ
  excitedActivity : Int → γ
  excitability : Int → γ
  flatTrigger : Int → γ
  backToNormal : Int → γ

/-! ### Functions given to `Apply` -/

/-- `compute_call_value` (test_cdr.py:22-35): two per second, of the column `DURATION`. Pandas would repeat
texts and lists; they are rejected here. -/
def doubled : Cell → Py Cell
  | .scalar (.num q) => .ok (.num (q * 2))
  | .scalar .na => .ok .na
  | _ => .error .typeError
def callValue (data : Frame) : Py Frame := do
  let durations ← data.col "DURATION"
  Frame.ofColumn data.index "result" (← durations.mapM doubled)

/-- `compute_sms_value` (test_cdr.py:38-43) -/
def smsValue (data : Frame) : Py Frame :=
  Frame.ofColumn data.index "result" (data.rows.map fun _ => .num 10)

/-- `compute_cdr_type` (test_cdr.py:46-60) -/
def onnet (a b : Cell) : Cell :=
  if a = .str "OPERATOR_0" ∧ b = .str "OPERATOR_0" then .str "ONNET" else .str "OFFNET"
def cdrType (data : Frame) : Py Frame := do
  let a ← data.col "OPERATOR_A"
  let b ← data.col "OPERATOR_B"
  Frame.ofColumn data.index "result" (List.zipWith onnet a b)

/-- `compute_call_status` (test_cdr.py:63-66) -/
def status (a b : Bool) : Cell := if a && b then .str "OK" else .str "DROPPED"
def callStatus (data : Frame) : Py Frame := do
  let a ← (← data.col "CELL_A_ACCEPTS").mapM Cell.asBool
  let b ← (← data.col "CELL_B_ACCEPTS").mapM Cell.asBool
  Frame.ofColumn data.index "result" (List.zipWith status a b)

/-- the positions of the SIMs of A and of B (test_cdr.py:85-95): `so` is the order in which Python lists
the set of the common operators -/
def chosen (so : SetOrder Val) (a b : List Val) : Nat × Nat :=
  match so.order (a.filter fun x => decide (x ∈ b)) with
  | [] => (0, 0)
  | o :: _ => (a.idxOf o, b.idxOf o)

/-- the columns of the frame given to `select_sims` -/
def simColumns : List String :=
  ["MSISDNS_A", "OPERATORS_A", "A_SIMS", "MAIN_ACCTS_A", "MSISDNS_B", "OPERATORS_B", "B_SIMS"]

/-- `do_select` (test_cdr.py:83-101) on one row -/
def selectRow (so : SetOrder Val) (data : Frame) (r : Row) : Py Row := do
  let cs ← simColumns.mapM fun c => do (← Frame.cellAt (← data.pos c) r).asList
  match cs with
  | [msisdnsA, operatorsA, simsA, acctsA, msisdnsB, operatorsB, simsB] =>
    let (a, b) := chosen so operatorsA operatorsB
    .ok ⟨r.idx, [.scalar (← nth msisdnsA a), .scalar (← nth operatorsA a), .scalar (← nth simsA a),
      .scalar (← nth acctsA a), .scalar (← nth msisdnsB b), .scalar (← nth operatorsB b),
      .scalar (← nth simsB b)]⟩
  | _ => .error .valueError

/-- `select_sims` (test_cdr.py:69-103). Pandas numbers the columns of the result; on an empty frame it
gives an empty frame with the columns of the argument, which `Apply` renames just as well. -/
def selectSims (so : SetOrder Val) (data : Frame) : Py Frame := do
  .ok ⟨["0", "1", "2", "3", "4", "5", "6"], ← data.rows.mapM (selectRow so data)⟩

/-- `np.add` and `np.subtract` on two values. The sum of two texts is rejected here. -/
def arith (f : Rat → Rat → Rat) : Cell → Cell → Py Cell
  | .scalar (.num a), .scalar (.num b) => .ok (.num (f a b))
  | .scalar .na, .scalar .na => .ok .na
  | .scalar .na, .scalar (.num _) => .ok .na
  | .scalar (.num _), .scalar .na => .ok .na
  | _, _ => .error .typeError

/-- `np.add` (test_cdr.py:336-338), `np.subtract` (test_cdr.py:492-494) on two columns -/
def arithColumns (f : Rat → Rat → Rat) : List (List Cell) → Py (List Cell)
  | [as, bs] => (as.zip bs).mapM fun x => arith f x.1 x.2
  | _ => .error .valueError

/-! ### Populations -/

/-- `population.create_attribute(name, init_relationship=...)` (population.py:111-113,
attribute.py:45-52) -/
def createFromRelation (pop rel : Nat) (name : String) : Act (World σ γ) Unit := do
  let p ← World.getPop pop
  let r ← World.getRel rel
  let (a, r) ← Act.ofPy (Attribute.fromRelationship env.R p.size r)
  World.setRel rel r
  World.setPop pop { p with attributes := p.attributes.set name a }

/-- `population.create_attribute(name, init_values=values)` (population.py:111-113) -/
def createGiven (pop : Nat) (name : String) (values : List Cell) : Act (World σ γ) Unit := do
  let p ← World.getPop pop
  let p ← Act.ofPy (p.createAttribute name values)
  World.setPop pop p

/-- the subscribers and the operator of each of their SIMs (test_cdr.py:173-178): as many lists as
subscribers -/
def operatorPairs (ids : List Val) (operators : List (List Val)) : Py (List (Val × Val)) :=
  if operators.length = ids.length then
    .ok ((ids.zip operators).flatMap fun x => x.2.map fun o => (x.1, o))
  else .error .valueError

/-- pairs drawn by `make_random_bipartite_data` are added to a relationship, with drawn weights -/
def addWeighted (rel : Nat) (weightGen : GenRef) (pairs : List (Val × Val)) : Act (World σ γ) Unit := do
  let cells ← World.generate env weightGen (pairs.length : Rat)
  let weights ← Act.ofPy (cells.mapM Cell.asNum)
  addRelations env rel (pairs.map Prod.fst) (pairs.map Prod.snd) (.list weights)

/-- the generator of top-ups (test_cdr.py:185) -/
def recharge : GenRef := .constant (.num 1000)

/-- `create_subs_and_sims` (test_cdr.py:133-223): the two populations -/
def createSubsAndSims (p : Params) (g : Parts γ) : Act (Circus σ γ) (Nat × Nat) := do
  let npSeed ← onWorld (drawSeed env)
  let subGen ← onWorld (Snd.addGenerator g.subIds)
  let subs ← createPopulation env "subs" (.generated subGen p.nSubscribers)
  let s ← onWorld (World.getPop subs)
  let mapping ← Act.ofPy (operatorPairs s.ids (g.operators npSeed s.size))
  let simGen ← onWorld (Snd.addGenerator g.simIds)
  let sims ← createPopulation env "sims" (.generated simGen mapping.length)
  onWorld do
    createGiven sims "OPERATOR" (mapping.map fun x => .scalar x.2)
    Snd.createDrawn env sims "MAIN_ACCT" recharge
    let simsOf ← createRelationship env subs "SIMS" none
    let t ← World.getPop sims
    addRelations env simsOf (mapping.map Prod.fst) t.ids (.scalar 1)
    let msisdns ← Snd.seeded env g.msisdns
    Snd.createDrawn env sims "MSISDN" msisdns
    let agents := (build_ids p.nAgents 0 "AGENT_" 3).map Val.str
    let seed ← drawSeed env
    let pairs ← Act.ofPy (make_random_bipartite_data t.ids agents (3 / 10)
      (g.bipartite t.ids.length agents.length (3 / 10) seed))
    let possible ← createRelationship env sims "POSSIBLE_AGENTS" none
    let weights ← Snd.seeded env g.agentWeights
    addWeighted env possible weights pairs
    pure (subs, sims)

/-- a new generator object, whose seed comes from a local `seed_provider` in the state `s`; also its next
state -/
def localSeeded (s : σ) (mk : Int → γ) : Act (World σ γ) (GenRef × σ) := do
  let (seed, s) ← Act.ofPy (nextSeed env.R s)
  let g ← Snd.addGenerator (mk seed)
  pure (g, s)

/-- `build_uganda_populations` (uganda.py:122-165), without the profile of the timer, which is part of
`repairTimer`: the populations of cells and of cities -/
def buildUganda (g : Parts γ) : Act (Circus σ γ) (Nat × Nat) := do
  let cellGen ← onWorld (Snd.addGenerator g.cellIds)
  let cells ← createPopulation env "cells" (.generated cellGen 200)
  let (cityIds, s) ← onWorld do
    let (lat, s) ← localSeeded env (env.R.seed 12345) g.latitude
    Snd.createDrawn env cells "latitude" lat
    let (lon, s) ← localSeeded env s g.longitude
    Snd.createDrawn env cells "longitude" lon
    let (health, s) ← localSeeded env s g.cellHealth
    Snd.createDrawn env cells "HEALTH" health
    let (cityGen, s) ← localSeeded env s g.cities
    let names ← World.generate env cityGen 500
    let names ← Act.ofPy (names.mapM Cell.asVal)
    pure ((uniq names).take 200, s)
  let cities ← createPopulation env "cities" (.ids cityIds)
  onWorld do
    let cellsOf ← createRelationship env cities "CELLS" none
    let c ← World.getPop cells
    let t ← World.getPop cities
    let (seed, s) ← Act.ofPy (nextSeed env.R s)
    let assigned ← Act.ofPy (make_random_assign env.R seed c.ids t.ids)
    addRelations env cellsOf (assigned.map Prod.snd) (assigned.map Prod.fst) (.scalar 1)
    let (popGen, _) ← localSeeded env s g.cityPopulation
    Snd.createDrawn env cities "population" popGen
  pure (cells, cities)

/-- `add_uganda_geography(force_build=True)` (uganda.py:26-119): the cells and the operations of the two
stories. The seed of the repairs is drawn before the first story is created, which draws none. -/
def addUganda (g : Parts γ) (fmt : Int → Cell) :
    Act (Circus σ γ) (Nat × List (Op (World σ γ)) × List (Op (World σ γ))) := do
  let (cells, _) ← buildUganda env g
  onWorld do
    let timer ← Snd.seeded env g.repairTimer
    let (unhealthy, s) ← localSeeded env (env.R.seed 12345) g.unhealthy
    let (healthy, _) ← localSeeded env s g.healthy
    let faults ← Snd.seeded env g.faults
    let repairs ← Snd.seeded env g.repairs
    let u : Uganda.Parts := { cells, timer, faults, repairs, unhealthy, healthy }
    let (down, repair) ← Uganda.createStories env u
    pure (cells, Uganda.breakDownOps env u fmt down repair, Uganda.repairOps env u fmt repair)

/-! ### Mobility and top-ups -/

/-- test_cdr.py:274-281 -/
def mobilityStory (subs : Nat) (timer : GenRef) : World.StoryConfig :=
  { name := "mobility", population := subs, idField := "A_ID", timerGen := timer }

/-- test_cdr.py:284-300, with the last operation that `set_operations` adds (story.py:80-86) -/
def mobilityOps (fmt : Int → Cell) (own subs possibleCells : Nat) : List (Op (World σ γ)) :=
  [Ops.lookup subs "A_ID" [("CELL", "PREV_CELL")],
   Ops.selectOne env possibleCells "A_ID" "NEW_CELL" false false false none,
   Ops.attrUpdate subs "CELL" "A_ID" "NEW_CELL",
   Ops.timestamp env "TIME" true fmt,
   Ops.fieldLogger "mobility_logs" ["TIME", "A_ID", "PREV_CELL", "NEW_CELL"] [],
   Ops.maybeBackToDefault env own]

/-- `add_mobility` (test_cdr.py:225-302): the operations of the story -/
def addMobility (g : Parts γ) (fmt : Int → Cell) (subs cells : Nat) :
    Act (World σ γ) (List (Op (World σ γ))) := do
  let timer ← Snd.seeded env g.mobilityTimer
  let weights ← Snd.seeded env g.mobilityWeights
  let rel ← createRelationship env subs "POSSIBLE_CELLS" none
  let s ← World.getPop subs
  let c ← World.getPop cells
  let seed ← drawSeed env
  let pairs ← Act.ofPy (make_random_bipartite_data s.ids c.ids (4 / 10)
    (g.bipartite s.ids.length c.ids.length (4 / 10) seed))
  addWeighted env rel weights pairs
  createFromRelation env subs rel "CELL"
  let own ← World.createStory env (mobilityStory subs timer)
  pure (mobilityOps env fmt own subs rel)

/-- test_cdr.py:314-321 -/
def topupStory (sims : Nat) : World.StoryConfig :=
  { name := "topups", population := sims, idField := "SIM_ID" }

/-- test_cdr.py:323-350, with the last operation that `set_operations` adds -/
def topupOps (fmt : Int → Cell) (own sims possibleAgents : Nat) : List (Op (World σ γ)) :=
  [Ops.lookup sims "SIM_ID" [("MSISDN", "CUSTOMER_NUMBER"), ("OPERATOR", "OPERATOR"),
     ("MAIN_ACCT", "MAIN_ACCT_OLD")],
   Ops.selectOne env possibleAgents "SIM_ID" "AGENT" false false false none,
   Ops.randomValues env recharge "VALUE" none,
   Ops.applySeries ["VALUE", "MAIN_ACCT_OLD"] "MAIN_ACCT" (arithColumns (· + ·)),
   Ops.attrUpdate sims "MAIN_ACCT" "SIM_ID" "MAIN_ACCT",
   Ops.timestamp env "TIME" true fmt,
   Ops.fieldLogger "topups" ["TIME", "CUSTOMER_NUMBER", "AGENT", "VALUE", "OPERATOR", "MAIN_ACCT_OLD",
     "MAIN_ACCT"] [],
   Ops.maybeBackToDefault env own]

/-- `add_topups` (test_cdr.py:304-350): the operations of the story -/
def addTopups (fmt : Int → Cell) (sims : Nat) : Act (World σ γ) (List (Op (World σ γ))) := do
  let own ← World.createStory env (topupStory sims)
  let possible ← Snd.relNamed sims "POSSIBLE_AGENTS"
  pure (topupOps env fmt own sims possible)

/-! ### Calls and messages -/

/-- the objects that the calls and the messages use -/
structure Talk where
  subs : Nat
  sims : Nat
  cells : Nat
  friends : Nat
  simsOf : Nat
  topups : Nat
  calls : Nat
  sms : Nat
  durations : GenRef
  rechargeTrigger : GenRef
  flatTrigger : GenRef

/-- test_cdr.py:392-406, 408-422: the stories of the calls and of the messages -/
def talkStory (name : String) (subs : Nat) (timer normal excited back : GenRef) : World.StoryConfig :=
  { name, population := subs, idField := "A_ID", timerGen := timer, activity := normal
    states := some [(.str "excited", ⟨excited, back⟩)] }

/-- `compute_ab_fields` (test_cdr.py:426-461) -/
def abFields (fmt : Int → Cell) (t : Talk) : List (Op (World σ γ)) :=
  [Ops.timestamp env "DATETIME" true fmt,
   Ops.selectOne env t.friends "A_ID" "B_ID" true false false none,
   Ops.selectAll env t.simsOf "A_ID" "A_SIMS",
   Ops.lookup t.sims "A_SIMS" [("OPERATOR", "OPERATORS_A"), ("MSISDN", "MSISDNS_A"),
     ("MAIN_ACCT", "MAIN_ACCTS_A")],
   Ops.selectAll env t.simsOf "B_ID" "B_SIMS",
   Ops.lookup t.sims "B_SIMS" [("OPERATOR", "OPERATORS_B"), ("MSISDN", "MSISDNS_B")],
   Ops.applyFrame simColumns ["MSISDN_A", "OPERATOR_A", "SIM_A", "MAIN_ACCT_OLD", "MSISDN_B", "OPERATOR_B",
     "SIM_B"] (selectSims env.orders.set),
   Ops.applyFrame ["OPERATOR_A", "OPERATOR_B"] ["TYPE"] cdrType]

/-- `compute_cell_status` (test_cdr.py:464-488) -/
def cellStatus (t : Talk) : List (Op (World σ γ)) :=
  [Ops.lookup t.subs "A_ID" [("CELL", "CELL_A"), ("EXCITABILITY", "EXCITABILITY_A")],
   Ops.lookup t.subs "B_ID" [("CELL", "CELL_B"), ("EXCITABILITY", "EXCITABILITY_B")],
   Ops.lookup t.cells "CELL_A" [("HEALTH", "CELL_A_HEALTH")],
   Ops.lookup t.cells "CELL_B" [("HEALTH", "CELL_B_HEALTH")],
   Ops.randomValuesFromField env t.flatTrigger "CELL_A_ACCEPTS" "CELL_A_HEALTH",
   Ops.randomValuesFromField env t.flatTrigger "CELL_B_ACCEPTS" "CELL_B_HEALTH",
   Ops.applyFrame ["CELL_A_ACCEPTS", "CELL_B_ACCEPTS"] ["STATUS"] callStatus]

/-- `update_accounts` (test_cdr.py:491-499) -/
def updateAccounts (t : Talk) : List (Op (World σ γ)) :=
  [Ops.applySeries ["MAIN_ACCT_OLD", "VALUE"] "MAIN_ACCT_NEW" (arithColumns (· - ·)),
   Ops.attrUpdate t.sims "MAIN_ACCT" "SIM_A" "MAIN_ACCT_NEW"]

/-- `trigger_topups` (test_cdr.py:502-512) -/
def triggerTopups (t : Talk) : List (Op (World σ γ)) :=
  [Ops.randomValuesFromField env t.rechargeTrigger "SHOULD_TOP_UP" "MAIN_ACCT_NEW",
   Ops.forceActNext t.topups "SIM_A" (some "SHOULD_TOP_UP")]

/-- `get_bursty` (test_cdr.py:515-545) -/
def getBursty (t : Talk) : List (Op (World σ γ)) :=
  [Ops.randomValuesFromField env t.flatTrigger "A_GETTING_BURSTY" "EXCITABILITY_A",
   Ops.transitToState t.calls "A_ID" (.const (.str "excited")) (some "A_GETTING_BURSTY"),
   Ops.transitToState t.sms "A_ID" (.const (.str "excited")) (some "A_GETTING_BURSTY"),
   Ops.randomValuesFromField env t.flatTrigger "B_GETTING_BURSTY" "EXCITABILITY_B",
   Ops.transitToState t.calls "B_ID" (.const (.str "excited")) (some "B_GETTING_BURSTY"),
   Ops.transitToState t.sms "B_ID" (.const (.str "excited")) (some "B_GETTING_BURSTY"),
   Ops.resetTimers env t.calls (some "B_ID"),
   Ops.resetTimers env t.sms (some "B_ID")]

/-- a `Chain` given as an operation (operations.py:44-72) -/
def nested (ops : List (Op (World σ γ))) : Op (World σ γ) := World.chain env.logSet ops

/-- test_cdr.py:547-569, with the last operation that `set_operations` adds -/
def callOps (fmt : Int → Cell) (t : Talk) : List (Op (World σ γ)) :=
  [nested env (abFields env fmt t), nested env (cellStatus env t),
   Ops.randomValues env (.constant (.str "VOICE")) "PRODUCT" none,
   Ops.randomValues env t.durations "DURATION" none,
   Ops.applyFrame ["DURATION", "DATETIME", "TYPE"] ["VALUE"] callValue,
   nested env (updateAccounts t), nested env (triggerTopups env t), nested env (getBursty env t),
   Ops.fieldLogger "voice_cdr" ["DATETIME", "MSISDN_A", "MSISDN_B", "STATUS", "DURATION", "VALUE", "CELL_A",
     "OPERATOR_A", "CELL_B", "OPERATOR_B", "TYPE", "PRODUCT"] [],
   Ops.maybeBackToDefault env t.calls]

/-- test_cdr.py:571-592, with the last operation that `set_operations` adds -/
def smsOps (fmt : Int → Cell) (t : Talk) : List (Op (World σ γ)) :=
  [nested env (abFields env fmt t), nested env (cellStatus env t),
   Ops.randomValues env (.constant (.str "SMS")) "PRODUCT" none,
   Ops.applyFrame ["DATETIME", "TYPE"] ["VALUE"] smsValue,
   nested env (updateAccounts t), nested env (triggerTopups env t), nested env (getBursty env t),
   Ops.fieldLogger "sms_cdr" ["DATETIME", "MSISDN_A", "MSISDN_B", "STATUS", "VALUE", "CELL_A",
     "OPERATOR_A", "CELL_B", "OPERATOR_B", "TYPE", "PRODUCT"] [],
   Ops.maybeBackToDefault env t.sms]

/-- `add_communications` (test_cdr.py:352-592): the objects in use; the operations of the two stories are
`callOps` and `smsOps` -/
def addCommunications (g : Parts γ) (subs sims cells : Nat) : Act (World σ γ) Talk := do
  let durations ← Snd.seeded env g.durations
  let timer ← Snd.seeded env g.callTimer
  let rechargeTrigger ← Snd.seeded env g.rechargeTrigger
  let normal ← Snd.seeded env g.normalActivity
  let excited ← Snd.seeded env g.excitedActivity
  let excitability ← Snd.seeded env g.excitability
  Snd.createDrawn env subs "EXCITABILITY" excitability
  let flatTrigger ← Snd.seeded env g.flatTrigger
  let back ← Snd.seeded env g.backToNormal
  let calls ← World.createStory env (talkStory "calls" subs timer normal excited back)
  let sms ← World.createStory env (talkStory "sms" subs timer normal excited back)
  let friends ← Snd.relNamed subs "FRIENDS"
  let simsOf ← Snd.relNamed subs "SIMS"
  let topups ← Snd.storyNamed "topups"
  pure { subs, sims, cells, friends, simsOf, topups, calls, sms, durations, rechargeTrigger, flatTrigger }

/-- `CdrScenario.__init__` (test_cdr.py:111-131), after that of `Circus`: the operations of the stories, in
order of creation -/
def build (p : Params) (g : Parts γ) (fmt : Int → Cell) : Act (Circus σ γ) (List (List (Op (World σ γ)))) := do
  let (subs, sims) ← createSubsAndSims env p g
  let (cells, down, repair) ← addUganda env g fmt
  let mobility ← onWorld (addMobility env g fmt subs cells)
  onWorld (addErNetwork env g.friends subs "FRIENDS" p.degree)
  let topups ← onWorld (addTopups env fmt sims)
  let t ← onWorld (addCommunications env g subs sims cells)
  pure [down, repair, mobility, topups, callOps env fmt t, smsOps env fmt t]

end Cdr
end Trumania
