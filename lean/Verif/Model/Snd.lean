import Verif.Model.Networks
import Verif.Model.Ops

/-!
# Model of the scenario `tests/scenarios/test_snd.py` (sales and distribution of SIM cards)

The constructor of the scenario (test_snd.py:39-56), step by step and in its order, since each step draws
from the seeder of the circus. The numbers of `params` are arguments. The objects of the generator classes
are given by `Parts`: those that take a seed are functions of it.
-/

namespace Trumania
namespace Snd
open Circus
variable {σ γ : Type} (env : Env σ γ)

/-- `params` (test_snd.py:20-34) -/
structure Params where
  nAgents : Nat
  nDealers : Nat
  nDistributors : Nat
  degree : Rat
  nSimsDealer : Nat
  nSimsDistributor : Nat

/-- the generator objects built by the scenario, and the graph drawn by networkx for a size, a probability
and a seed (test_snd.py:195) -/
structure Parts (γ : Type) where
  distributorIds : γ
  simIds : γ
  dealerIds : γ
  agentIds : γ
  agentNames : Int → γ
  agentWeights : γ
  graph : Nat → Nat → Rat → Int → List (Nat × Nat)
  bulkSizes : Int → γ
  timer : Int → γ
  activity : Int → γ
  holidayStart : Int → γ
  holidayEnd : Int → γ
  reviewIds : γ
  reviewTexts : Int → γ

/-- a new generator object, and its reference -/
def addGenerator (g : γ) : Act (World σ γ) GenRef := fun w =>
  .ok (.ref w.gens.length)
    { w with clock := { w.clock with listeners := w.clock.listeners ++ [g] } }

/-- a new generator object, whose seed is `next(self.seeder)` -/
def seeded (mk : Int → γ) : Act (World σ γ) GenRef := do
  let seed ← drawSeed env
  addGenerator (mk seed)

/-- `population.create_attribute(name, init_values=v)` with one value for all (population.py:111-113,
attribute.py:42): pandas repeats it -/
def createConstant (pop : Nat) (name : String) (v : Cell) : Act (World σ γ) Unit := do
  let p ← World.getPop pop
  let p ← Act.ofPy (p.createAttribute name (List.replicate p.ids.length v))
  World.setPop pop p

/-- `population.create_attribute(name, init_gen=g)` (population.py:111-113, attribute.py:25-42): nothing is
drawn for a population of size 0 -/
def createDrawn (pop : Nat) (name : String) (g : GenRef) : Act (World σ γ) Unit := do
  let p ← World.getPop pop
  let values ← if p.size = 0 then pure [] else World.generate env g (p.size : Rat)
  let p ← Act.ofPy (p.createAttribute name values)
  World.setPop pop p

/-- `self.get_story(name).ops` (circus.py:85-95): `None` has no `ops` -/
def storyNamed (name : String) : Act (World σ γ) Nat := do
  let w ← get
  match w.findStory name with
  | some i => pure i
  | none => throw .attributeError

/-- `population.get_relationship(name)` (population.py:104-109) -/
def relNamed (pop : Nat) (name : String) : Act (World σ γ) Nat := do
  let p ← World.getPop pop
  Act.ofPy (p.getRelationship name)

/-- the items are given to members drawn at random (test_snd.py:77-80, 143-146) -/
def fillStock (pop rel : Nat) (items : List Val) : Act (World σ γ) Unit := do
  let p ← World.getPop pop
  let seed ← drawSeed env
  let assigned ← Act.ofPy (make_random_assign env.R seed items p.ids)
  addRelations env rel (assigned.map Prod.snd) (assigned.map Prod.fst) (.scalar 1)

/-- `create_distributors_with_sims` (test_snd.py:58-86): the population and the generator of SIMs -/
def createDistributors (p : Params) (g : Parts γ) : Act (Circus σ γ) (Nat × GenRef) := do
  let idsGen ← onWorld (addGenerator g.distributorIds)
  let distributors ← createPopulation env "distros" (.generated idsGen p.nDistributors)
  onWorld do
    let sims ← createRelationship env distributors "SIM" none
    let simGen ← addGenerator g.simIds
    let cells ← World.generate env simGen (p.nSimsDistributor : Rat)
    let ids ← Act.ofPy (cells.mapM Cell.asVal)
    fillStock env distributors sims ids
    createConstant distributors "SIMS_TO_RESTOCK" (.num 0)
    pure (distributors, simGen)

/-- the stock of the broke dealer (test_snd.py:150-153) -/
def brokeDealer : Val := .str "broke_dealer"
def brokeSims : List Val := [.str "SIM_OF_BROKE_DEALER_0", .str "SIM_OF_BROKE_DEALER_1",
  .str "SIM_OF_BROKE_DEALER_2"]

/-- `create_dealers_and_sims_stock` (test_snd.py:128-158) -/
def createDealers (p : Params) (g : Parts γ) : Act (Circus σ γ) Nat := do
  let idsGen ← onWorld (addGenerator g.dealerIds)
  let dealers ← createPopulation env "dealers" (.generated idsGen p.nDealers)
  onWorld do
    let sims ← createRelationship env dealers "SIM" none
    fillStock env dealers sims ((build_ids p.nSimsDealer 0 "SIM_" 10).map Val.str)
    addRelations env sims (brokeSims.map fun _ => brokeDealer) brokeSims (.scalar 1)
    pure dealers

/-- `create_agents` (test_snd.py:160-181) -/
def createAgents (p : Params) (g : Parts γ) : Act (Circus σ γ) Nat := do
  let idsGen ← onWorld (addGenerator g.agentIds)
  let agents ← createPopulation env "agents" (.generated idsGen p.nAgents)
  onWorld do
    let _ ← createRelationship env agents "SIM" none
    let names ← seeded env g.agentNames
    createDrawn env agents "AGENT_NAME" names
    pure agents

/-- `average_agent_degree / n_agents * n_dealers` (test_snd.py:189) -/
def degProb (p : Params) : Py Rat :=
  if p.nAgents = 0 then .error .zeroDivisionError else .ok (p.degree / p.nAgents * p.nDealers)

/-- `connect_agent_to_dealer` (test_snd.py:183-211) -/
def connectAgents (p : Params) (g : Parts γ) (agents dealers : Nat) : Act (World σ γ) Unit := do
  let prob ← Act.ofPy (degProb p)
  let weightGen ← addGenerator g.agentWeights
  let a ← World.getPop agents
  let d ← World.getPop dealers
  let seed ← drawSeed env
  let edges ← Act.ofPy (make_random_bipartite_data a.ids d.ids prob
    (g.graph a.ids.length d.ids.length prob seed))
  let rel ← createRelationship env agents "DEALERS" none
  let cells ← World.generate env weightGen (edges.length : Rat)
  let weights ← Act.ofPy (cells.mapM Cell.asNum)
  addRelations env rel (edges.map Prod.fst) (edges.map Prod.snd) (.list weights)
  addRelations env rel a.ids (a.ids.map fun _ => brokeDealer) (.scalar 4)

/-- `connect_dealers_to_distributors` (test_snd.py:213-228) -/
def connectDealers (g : Parts γ) (dealers distributors : Nat) : Act (World σ γ) Unit := do
  let rel ← createRelationship env dealers "DISTRIBUTOR" none
  let seed ← drawSeed env
  let t ← World.getPop distributors
  let d ← World.getPop dealers
  let (idx, _) ← Act.ofPy (env.R.choice (env.R.seed seed) t.ids.length d.size)
  let assigned ← Act.ofPy (idx.mapM (nth t.ids))
  addRelations env rel d.ids assigned (.scalar 1)
  let sizes ← seeded env g.bulkSizes
  createDrawn env dealers "BULK_BUY_SIZE" sizes

/-! ### Stories -/

/-- `pd.isnull` on a column (test_snd.py:353) -/
def isNull : List (List Cell) → Py (List Cell)
  | [cs] => .ok (cs.map fun c => .bool (decide (c = .na)))
  | _ => .error .typeError

/-- `len` (test_snd.py:279) -/
def lengthOf : Cell → Py Cell
  | .list l => .ok (.num (l.length : Rat))
  | .scalar (.str s) => .ok (.num (s.length : Rat))
  | _ => .error .typeError

/-- `lambda s: s.map(len)` (test_snd.py:279) -/
def lengths : List (List Cell) → Py (List Cell)
  | [cs] => cs.mapM lengthOf
  | _ => .error .typeError

/-- `add_distributor_recharge_story` (test_snd.py:94-101) -/
def restockStory (distributors : Nat) : World.StoryConfig :=
  { name := "distributor_restock", population := distributors, idField := "DISTRIBUTOR_ID" }

/-- test_snd.py:103-126, with the last operation that `set_operations` adds (story.py:80-86) -/
def restockOps (fmt : Int → Cell) (own distributors sims : Nat) (simGen : GenRef) : List (Op (World σ γ)) :=
  [Ops.timestamp env "DATETIME" true fmt,
   Ops.lookup distributors "DISTRIBUTOR_ID" [("SIMS_TO_RESTOCK", "SIMS_TO_RESTOCK")],
   Ops.randomValues env simGen "NEW_SIMS_IDS" (some "SIMS_TO_RESTOCK"),
   Ops.relAddGrouped env sims "DISTRIBUTOR_ID" "NEW_SIMS_IDS",
   Ops.attrAdd distributors "SIMS_TO_RESTOCK" "DISTRIBUTOR_ID" "SIMS_TO_RESTOCK" true,
   Ops.fieldLogger "distributor_restock" ["DATETIME", "DISTRIBUTOR_ID", "SIMS_TO_RESTOCK"] [],
   Ops.maybeBackToDefault env own]

/-- `add_distributor_recharge_story` (test_snd.py:88-126): the operations of the story -/
def addRestock (fmt : Int → Cell) (distributors : Nat) (simGen : GenRef) :
    Act (World σ γ) (List (Op (World σ γ))) := do
  let own ← World.createStory env (restockStory distributors)
  let sims ← relNamed distributors "SIM"
  pure (restockOps env fmt own distributors sims simGen)

/-- test_snd.py:314-327 -/
def purchaseStory (agents : Nat) (timer activity : GenRef) : World.StoryConfig :=
  { name := "purchases", population := agents, idField := "AGENT", timerGen := timer
    activity := activity
    states := some [(.str "on_holiday", ⟨.constant (.num 0), .constant (.num 0)⟩)] }

/-- test_snd.py:329-370 -/
def purchaseOps (fmt : Int → Cell) (purchases agentDealers dealerSims agentSims : Nat) :
    List (Op (World σ γ)) :=
  [Ops.timestamp env "DATETIME" true fmt,
   Ops.selectOne env agentDealers "AGENT" "DEALER" false false false none,
   Ops.selectOne env dealerSims "DEALER" "SOLD_SIM" true true false none,
   Ops.applySeries ["SOLD_SIM"] "FAILED_SALE" isNull,
   Ops.forceActNext purchases "AGENT" (some "FAILED_SALE"),
   Ops.fieldLogger "purchases" [] [],
   Ops.dropRow "FAILED_SALE",
   Ops.relAdd env agentSims "AGENT" "SOLD_SIM",
   Ops.maybeBackToDefault env purchases]

/-- `add_agent_sim_purchase_story` (test_snd.py:295-370): the operations of the story -/
def addPurchases (g : Parts γ) (fmt : Int → Cell) (agents dealers : Nat) :
    Act (World σ γ) (List (Op (World σ γ))) := do
  let timer ← seeded env g.timer
  let activity ← seeded env g.activity
  let purchases ← World.createStory env (purchaseStory agents timer activity)
  let agentDealers ← relNamed agents "DEALERS"
  let dealerSims ← relNamed dealers "SIM"
  let agentSims ← relNamed agents "SIM"
  pure (purchaseOps env fmt purchases agentDealers dealerSims agentSims)

/-- test_snd.py:240-247 -/
def bulkStory (dealers : Nat) (timer : GenRef) : World.StoryConfig :=
  { name := "bulk_purchases", population := dealers, idField := "DEALER_ID", timerGen := timer
    activity := .constant (.num 100) }

/-- test_snd.py:249-293 -/
def bulkOps (fmt : Int → Cell) (own restock dealers distributors dealerDistributor distributorSims dealerSims : Nat) :
    List (Op (World σ γ)) :=
  [Ops.timestamp env "DATETIME" true fmt,
   Ops.selectOne env dealerDistributor "DEALER_ID" "DISTRIBUTOR" false false false none,
   Ops.lookup dealers "DEALER_ID" [("BULK_BUY_SIZE", "BULK_BUY_SIZE")],
   Ops.selectMany env distributorSims "DISTRIBUTOR" "SIM_BULK" "BULK_BUY_SIZE" true true,
   Ops.relAddGrouped env dealerSims "DEALER_ID" "SIM_BULK",
   Ops.applySeries ["SIM_BULK"] "NUMBER_OF_SIMS" lengths,
   Ops.attrAdd distributors "SIMS_TO_RESTOCK" "DISTRIBUTOR" "NUMBER_OF_SIMS" false,
   Ops.forceActNext restock "DISTRIBUTOR",
   Ops.fieldLogger "bulk_purchases" ["DEALER_ID", "DISTRIBUTOR", "NUMBER_OF_SIMS"] [],
   Ops.maybeBackToDefault env own]

/-- `add_dealer_bulk_sim_purchase_story` (test_snd.py:230-293): the operations of the story -/
def addBulk (g : Parts γ) (fmt : Int → Cell) (dealers distributors : Nat) :
    Act (World σ γ) (List (Op (World σ γ))) := do
  let timer ← seeded env g.timer
  let own ← World.createStory env (bulkStory dealers timer)
  let dealerDistributor ← relNamed dealers "DISTRIBUTOR"
  let distributorSims ← relNamed distributors "SIM"
  let dealerSims ← relNamed dealers "SIM"
  let restock ← storyNamed "distributor_restock"
  pure (bulkOps env fmt own restock dealers distributors dealerDistributor distributorSims dealerSims)

/-- test_snd.py:397-410 -/
def leaveStory (agents : Nat) (timer activity : GenRef) : World.StoryConfig :=
  { name := "agent_start_holidays", population := agents, idField := "AGENT", timerGen := timer
    activity := activity }
def returnStory (agents : Nat) (timer activity : GenRef) : World.StoryConfig :=
  { name := "agent_stops_holidays", population := agents, idField := "AGENT", timerGen := timer
    activity := activity, autoReset := false }

/-- test_snd.py:412-423 -/
def leaveOps (fmt : Int → Cell) (own purchases returning : Nat) : List (Op (World σ γ)) :=
  [Ops.transitToState purchases "AGENT" (.const (.str "on_holiday")),
   Ops.resetTimers env returning (some "AGENT"),
   Ops.timestamp env "TIME" true fmt,
   Ops.randomValues env (.constant (.str "going")) "STATES" none,
   Ops.fieldLogger "holidays" [] [],
   Ops.maybeBackToDefault env own]

/-- test_snd.py:425-434 -/
def returnOps (fmt : Int → Cell) (own purchases : Nat) : List (Op (World σ γ)) :=
  [Ops.transitToState purchases "AGENT" (.const (.str "default")),
   Ops.timestamp env "TIME" true fmt,
   Ops.randomValues env (.constant (.str "returning")) "STATES" none,
   Ops.fieldLogger "holidays" [] [],
   Ops.maybeBackToDefault env own]

/-- `add_agent_holidays_story` (test_snd.py:372-434): the operations of the two stories -/
def addHolidays (g : Parts γ) (fmt : Int → Cell) (agents : Nat) :
    Act (World σ γ) (List (Op (World σ γ)) × List (Op (World σ γ))) := do
  let timer ← seeded env g.timer
  let start ← seeded env g.holidayStart
  let stop ← seeded env g.holidayEnd
  let own ← World.createStory env (leaveStory agents timer start)
  let returning ← World.createStory env (returnStory agents timer stop)
  let purchases ← storyNamed "purchases"
  pure (leaveOps env fmt own purchases returning, returnOps env fmt returning purchases)

/-- test_snd.py:459-465 -/
def reviewStory (agents : Nat) (timer activity : GenRef) : World.StoryConfig :=
  { name := "agent_reviews", population := agents, idField := "AGENT", timerGen := timer
    activity := activity }

/-- test_snd.py:470-492 -/
def reviewOps (fmt : Int → Cell) (own agents reviews : Nat) (ids texts : GenRef) : List (Op (World σ γ)) :=
  [Ops.timestamp env "DATETIME" true fmt,
   Ops.lookup agents "AGENT" [("AGENT_NAME", "AGENT_NAME")],
   Ops.randomValues env ids "REVIEW_ID" none,
   Ops.randomValues env texts "REVIEW_TEXT" none,
   Ops.popUpdate reviews "REVIEW_ID" [("DATE", "DATETIME"), ("TEXT", "REVIEW_TEXT"),
     ("AGENT_ID", "AGENT"), ("AGENT_NAME", "AGENT_NAME")],
   Ops.fieldLogger "reviews" [] [],
   Ops.maybeBackToDefault env own]

/-- `add_agent_reviews_stories` (test_snd.py:436-492): the operations of the story -/
def addReviews (g : Parts γ) (fmt : Int → Cell) (agents : Nat) :
    Act (Circus σ γ) (List (Op (World σ γ))) := do
  let timer ← onWorld (seeded env g.timer)
  let activity ← onWorld (seeded env g.activity)
  -- `ids_gen` is not given, and not used for the size 0
  let reviews ← createPopulation env "rev" (.generated timer 0)
  onWorld do
    createConstant reviews "DATE" .na
    createConstant reviews "TEXT" .na
    createConstant reviews "AGENT_ID" .na
    createConstant reviews "AGENT_NAME" .na
    let own ← World.createStory env (reviewStory agents timer activity)
    let ids ← addGenerator g.reviewIds
    let texts ← seeded env g.reviewTexts
    pure (reviewOps env fmt own agents reviews ids texts)

/-- `SndScenario.__init__` (test_snd.py:39-56), after that of `Circus`: the operations of the stories, in
order of creation -/
def build (p : Params) (g : Parts γ) (fmt : Int → Cell) : Act (Circus σ γ) (List (List (Op (World σ γ)))) := do
  let (distributors, simGen) ← createDistributors env p g
  let restock ← onWorld (addRestock env fmt distributors simGen)
  let dealers ← createDealers env p g
  let agents ← createAgents env p g
  onWorld (connectAgents env p g agents dealers)
  onWorld (connectDealers env g dealers distributors)
  let purchases ← onWorld (addPurchases env g fmt agents dealers)
  let bulk ← onWorld (addBulk env g fmt dealers distributors)
  let (leave, back) ← onWorld (addHolidays env g fmt agents)
  let reviews ← addReviews env g fmt agents
  pure [restock, purchases, bulk, leave, back, reviews]

end Snd
end Trumania
