import Verif.Model.Snd

/-!
# Model of the example `examples/tutorial/example2.py` (points of sale, stocks, purchases)

The functions of the example, and its steps 1 to 5 up to the call of `run`, in the order of the code since
they draw from the seeder of the circus. The sizes of the two populations and the number of items of a stock
are arguments. The objects of the generator classes are given by `Parts`: those that take a seed are functions
of it. The formats of the dates are the arguments `day` (`"%Y-%m-%d"`) and `time` (the default one).
-/

namespace Trumania
namespace Shop
open Circus
variable {σ γ : Type} (env : Env σ γ)

/-- 1000 points of sale (examples/tutorial/example2.py:26-28), 2500 customers
(examples/tutorial/example2.py:203-205), 5 items for each point of sale (examples/tutorial/example2.py:80) -/
structure Params where
  nPos : Nat
  nCustomers : Nat
  nItems : Nat

/-- the generator objects of the example -/
structure Parts (γ : Type) where
  posIds : γ
  posNames : Int → γ
  posCities : Int → γ
  posCompanies : Int → γ
  items : γ
  restockTimer : Int → γ
  /-- `timer_gen.activity(n=1, per=pd.Timedelta("7 days"))` (examples/tutorial/example2.py:109-111) -/
  restockActivity : Rat
  volumes : Int → γ
  customerIds : γ
  firstNames : Int → γ
  lastNames : Int → γ
  purchaseTimer : Int → γ
  purchaseActivity : Int → γ
  /-- the generator that `PopulationOps.select_one` makes (population.py:415-419) -/
  choice : List Val → Option (List Rat) → Int → γ
  restockTrigger : Int → γ

/-- `the_circus.populations[name]` -/
def popNamed (name : String) : Act (Circus σ γ) Nat := do
  let c ← get
  Act.ofPy (c.populations.get name)

/-- `the_circus.generators[name]` -/
def genNamed (name : String) : Act (Circus σ γ) GenRef := do
  let c ← get
  let i ← Act.ofPy (c.generators.get name)
  pure (.ref i)

/-- `create_pos_population` (examples/tutorial/example2.py:22-40) -/
def createPos (p : Params) (g : Parts γ) : Act (Circus σ γ) Unit := do
  let ids ← onWorld (Snd.addGenerator g.posIds)
  let pos ← createPopulation env "point_of_sale" (.generated ids p.nPos)
  onWorld do
    let names ← Snd.seeded env g.posNames
    Snd.createDrawn env pos "NAME" names
    let cities ← Snd.seeded env g.posCities
    Snd.createDrawn env pos "CITY" cities
    let companies ← Snd.seeded env g.posCompanies
    Snd.createDrawn env pos "COMPANY" companies
    let _ ← createRelationship env pos "items" none

/-! ### Reports -/

/-- one day, in nanoseconds -/
def oneDay : Int := 24 * 3600 * nsPerSec

/-- examples/tutorial/example2.py:50-57 -/
def reportStory (pos : Nat) (n : Int) : World.StoryConfig :=
  { name := "report", population := pos, idField := "POS_ID", timerGen := .constant (.num ((n - 1 : Int) : Rat)) }

/-- examples/tutorial/example2.py:59-68, with the last operation that `set_operations` adds (story.py:80-86) -/
def reportOps (day : Int → Cell) (own items : Nat) : List (Op (World σ γ)) :=
  Ops.setOperations env own
    [Ops.timestamp env "TIME" false day,
     Ops.neighbourhoodSize items "POS_ID" "STOCK_LEVEL",
     Ops.fieldLogger "report" ["TIME", "POS_ID", "STOCK_LEVEL"] []]

/-- `add_report_story` (examples/tutorial/example2.py:43-68): the operations of the story -/
def addReport (day : Int → Cell) : Act (Circus σ γ) (List (Op (World σ γ))) := do
  let pos ← popNamed "point_of_sale"
  let c ← get
  let n ← Act.ofPy (c.world.clock.nIterations oneDay)
  let own ← createStory env (reportStory pos n)
  let items ← onWorld (Snd.relNamed pos "items")
  pure (reportOps env day own items)

/-! ### Stocks -/

/-- `[items_gen.generate(n) for _ in l]` (examples/tutorial/example2.py:80) -/
def itemArrays (gen : GenRef) (n : Nat) : List Val → Act (World σ γ) (List (List Val))
  | [] => pure []
  | _ :: l => do
    let cells ← World.generate env gen (n : Rat)
    let items ← Act.ofPy (cells.mapM Cell.asVal)
    let rest ← itemArrays gen n l
    pure (items :: rest)

/-- `add_items_to_pos_stock` (examples/tutorial/example2.py:71-83) -/
def addItems (p : Params) (g : Parts γ) : Act (Circus σ γ) Unit := do
  let pos ← popNamed "point_of_sale"
  let c ← get
  let gen ← onWorld (Snd.addGenerator g.items)
  attachGenerator "items_gen" c.world.gens.length
  onWorld do
    let q ← World.getPop pos
    let arrays ← itemArrays env gen p.nItems q.ids
    let items ← Snd.relNamed pos "items"
    addGroupedRelations env items q.ids arrays

/-- examples/tutorial/example2.py:98-112 -/
def periodicStory (pos : Nat) (timer : GenRef) (activity : Rat) : World.StoryConfig :=
  { name := "restock", population := pos, idField := "POS_ID", timerGen := timer
    activity := .constant (.num activity) }

/-- examples/tutorial/example2.py:119-139 -/
def periodicOps (day : Int → Cell) (own pos items : Nat) (volumes itemGen : GenRef) : List (Op (World σ γ)) :=
  Ops.setOperations env own
    [Ops.timestamp env "TIME" true day,
     Ops.lookup pos "POS_ID" [("NAME", "POS_NAME")],
     Ops.randomValues env volumes "RESTOCK_VOLUME" none,
     Ops.randomValuesFromField env (.bulk itemGen) "NEW_ITEM_IDS" "RESTOCK_VOLUME",
     Ops.relAddGrouped env items "POS_ID" "NEW_ITEM_IDS",
     Ops.fieldLogger "restock" ["TIME", "POS_ID", "POS_NAME", "RESTOCK_VOLUME"] []]

/-- `add_periodic_restock_story` (examples/tutorial/example2.py:86-139): the operations of the story -/
def addPeriodic (g : Parts γ) (day : Int → Cell) : Act (Circus σ γ) (List (Op (World σ γ))) := do
  let pos ← popNamed "point_of_sale"
  let timer ← onWorld (Snd.seeded env g.restockTimer)
  let own ← createStory env (periodicStory pos timer g.restockActivity)
  let volumes ← onWorld (Snd.seeded env g.volumes)
  let itemGen ← genNamed "items_gen"
  let items ← onWorld (Snd.relNamed pos "items")
  pure (periodicOps env day own pos items volumes itemGen)

/-- examples/tutorial/example2.py:176-196 -/
def combinedOps (day : Int → Cell) (own pos items : Nat) (volumes itemGen : GenRef) : List (Op (World σ γ)) :=
  Ops.setOperations env own
    [Ops.timestamp env "TIME" true day,
     Ops.lookup pos "POS_ID" [("NAME", "POS_NAME")],
     Ops.randomValues env (.flatmapped volumes (.bulk itemGen)) "NEW_ITEM_IDS" none,
     Ops.relAddGrouped env items "POS_ID" "NEW_ITEM_IDS",
     Ops.fieldLogger "restock" ["TIME", "POS_ID", "POS_NAME"] []]

/-- `add_periodic_restock_story_with_combined_generator` (examples/tutorial/example2.py:142-196): the
operations of the story -/
def addCombined (g : Parts γ) (day : Int → Cell) : Act (Circus σ γ) (List (Op (World σ γ))) := do
  let pos ← popNamed "point_of_sale"
  let timer ← onWorld (Snd.seeded env g.restockTimer)
  let own ← createStory env (periodicStory pos timer g.restockActivity)
  let volumes ← onWorld (Snd.seeded env g.volumes)
  let itemGen ← genNamed "items_gen"
  let items ← onWorld (Snd.relNamed pos "items")
  pure (combinedOps env day own pos items volumes itemGen)

/-! ### Customers -/

/-- `create_customer_population` (examples/tutorial/example2.py:199-216) -/
def createCustomers (p : Params) (g : Parts γ) : Act (Circus σ γ) Unit := do
  let ids ← onWorld (Snd.addGenerator g.customerIds)
  let customers ← createPopulation env "customer" (.generated ids p.nCustomers)
  onWorld do
    let first ← Snd.seeded env g.firstNames
    Snd.createDrawn env customers "FIRST_NAME" first
    let last ← Snd.seeded env g.lastNames
    Snd.createDrawn env customers "LAST_NAME" last
    let _ ← createRelationship env customers "my_items" none

/-- examples/tutorial/example2.py:226-243 -/
def purchaseStory (customers : Nat) (timer activity : GenRef) : World.StoryConfig :=
  { name := "purchase", population := customers, idField := "CUST_ID", timerGen := timer, activity := activity }

/-- examples/tutorial/example2.py:249-294 -/
def purchaseOps (own customers pos items myItems : Nat) (choice : GenRef) : List (Op (World σ γ)) :=
  Ops.setOperations env own
    [Ops.lookup customers "CUST_ID" [("FIRST_NAME", "BUYER_FIRST_NAME"), ("LAST_NAME", "BUYER_LAST_NAME")],
     Ops.randomValues env choice "POS_ID" none,
     Ops.lookup pos "POS_ID" [("COMPANY", "POS_NAME")],
     Ops.selectOne env items "POS_ID" "BOUGHT_ITEM_ID" true true true none,
     Ops.relAdd env myItems "CUST_ID" "BOUGHT_ITEM_ID",
     Ops.fieldLogger "purchases" [] []]

/-- `create_purchase_story` (examples/tutorial/example2.py:219-294): the operations of the story -/
def addPurchases (g : Parts γ) : Act (Circus σ γ) (List (Op (World σ γ))) := do
  let timer ← onWorld (Snd.seeded env g.purchaseTimer)
  let customers ← popNamed "customer"
  let activity ← onWorld (Snd.seeded env g.purchaseActivity)
  let own ← createStory env (purchaseStory customers timer activity)
  let myItems ← onWorld (Snd.relNamed customers "my_items")
  let pos ← popNamed "point_of_sale"
  let items ← onWorld (Snd.relNamed pos "items")
  onWorld do
    let q ← World.getPop pos
    let (a, p) ← Act.ofPy (q.selectOneParams none)
    let choice ← Snd.seeded env (g.choice a p)
    pure (purchaseOps env own customers pos items myItems choice)

/-! ### Restocks on demand -/

/-- examples/tutorial/example2.py:304-307 -/
def restockStory (pos : Nat) : World.StoryConfig :=
  { name := "restock", population := pos, idField := "POS_ID" }

/-- examples/tutorial/example2.py:314-342 -/
def restockOps (time : Int → Cell) (own pos items : Nat) (volumes itemGen : GenRef) : List (Op (World σ γ)) :=
  Ops.setOperations env own
    [Ops.timestamp env "TIME" true time,
     Ops.lookup pos "POS_ID" [("NAME", "POS_NAME")],
     Ops.neighbourhoodSize items "POS_ID" "PREV_STOCK_LEVEL",
     Ops.randomValues env volumes "RESTOCK_VOLUME" none,
     Ops.randomValuesFromField env (.bulk itemGen) "NEW_ITEM_IDS" "RESTOCK_VOLUME",
     Ops.relAddGrouped env items "POS_ID" "NEW_ITEM_IDS",
     Ops.neighbourhoodSize items "POS_ID" "NEW_STOCK_LEVEL",
     Ops.fieldLogger "restock" ["TIME", "POS_ID", "POS_NAME", "RESTOCK_VOLUME", "PREV_STOCK_LEVEL",
       "NEW_STOCK_LEVEL"] []]

/-- `add_inactive_restock_story` (examples/tutorial/example2.py:297-342): the operations of the story -/
def addInactive (g : Parts γ) (time : Int → Cell) : Act (Circus σ γ) (List (Op (World σ γ))) := do
  let pos ← popNamed "point_of_sale"
  let own ← createStory env (restockStory pos)
  let volumes ← onWorld (Snd.seeded env g.volumes)
  let itemGen ← genNamed "items_gen"
  let items ← onWorld (Snd.relNamed pos "items")
  pure (restockOps env time own pos items volumes itemGen)

/-- the operations that `update_purchase_story` adds (examples/tutorial/example2.py:377-393) -/
def triggerOps (restock items : Nat) (trigger : GenRef) : List (Op (World σ γ)) :=
  [Ops.neighbourhoodSize items "POS_ID" "POS_STOCK",
   Ops.randomValuesFromField env trigger "SHOULD_RESTOCK" "POS_STOCK",
   Ops.forceActNext restock "POS_ID" (some "SHOULD_RESTOCK")]

/-- `append_operations` (story.py:88-89): after the operations that the story has, hence after the one that
`set_operations` added -/
def appendOperations (ops more : List (Op (World σ γ))) : List (Op (World σ γ)) := ops ++ more

/-- `update_purchase_story` (examples/tutorial/example2.py:345-393), for a purchase story with the operations
`ops` -/
def updatePurchases (g : Parts γ) (ops : List (Op (World σ γ))) :
    Act (Circus σ γ) (List (Op (World σ γ))) := do
  let _ ← onWorld (Snd.storyNamed "purchase")
  let pos ← popNamed "point_of_sale"
  onWorld do
    let trigger ← Snd.seeded env g.restockTrigger
    let items ← Snd.relNamed pos "items"
    let restock ← Snd.storyNamed "restock"
    pure (appendOperations ops (triggerOps env restock items trigger))

/-! ### The steps, before `run_and_report` -/

/-- `step1` (examples/tutorial/example2.py:407-413): the operations of the stories, in order of creation -/
def step1 (p : Params) (g : Parts γ) (day : Int → Cell) : Act (Circus σ γ) (List (List (Op (World σ γ)))) := do
  createPos env p g
  let report ← addReport env day
  pure [report]

/-- `step2` (examples/tutorial/example2.py:416-423) -/
def step2 (p : Params) (g : Parts γ) (day : Int → Cell) : Act (Circus σ γ) (List (List (Op (World σ γ)))) := do
  createPos env p g
  addItems env p g
  let report ← addReport env day
  pure [report]

/-- `step3` (examples/tutorial/example2.py:426-435) -/
def step3 (p : Params) (g : Parts γ) (day : Int → Cell) : Act (Circus σ γ) (List (List (Op (World σ γ)))) := do
  createPos env p g
  addItems env p g
  let restock ← addPeriodic env g day
  let report ← addReport env day
  pure [restock, report]

/-- `step3_bis` (examples/tutorial/example2.py:438-447) -/
def step3bis (p : Params) (g : Parts γ) (day : Int → Cell) :
    Act (Circus σ γ) (List (List (Op (World σ γ)))) := do
  createPos env p g
  addItems env p g
  let restock ← addCombined env g day
  let report ← addReport env day
  pure [restock, report]

/-- `step4` (examples/tutorial/example2.py:450-464) -/
def step4 (p : Params) (g : Parts γ) (day : Int → Cell) : Act (Circus σ γ) (List (List (Op (World σ γ)))) := do
  createPos env p g
  addItems env p g
  let restock ← addPeriodic env g day
  let report ← addReport env day
  createCustomers env p g
  let purchases ← addPurchases env g
  pure [restock, report, purchases]

/-- `step5` (examples/tutorial/example2.py:467-483) -/
def step5 (p : Params) (g : Parts γ) (day time : Int → Cell) :
    Act (Circus σ γ) (List (List (Op (World σ γ)))) := do
  createPos env p g
  addItems env p g
  let restock ← addInactive env g time
  let report ← addReport env day
  createCustomers env p g
  let purchases ← addPurchases env g
  let purchases ← updatePurchases env g purchases
  pure [restock, report, purchases]

end Shop
end Trumania
