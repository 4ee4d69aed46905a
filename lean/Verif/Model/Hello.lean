import Verif.Model.Shop

/-!
# Model of the example `examples/tutorial/example1.py` (persons that say hello)

The steps 1 to 7 up to the call of `run`, in the order of the code since they draw from the seeder of the
circus. What several steps write in the same way is written once. The sizes are arguments. The objects of the
generator classes are given by `Parts`: those that take a seed are functions of it.
-/

namespace Trumania
namespace Hello
open Circus
variable {σ γ : Type} (env : Env σ γ)

/-- 1000 persons and 1000 sites (examples/tutorial/example1.py:23, 128) -/
structure Params where
  nPersons : Nat
  nSites : Nat

/-- the generator objects of the example -/
structure Parts (γ : Type) where
  /-- `SequencialGenerator(prefix="PERSON_")` (examples/tutorial/example1.py:24) -/
  personIds : γ
  /-- `FakerGenerator(method="name", seed=...)` (examples/tutorial/example1.py:65-66) -/
  names : Int → γ
  /-- `NumpyRandomGenerator(method="uniform", low=0, high=1, seed=...)` (examples/tutorial/example1.py:326-327) -/
  popularity : Int → γ
  /-- `NumpyRandomGenerator(method="exponential", scale=60, seed=...)` (examples/tutorial/example1.py:125-126) -/
  durations : Int → γ
  /-- `SequencialGenerator(prefix="SITE_")` (examples/tutorial/example1.py:128), which is used once -/
  siteIds : SeqGen
  /-- `NumpyRandomGenerator(method="choice", a=sites, seed=...)` (examples/tutorial/example1.py:129-130) -/
  choice : List Val → Int → γ
  /-- the edges of `bipartite.random_graph` (util_functions.py:32), from the sizes, the probability and the seed -/
  graph : Nat → Nat → Rat → Int → List (Nat × Nat)

/-- the steps -/
inductive Step where
  | one | two | three | four | five | six | seven
deriving DecidableEq

/-! ### Populations and relationships -/

/-- `create_population(name="person", ...)` (examples/tutorial/example1.py:22-24) -/
def createPersons (p : Params) (g : Parts γ) : Act (Circus σ γ) Nat := do
  let ids ← onWorld (Snd.addGenerator g.personIds)
  createPopulation env "person" (.generated ids p.nPersons)

/-- `person.create_attribute(name, init_gen=...)` (examples/tutorial/example1.py:63-66, 320-327) -/
def addAttribute (persons : Nat) (name : String) (mk : Int → γ) : Act (World σ γ) Unit := do
  let gen ← Snd.seeded env mk
  Snd.createDrawn env persons name gen

/-- `sites` (examples/tutorial/example1.py:128) -/
def sites (p : Params) (g : Parts γ) : List Val := (g.siteIds.generate p.nSites).1.map Val.str

/-- one more site for each person (examples/tutorial/example1.py:184-186, 252-254) -/
def addSite (persons rel : Nat) (gen : GenRef) (weight : Rat) : Act (World σ γ) Unit := do
  let q ← World.getPop persons
  let cells ← World.generate env gen q.size
  let tos ← Act.ofPy (cells.mapM Cell.asVal)
  addRelations env rel q.ids tos (.scalar weight)

/-- the weights of the five sites of each person: the default one (examples/tutorial/example1.py:183-186), or those of a
home, of a place of work and of three others (examples/tutorial/example1.py:251-266) -/
def siteWeights : Step → List Rat
  | .four => [1, 1, 1, 1, 1]
  | _ => [4/10, 3/10, 1/10, 1/10, 1/10]

/-- the generator of the sites, and the relationship `sites` (examples/tutorial/example1.py:178-186, 245-266, 329-352, 448-471) -/
def addSites (p : Params) (g : Parts γ) (persons : Nat) (weights : List Rat) : Act (World σ γ) Nat := do
  let gen ← Snd.seeded env (g.choice (sites p g))
  let rel ← createRelationship env persons "sites" none
  Act.forEach (addSite env persons rel gen) weights
  pure rel

/-- the relationship `friends` (examples/tutorial/example1.py:356-369, 475-488) -/
def addFriends (g : Parts γ) (persons : Nat) : Act (World σ γ) Nat := do
  let rel ← createRelationship env persons "friends" none
  let seed ← drawSeed env
  let q ← World.getPop persons
  let pairs ← Act.ofPy (make_random_bipartite_data q.ids q.ids (5/1000)
    (g.graph q.ids.length q.ids.length (5/1000) seed))
  addRelations env rel (pairs.map Prod.fst) (pairs.map Prod.snd) (.scalar 1)
  pure rel

/-- `person.get_attribute_values("POPULARITY")` (examples/tutorial/example1.py:401, 529): population.py:123-127,
attribute.py:49-59 -/
def popularities (persons : Nat) : Act (World σ γ) (Dict Val Rat) := do
  let q ← World.getPop persons
  let a ← Act.ofPy (q.getAttribute "POPULARITY")
  Act.ofPy (a.table.mapM fun x => do .ok (x.1, ← x.2.asNum))

/-! ### The story -/

/-- examples/tutorial/example1.py:26-34 -/
def helloStory (persons : Nat) : World.StoryConfig :=
  { name := "hello_world", population := persons, idField := "PERSON_ID", timerGen := .constant (.num 0) }

/-- `person.ops.lookup(id_field="PERSON_ID", select={"NAME": "NAME"})` (examples/tutorial/example1.py:79-82) -/
def lookupName (persons : Nat) : Op (World σ γ) := Ops.lookup persons "PERSON_ID" [("NAME", "NAME")]

/-- `ConstantGenerator(value="hello world").ops.generate(named_as="HELLO")` (examples/tutorial/example1.py:37) -/
def hello : Op (World σ γ) := Ops.randomValues env (.constant (.str "hello world")) "HELLO" none

/-- `duration_gen.ops.generate(named_as="DURATION")` (examples/tutorial/example1.py:140) -/
def durations (gen : GenRef) : Op (World σ γ) := Ops.randomValues env gen "DURATION" none

/-- `random_site_gen.ops.generate(named_as="SITE")` (examples/tutorial/example1.py:141) -/
def randomSite (gen : GenRef) : Op (World σ γ) := Ops.randomValues env gen "SITE" none

/-- `allowed_sites.ops.select_one(from_field=..., named_as=...)` (examples/tutorial/example1.py:210-211, 540-544) -/
def selectSite (rel : Nat) (of named : String) : Op (World σ γ) :=
  Ops.selectOne env rel of named false false false none

/-- `friends.ops.select_one(...)` (examples/tutorial/example1.py:398-405, 526-533) -/
def selectFriend (rel : Nat) (weights : Dict Val Rat) : Op (World σ γ) :=
  Ops.selectOne env rel "PERSON_ID" "COUNTERPART_ID" false false true (some weights)

/-- `person.ops.lookup(id_field="COUNTERPART_ID", ...)` (examples/tutorial/example1.py:407-410, 535-538) -/
def lookupFriend (persons : Nat) : Op (World σ γ) := Ops.lookup persons "COUNTERPART_ID" [("NAME", "COUNTER_PART_NAME")]

/-- one cell times 0.05: pandas gives an empty value for an empty one, and python cannot multiply anything else than
a number -/
def priceCell : Cell → Py Cell
  | .scalar (.num q) => .ok (.num (q * (5/100)))
  | .scalar .na => .ok .na
  | _ => .error .typeError

/-- `price` (examples/tutorial/example1.py:492-499) -/
def price (data : Frame) : Py Frame := do
  let prices ← (← data.col "DURATION").mapM priceCell
  .ok ⟨["PRICE", "CURRENCY"], (data.index.zip prices).map fun x => ⟨x.1, [x.2, .str "EUR"]⟩⟩

/-- `Apply(source_fields=[...], named_as=["PRICE", "CURRENCY"], f=price, f_args="dataframe")`
(examples/tutorial/example1.py:546-549) -/
def applyPrice : Op (World σ γ) :=
  Ops.applyFrame ["DURATION", "SITE", "COUNTERPART_SITE"] ["PRICE", "CURRENCY"] price

/-- `example1.clock.ops.timestamp(named_as="TIME")` (examples/tutorial/example1.py:84), whose default is a random
date in the step of the clock (clock.py:120) -/
def timestamp (fmt : Int → Cell) : Op (World σ γ) := Ops.timestamp env "TIME" true fmt

/-- `FieldLogger(log_id="hello")` (examples/tutorial/example1.py:38) -/
def logger : Op (World σ γ) := Ops.fieldLogger "hello" [] []

/-- The objects that the operations use: the persons, the relationships of their sites and of their friends, the
generators of the durations and, in step 3, of the sites, and the popularities -/
structure Cast where
  persons : Nat
  sites : Nat
  friends : Nat
  duration : GenRef
  site : GenRef
  weights : Dict Val Rat

/-- the operations of the story: examples/tutorial/example1.py:36-39, 78-86, 132-146, 201-216, 281-296, 386-415, 516-554 -/
def operations (fmt : Int → Cell) (x : Cast) : Step → List (Op (World σ γ))
  | .one => [hello env, logger]
  | .two => [lookupName x.persons, hello env, timestamp env fmt, logger]
  | .three => [lookupName x.persons, hello env, durations env x.duration, randomSite env x.site, timestamp env fmt, logger]
  | .four | .five => [lookupName x.persons, hello env, durations env x.duration, selectSite env x.sites "PERSON_ID" "SITE",
      timestamp env fmt, logger]
  | .six => [lookupName x.persons, hello env, durations env x.duration, selectSite env x.sites "PERSON_ID" "SITE",
      selectFriend env x.friends x.weights, lookupFriend x.persons, timestamp env fmt, logger]
  | .seven => [lookupName x.persons, hello env, durations env x.duration, selectFriend env x.friends x.weights,
      lookupFriend x.persons, selectSite env x.sites "PERSON_ID" "SITE",
      selectSite env x.sites "COUNTERPART_ID" "COUNTERPART_SITE", applyPrice, timestamp env fmt, logger]

/-! ### The steps -/

/-- `step1` (examples/tutorial/example1.py:14-39): the operations of the story -/
def step1 (p : Params) (g : Parts γ) (fmt : Int → Cell) : Act (Circus σ γ) (List (Op (World σ γ))) := do
  let persons ← createPersons env p g
  let own ← createStory env (helloStory persons)
  pure (Ops.setOperations env own (operations env fmt ⟨persons, 0, 0, .ref 0, .ref 0, []⟩ .one))

/-- `step2` (examples/tutorial/example1.py:51-86) -/
def step2 (p : Params) (g : Parts γ) (fmt : Int → Cell) : Act (Circus σ γ) (List (Op (World σ γ))) := do
  let persons ← createPersons env p g
  onWorld (addAttribute env persons "NAME" g.names)
  let own ← createStory env (helloStory persons)
  pure (Ops.setOperations env own (operations env fmt ⟨persons, 0, 0, .ref 0, .ref 0, []⟩ .two))

/-- `step3` (examples/tutorial/example1.py:98-146) -/
def step3 (p : Params) (g : Parts γ) (fmt : Int → Cell) : Act (Circus σ γ) (List (Op (World σ γ))) := do
  let persons ← createPersons env p g
  onWorld (addAttribute env persons "NAME" g.names)
  let own ← createStory env (helloStory persons)
  let duration ← onWorld (Snd.seeded env g.durations)
  let site ← onWorld (Snd.seeded env (g.choice (sites p g)))
  pure (Ops.setOperations env own (operations env fmt ⟨persons, 0, 0, duration, site, []⟩ .three))

/-- `step4` and `step5` (examples/tutorial/example1.py:158-216, 228-296), which differ by the weights of the sites -/
def step45 (st : Step) (p : Params) (g : Parts γ) (fmt : Int → Cell) :
    Act (Circus σ γ) (List (Op (World σ γ))) := do
  let persons ← createPersons env p g
  onWorld (addAttribute env persons "NAME" g.names)
  let sites ← onWorld (addSites env p g persons (siteWeights st))
  let own ← createStory env (helloStory persons)
  let duration ← onWorld (Snd.seeded env g.durations)
  pure (Ops.setOperations env own (operations env fmt ⟨persons, sites, 0, duration, .ref 0, []⟩ st))

/-- `step6` and `step7` (examples/tutorial/example1.py:308-415, 427-554), which differ by the operations -/
def step67 (st : Step) (p : Params) (g : Parts γ) (fmt : Int → Cell) :
    Act (Circus σ γ) (List (Op (World σ γ))) := do
  let persons ← createPersons env p g
  onWorld (addAttribute env persons "NAME" g.names)
  onWorld (addAttribute env persons "POPULARITY" g.popularity)
  let sites ← onWorld (addSites env p g persons (siteWeights st))
  let friends ← onWorld (addFriends env g persons)
  let own ← createStory env (helloStory persons)
  let duration ← onWorld (Snd.seeded env g.durations)
  let weights ← onWorld (popularities persons)
  pure (Ops.setOperations env own (operations env fmt ⟨persons, sites, friends, duration, .ref 0, weights⟩ st))

/-- what each step builds -/
def Step.build (st : Step) (p : Params) (g : Parts γ) (fmt : Int → Cell) : Act (Circus σ γ) (List (Op (World σ γ))) :=
  match st with
  | .one => step1 env p g fmt
  | .two => step2 env p g fmt
  | .three => step3 env p g fmt
  | .four | .five => step45 env st p g fmt
  | .six | .seven => step67 env st p g fmt

end Hello
end Trumania
