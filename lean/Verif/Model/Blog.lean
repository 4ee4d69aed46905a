import Verif.Model.Music
import Verif.Model.Networks

/-!
# Model of the examples 3 to 6 of `examples/datacamp-blogpost` (persons that send messages)

The four scripts up to the call of `run`, in the order of the code since they draw from the seeder of the circus. They
share most of their text, which is written once: the lines are those of the last one
(`06-the-social-network.py`, here `06`), and of the others (`03`, `04`, `05`) where they differ. The size of the
population is an argument. The objects of the generator classes are given by `Parts`: those that take a seed are
functions of it.
-/

namespace Trumania
namespace Blog
open Circus
variable {σ γ : Type} (env : Env σ γ)

/-- the generator objects of the scripts -/
structure Parts (γ : Type) where
  /-- `SequencialGenerator(prefix="PERSON_")` (examples/datacamp-blogpost/06-the-social-network.py:36) -/
  personIds : γ
  /-- `NumpyRandomGenerator(method="normal", loc=3, scale=5, seed=...)` (examples/datacamp-blogpost/06-the-social-network.py:37-38) -/
  ages : Int → γ
  /-- `FakerGenerator(method="name", seed=...)` (examples/datacamp-blogpost/06-the-social-network.py:39) -/
  names : Int → γ
  /-- `FakerGenerator(method="sentence", ..., seed=...)` (examples/datacamp-blogpost/06-the-social-network.py:45-46) -/
  quotes : Int → γ
  /-- `DefaultDailyTimerGenerator(clock=..., seed=...)` (examples/datacamp-blogpost/06-the-social-network.py:59-61) -/
  timer : Int → γ
  /-- a `NumpyRandomGenerator(method="choice", a=..., p=..., seed=...)`: that of the activities
  (examples/datacamp-blogpost/06-the-social-network.py:67-71), and the one that `PopulationOps.select_one` makes
  (population.py:415-419) -/
  choice : List Val → Option (List Rat) → Int → γ
  /-- the edges of `networkx.fast_gnp_random_graph` (erdos_renyi.py:54), from the size, the probability and the seed -/
  graph : Nat → Rat → Int → List (Nat × Nat)

/-- the scripts -/
inductive Post where
  | three | four | five | six
deriving DecidableEq

/-! ### Populations and relationships -/

/-- examples/datacamp-blogpost/06-the-social-network.py:36-43 -/
def createPersons (n : Nat) (g : Parts γ) : Act (Circus σ γ) Nat := do
  let ids ← onWorld (Snd.addGenerator g.personIds)
  let ages ← onWorld (Snd.seeded env g.ages)
  let names ← onWorld (Snd.seeded env g.names)
  let person ← createPopulation env "person" (.generated ids n)
  onWorld (Snd.createDrawn env person "NAME" names)
  onWorld (Snd.createDrawn env person "AGE" ages)
  pure person

/-- one more quote for each person (examples/datacamp-blogpost/06-the-social-network.py:51-55) -/
def addQuote (person rel : Nat) (gen : GenRef) (weight : Rat) : Act (World σ γ) Unit := do
  let q ← World.getPop person
  let cells ← World.generate env gen q.size
  let tos ← Act.ofPy (cells.mapM Cell.asVal)
  addRelations env rel q.ids tos (.scalar weight)

/-- the relationship `quotes` (examples/datacamp-blogpost/06-the-social-network.py:45-55), with weights `range(4)` -/
def addQuotes (g : Parts γ) (person : Nat) : Act (World σ γ) Unit := do
  let gen ← Snd.seeded env g.quotes
  let rel ← createRelationship env person "quotes" none
  Act.forEach (addQuote env person rel gen) [0, 1, 2, 3]

/-! ### The story -/

/-- one day -/
def day : Int := nsPerDay

/-- the timer and the activities of the scripts 5 and 6 (examples/datacamp-blogpost/06-the-social-network.py:59-71) -/
def addActivity (g : Parts γ) : Act (World σ γ) (GenRef × GenRef) := do
  let timer ← Snd.seeded env g.timer
  let low ← Act.ofPy (CyclicTimer.activity defaultDailyConfig 3 day)
  let med ← Act.ofPy (CyclicTimer.activity defaultDailyConfig 10 day)
  let high ← Act.ofPy (CyclicTimer.activity defaultDailyConfig 20 day)
  let activity ← Snd.seeded env (g.choice [.num low, .num med, .num high] (some [2/10, 7/10, 1/10]))
  pure (timer, activity)

/-- `create_story` with a constant timer (examples/datacamp-blogpost/03-someone-to-say-hello-world-to.py:26-31,
04-you-always-say-that.py:43-48), or with a timer and activities (examples/datacamp-blogpost/06-the-social-network.py:73-80) -/
def helloStory (person : Nat) : Option (GenRef × GenRef) → World.StoryConfig
  | none => { name := "hello_world", population := person, idField := "PERSON_ID", timerGen := .constant (.num 1) }
  | some (timer, activity) =>
    { name := "hello_world", population := person, idField := "PERSON_ID", timerGen := timer, activity := activity }

/-- `clock.ops.timestamp(named_as="TIME")` (examples/datacamp-blogpost/06-the-social-network.py:83) -/
def timestamp (fmt : Int → Cell) : Op (World σ γ) := Ops.timestamp env "TIME" true fmt

/-- `ConstantGenerator(value="hello world").ops.generate(named_as="MESSAGE")`
(examples/datacamp-blogpost/03-someone-to-say-hello-world-to.py:35) -/
def hello : Op (World σ γ) := Ops.randomValues env (.constant (.str "hello world")) "MESSAGE" none

/-- examples/datacamp-blogpost/06-the-social-network.py:85-86 -/
def quote (rel : Nat) : Op (World σ γ) := Ops.selectOne env rel "PERSON_ID" "MESSAGE" false false false none

/-- `population.ops.select_one(named_as="OTHER_PERSON")` (examples/datacamp-blogpost/03-someone-to-say-hello-world-to.py:37) -/
def anyone (choice : GenRef) : Op (World σ γ) := Ops.randomValues env choice "OTHER_PERSON" none

/-- examples/datacamp-blogpost/06-the-social-network.py:88-90 -/
def friend (rel : Nat) : Op (World σ γ) := Ops.selectOne env rel "PERSON_ID" "OTHER_PERSON" false false false none

/-- examples/datacamp-blogpost/06-the-social-network.py:92-93 -/
def emitter (person : Nat) : Op (World σ γ) := Ops.lookup person "PERSON_ID" [("NAME", "EMITTER_NAME")]

/-- examples/datacamp-blogpost/06-the-social-network.py:95-96 -/
def receiver (person : Nat) : Op (World σ γ) := Ops.lookup person "OTHER_PERSON" [("NAME", "RECEIVER_NAME")]

/-- the log of each script (examples/datacamp-blogpost/03-someone-to-say-hello-world-to.py:45,
04-you-always-say-that.py:64, 05-it-aint-what-yo-do-it-s-the-time-that-you-do-it.py:81, 06-the-social-network.py:98) -/
def Post.logId : Post → String
  | .three => "hello_3"
  | .four => "hello_4"
  | .five => "hello_5"
  | .six => "hello_6"

/-- The objects that the operations use: the persons, the relationships of their quotes and of their friends, and the
generator that draws among them -/
structure Cast where
  person : Nat
  quotes : Nat
  friends : Nat
  choice : GenRef

/-- what is said -/
def message (x : Cast) : Post → Op (World σ γ)
  | .three => hello env
  | _ => quote env x.quotes

/-- to whom -/
def other (x : Cast) : Post → Op (World σ γ)
  | .six => friend env x.friends
  | _ => anyone env x.choice

/-- the operations of the story (examples/datacamp-blogpost/06-the-social-network.py:82-99, and the same of the others) -/
def operations (fmt : Int → Cell) (x : Cast) (p : Post) : List (Op (World σ γ)) :=
  [timestamp env fmt, message env x p, other env x p, emitter x.person, receiver x.person,
    Ops.fieldLogger p.logId [] []]

/-- the generator of `population.ops.select_one` (population.py:383-421) -/
def choiceIn (g : Parts γ) (person : Nat) : Act (World σ γ) GenRef := do
  let q ← World.getPop person
  let (a, p) ← Act.ofPy (q.selectOneParams none)
  Snd.seeded env (g.choice a p)

/-! ### The scripts -/

/-- `03-someone-to-say-hello-world-to.py` (examples/datacamp-blogpost/03-someone-to-say-hello-world-to.py:12-46) -/
def threePost (n : Nat) (g : Parts γ) (fmt : Int → Cell) : Act (Circus σ γ) (List (Op (World σ γ))) := do
  let person ← createPersons env n g
  let own ← createStory env (helloStory person none)
  let choice ← onWorld (choiceIn env g person)
  pure (Ops.setOperations env own (operations env fmt ⟨person, 0, 0, choice⟩ .three))

/-- `04-you-always-say-that.py` (examples/datacamp-blogpost/04-you-always-say-that.py:12-65) -/
def fourPost (n : Nat) (g : Parts γ) (fmt : Int → Cell) : Act (Circus σ γ) (List (Op (World σ γ))) := do
  let person ← createPersons env n g
  onWorld (addQuotes env g person)
  let own ← createStory env (helloStory person none)
  let quotes ← onWorld (Snd.relNamed person "quotes")
  let choice ← onWorld (choiceIn env g person)
  pure (Ops.setOperations env own (operations env fmt ⟨person, quotes, 0, choice⟩ .four))

/-- `05-it-aint-what-yo-do-it-s-the-time-that-you-do-it.py`
(examples/datacamp-blogpost/05-it-aint-what-yo-do-it-s-the-time-that-you-do-it.py:13-82) -/
def fivePost (n : Nat) (g : Parts γ) (fmt : Int → Cell) : Act (Circus σ γ) (List (Op (World σ γ))) := do
  let person ← createPersons env n g
  onWorld (addQuotes env g person)
  let gens ← onWorld (addActivity env g)
  let own ← createStory env (helloStory person (some gens))
  let quotes ← onWorld (Snd.relNamed person "quotes")
  let choice ← onWorld (choiceIn env g person)
  pure (Ops.setOperations env own (operations env fmt ⟨person, quotes, 0, choice⟩ .five))

/-- `Calling_scenario` (examples/datacamp-blogpost/06-the-social-network.py:14-99) -/
def sixPost (n : Nat) (g : Parts γ) (fmt : Int → Cell) : Act (Circus σ γ) (List (Op (World σ γ))) := do
  let person ← createPersons env n g
  onWorld (addQuotes env g person)
  onWorld (addErNetwork env g.graph person "friends" 20)
  let gens ← onWorld (addActivity env g)
  let own ← createStory env (helloStory person (some gens))
  let quotes ← onWorld (Snd.relNamed person "quotes")
  let friends ← onWorld (Snd.relNamed person "friends")
  pure (Ops.setOperations env own (operations env fmt ⟨person, quotes, friends, .ref 0⟩ .six))

/-- what each script builds -/
def Post.build (p : Post) (n : Nat) (g : Parts γ) (fmt : Int → Cell) : Act (Circus σ γ) (List (Op (World σ γ))) :=
  match p with
  | .three => threePost env n g fmt
  | .four => fourPost env n g fmt
  | .five => fivePost env n g fmt
  | .six => sixPost env n g fmt

end Blog
end Trumania
