import Verif.Model.Story
import Verif.Model.Population

/-!
# The objects of a circus, chains of operations, execution of stories

`World` holds all the mutable objects an operation can touch; operations hold references (positions
in the lists of the `World`). Operations are functions, so the operation chains of the stories are
kept outside of the `World`: nothing in the modelled code changes a chain during a run.
-/

namespace Trumania

/-- Behaviour of generator objects, of states `γ`. -/
structure GenSem (γ : Type) where
  /-- `Generator.generate(size=...)` (random_generators.py:39-48) -/
  generate : γ → Rat → Py (List Cell × γ)
  /-- `DependentGenerator.generate(observations=...)` (random_generators.py:426-437) -/
  observe : γ → List Cell → Py (List Cell × γ)
  /-- what the object does when the clock is incremented: `increment` for the cyclic timers, which
  register themselves (clock.py:187), nothing for the others -/
  tick : γ → γ
  /-- does `generate(size=...)` return a numpy array (a list otherwise) -/
  isArray : γ → Bool
  /-- can `generate(observations)` be given samples that are not a pandas Series: an array (`true`) or
  a list -/
  accepts : γ → Bool → Py Unit

/-- what Python, numpy and the generators leave open -/
structure Env (σ γ : Type) where
  R : Rng σ
  orders : Orders
  /-- iteration order of sets of log ids -/
  logSet : SetOrder String
  sem : GenSem γ

/-- All the objects of a circus (circus.py:30-39). The generators are kept in the list of the
listeners of the clock: those that are no listeners ignore the increments. -/
structure World (σ γ : Type) where
  clock : Clock σ γ
  seeder : σ
  rels : List (Relationship σ)
  pops : List Population
  stories : List (Story σ)

namespace World
variable {σ γ : Type}

/-- the generator objects -/
def gens (w : World σ γ) : List γ := w.clock.listeners

/-- access to an object by reference -/
def fetch {α : Type} (l : World σ γ → List α) (i : Nat) : Act (World σ γ) α := fun w =>
  match (l w)[i]? with
  | some a => .ok a w
  | none => .error .attributeError w

def getGen (i : Nat) : Act (World σ γ) γ := fetch gens i
def getRel (i : Nat) : Act (World σ γ) (Relationship σ) := fetch rels i
def getPop (i : Nat) : Act (World σ γ) Population := fetch pops i
def getStory (i : Nat) : Act (World σ γ) (Story σ) := fetch stories i

def setGen (i : Nat) (g : γ) : Act (World σ γ) Unit :=
  modify fun w => { w with clock := { w.clock with listeners := w.clock.listeners.set i g } }
def setRel (i : Nat) (r : Relationship σ) : Act (World σ γ) Unit :=
  modify fun w => { w with rels := w.rels.set i r }
def setPop (i : Nat) (p : Population) : Act (World σ γ) Unit :=
  modify fun w => { w with pops := w.pops.set i p }
def setStory (i : Nat) (s : Story σ) : Act (World σ γ) Unit :=
  modify fun w => { w with stories := w.stories.set i s }

variable (env : Env σ γ)

/-- argument of a call of `generate`: a size, observations in a Series, or samples given by `flatmap`,
in an array or in a list -/
inductive Request where
  | size (n : Rat)
  | series (obs : List Cell)
  | samples (array : Bool) (obs : List Cell)

/-- does the generator return a numpy array; `map` and `flatmap` always make lists
(random_generators.py:69, 72) -/
def isArray : GenRef → Act (World σ γ) Bool
  | .ref i => do
    let g ← getGen i
    pure (env.sem.isArray g)
  | _ => pure false

/-- `DependentBulkGenerator.generate` (random_generators.py:535-540): one call of the element generator
per observation, in order -/
def bulkLoop (f : Rat → Act (World σ γ) (List Cell)) : List Cell → Act (World σ γ) (List Cell)
  | [] => pure []
  | c :: cs => do
    let n ← Act.ofPy c.asNum
    let v ← f n
    let vals ← Act.ofPy (v.mapM Cell.asVal)
    let rest ← bulkLoop f cs
    pure (.list vals :: rest)

/-- `generator.generate(...)`. The samples of the parent of a mapped generator are drawn first
(random_generators.py:64). A constant dependent generator needs `observations.index`
(random_generators.py:486): an array has no such attribute, and the one of lists is a method, rejected by
`pd.Series`. Calls with an argument of the wrong kind raise `TypeError`. -/
def call : GenRef → Request → Act (World σ γ) (List Cell)
  | .constant v, .size n => pure (List.replicate (pyInt n).toNat v)
  | .constant v, .series obs => pure (obs.map fun _ => v)
  | .constant _, .samples array _ => throw (if array then .attributeError else .typeError)
  | .ref i, .size n => do
    let g ← getGen i
    let (v, g) ← Act.ofPy (env.sem.generate g n)
    setGen i g
    pure v
  | .ref i, .series obs => do
    let g ← getGen i
    let (v, g) ← Act.ofPy (env.sem.observe g obs)
    setGen i g
    pure v
  | .ref i, .samples array obs => do
    let g ← getGen i
    Act.ofPy (env.sem.accepts g array)
    let (v, g) ← Act.ofPy (env.sem.observe g obs)
    setGen i g
    pure v
  | .mapped g f, .size n => do
    let v ← call g (.size n)
    Act.ofPy (v.mapM f)
  | .mappedVect g f, .size n => do
    let v ← call g (.size n)
    Act.ofPy (f v)
  | .flatmapped g dep, .size n => do
    let v ← call g (.size n)
    let array ← isArray env g
    call dep (.samples array v)
  | .bulk g, .series obs => bulkLoop (fun n => call g (.size n)) obs
  | .bulk g, .samples _ obs => bulkLoop (fun n => call g (.size n)) obs
  | .mapped _ _, _ => throw .typeError
  | .mappedVect _ _, _ => throw .typeError
  | .flatmapped _ _, _ => throw .typeError
  | .bulk _, .size _ => throw .typeError

/-- `generator.generate(size=size)` -/
def generate (g : GenRef) (size : Rat) : Act (World σ γ) (List Cell) := call env g (.size size)

/-- `generator.generate(observations=obs)` -/
def observe (g : GenRef) (obs : List Cell) : Act (World σ γ) (List Cell) := call env g (.series obs)

/-! ### Methods of stories, as actions -/

/-- a method of a story that only touches this story -/
def onStory (i : Nat) (f : Story σ → Py (Story σ)) : Act (World σ γ) Unit := do
  let s ← getStory i
  let s ← Act.ofPy (f s)
  setStory i s

/-- `reset_timers(ids)` (story.py:143-179) on a story: the new story, the timer generator being
updated in the world. The generators made by `map` have no `observations` parameter. A bulk generator,
whose values are lists, is not modelled as timer generator: it is rejected. -/
def resetStory (s : Story σ) (ids : Option (List Val)) : Act (World σ γ) (Story σ) :=
  match s.timerGen with
  | .constant v => do
    let (s, _) ← Act.ofPy (s.resetTimers (fun u obs => .ok (obs.map fun _ => v, u)) () ids)
    pure s
  | .ref j => do
    let g ← getGen j
    let (s, g) ← Act.ofPy (s.resetTimers env.sem.observe g ids)
    setGen j g
    pure s
  | _ => do
    let (s, _) ← Act.ofPy (s.resetTimers (fun _ _ => .error .typeError) () ids)
    pure s

/-- `story.reset_timers(ids)` (story.py:143-179) -/
def resetTimers (i : Nat) (ids : Option (List Val)) : Act (World σ γ) Unit := do
  let s ← getStory i
  let s ← resetStory env s ids
  setStory i s

/-! ### Chains -/

/-- `Chain._execute_operation` (operations.py:55-68) -/
def executeOperation {W : Type} (logSet : SetOrder String) (acc : Frame × Logs) (op : Op W) :
    Act W (Frame × Logs) := do
  let (output, supp) ← op acc.1
  let logs ← Act.ofPy (merge_dicts logSet [acc.2, supp]
    (some fun d1 d2 => .ok (Frame.concat d1 d2)))
  pure (output, logs)

/-- `functools.reduce(_execute_operation, ...)` -/
def runOps {W : Type} (logSet : SetOrder String) (acc : Frame × Logs) :
    List (Op W) → Act W (Frame × Logs)
  | [] => pure acc
  | op :: ops => do
    let acc ← executeOperation logSet acc op
    runOps logSet acc ops

/-- `Chain.__call__` (operations.py:70-72) -/
def chain {W : Type} (logSet : SetOrder String) (ops : List (Op W)) : Op W := fun data =>
  runOps logSet (data, []) ops

/-! ### Execution of a story -/

/-- what follows the operations (story.py:208-213): reschedules the acting members, or ticks them
without auto-reset -/
def reschedule (i : Nat) (active : List Val) : Act (World σ γ) Unit := do
  let s ← getStory i
  if s.autoReset then resetTimers env i (some active)
  else onStory i fun s => s.timerTick active

/-- the part of `execute` that runs the operations if some members act (story.py:200-213) -/
def runActive (ops : List (Op (World σ γ))) (i : Nat) (s : Story σ) (active : List Val) :
    Act (World σ γ) Logs :=
  if active = [] then pure []
  else do
    let (_, logs) ← chain env.logSet ops (Story.initStoryData s.idField active)
    reschedule env i active
    pure logs

/-- `Story.execute` (story.py:189-216) of the story `i`, whose operation chain is `ops` -/
def execute (ops : List (Op (World σ γ))) (i : Nat) : Act (World σ γ) Logs := do
  onStory i fun s => .ok s.clearForced
  let s ← getStory i
  let logs ← runActive env ops i s s.activeIds
  onStory i fun t => t.timerTick s.inactiveIds
  pure logs

/-- `Clock.increment` (clock.py:47-56) on the clock of the circus -/
def tickClock (w : World σ γ) : World σ γ :=
  { w with clock := w.clock.increment env.sem.tick }

/-! ### Creation of stories -/

/-- the two generators of one state (story.py:56-59) -/
structure StateGens where
  activity : GenRef
  back : GenRef

/-- a generated column of numbers -/
def numbers (cells : List Cell) : Py (List Rat) := cells.mapM Cell.asNum

/-- the loop of the constructor (story.py:60-66) -/
def storyParams (ids : List Val) (size : Nat) :
    List (Val × StateGens) → Dict Val (Dict Val StateParams) →
      Act (World σ γ) (Dict Val (Dict Val StateParams))
  | [], params => pure params
  | (state, g) :: rest, params => do
    let activity ← generate env g.activity (size : Rat)
    let back ← generate env g.back (size : Rat)
    let activity ← Act.ofPy (numbers activity)
    let back ← Act.ofPy (numbers back)
    let params ← Act.ofPy (Story.addState ids params state activity back)
    storyParams ids size rest params

/-- parameters of `create_story` / `Story.__init__` (story.py:11-15) -/
structure StoryConfig where
  name : String
  population : Nat
  idField : String
  activity : GenRef := .constant (.num 1)
  states : Option (Dict Val StateGens) := none
  timerGen : GenRef := .constant (.num (-1))
  autoReset : Bool := true

/-- `self.reset_timers()` at the end of the constructor (story.py:71-72) -/
def initialReset (s : Story σ) : Act (World σ γ) (Story σ) :=
  if s.autoReset then resetStory env s none else pure s

/-- `Story.__init__` (story.py:11-78) for a population -/
def newStory (cfg : StoryConfig) (p : Population) : Act (World σ γ) (Story σ) := do
  let states ← Act.ofPy (merge_2_dicts env.orders.set
    (some [(defaultState, ⟨cfg.activity, .constant (.num 1)⟩)]) cfg.states)
  let params ← storyParams env p.ids p.size states (p.ids.map fun i => (i, []))
  initialReset env
    { name := cfg.name, population := cfg.population, idField := cfg.idField
      timerGen := cfg.timerGen, autoReset := cfg.autoReset, judge := env.R.seed 1234
      states := states.keys, params
      timer := p.ids.map fun i => ⟨i, defaultState, some (-1)⟩
      forced := [] }

/-- `self.stories.append(story)`; returns the reference of the story -/
def appendStory (s : Story σ) : Act (World σ γ) Nat := fun w =>
  .ok w.stories.length { w with stories := w.stories ++ [s] }

/-- `Circus.get_story(name)` (circus.py:85-95): the reference of the first story of that name -/
def findStory (w : World σ γ) (name : String) : Option Nat :=
  w.stories.findIdx? (fun s => decide (s.name = name))

/-- `Circus.create_story` (circus.py:68-83): refuses a name in use; returns the reference of the new
story -/
def createStory (cfg : StoryConfig) : Act (World σ γ) Nat := do
  let w ← get
  match w.findStory cfg.name with
  | some _ => throw .valueError
  | none => do
    let p ← getPop cfg.population
    let s ← newStory env cfg p
    appendStory s

end World

end Trumania
