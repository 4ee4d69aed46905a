import Verif.Model.World
import Verif.Model.Csv
import Verif.Model.Generators

/-!
# Model of `trumania/core/circus.py` (creation of objects, run, logs)

Names of populations and generators are kept in the `Circus`, the objects in its `World`.
-/

namespace Trumania

/-- A `Circus` (circus.py:30-39). `start` and `step` are the `clock_params`; the dictionaries map names
to references. -/
structure Circus (σ γ : Type) where
  name : String
  masterSeed : Int
  start : Int
  step : Int
  world : World σ γ
  populations : Dict String Nat
  generators : Dict String Nat

/-- arguments of `Population.__init__` (population.py:15), the generator being a reference -/
inductive PopInit where
  | ids (l : List Val)
  | generated (g : GenRef) (size : Nat)
  | both
  | neither

namespace Circus
variable {σ γ : Type}

/-- `Circus.__init__` (circus.py:20-39) -/
def new (R : Rng σ) (name : String) (masterSeed start step : Int) : Py (Circus σ γ) := do
  let (seed, s) ← nextSeed R (R.seed masterSeed)
  .ok { name, masterSeed, start, step
        world := { clock := Clock.new R start step seed, seeder := s, rels := [], pops := [],
                   stories := [] }
        populations := [], generators := [] }

variable (env : Env σ γ)

/-- an action on the objects of the circus -/
def onWorld {α : Type} (a : Act (World σ γ) α) : Act (Circus σ γ) α := fun c =>
  match a c.world with
  | .ok r w => .ok r { c with world := w }
  | .error e w => .error e { c with world := w }

/-- `Population.__init__` (population.py:15-55): the generator is only used for a positive size -/
def newPopulation : PopInit → Act (World σ γ) Population
  | .ids l => Act.ofPy (Population.new (.ids l))
  | .generated g size =>
    if size = 0 then Act.ofPy (Population.new (.generated [] 0))
    else do
      let cells ← World.generate env g (size : Rat)
      let ids ← Act.ofPy (cells.mapM Cell.asVal)
      Act.ofPy (Population.new (.generated ids size))
  | .both => Act.ofPy (Population.new .both)
  | .neither => Act.ofPy (Population.new .neither)

/-- a new object, and its reference -/
def appendPop (p : Population) : Act (World σ γ) Nat := fun w =>
  .ok w.pops.length { w with pops := w.pops ++ [p] }

/-- a new object, and its reference -/
def appendRel (r : Relationship σ) : Act (World σ γ) Nat := fun w =>
  .ok w.rels.length { w with rels := w.rels ++ [r] }

/-- `create_population` (circus.py:41-51): refuses a name in use -/
def createPopulation (name : String) (init : PopInit) : Act (Circus σ γ) Nat := do
  let c ← get
  if c.populations.contains name then throw .valueError
  else do
    let p ← onWorld (newPopulation env init)
    let i ← onWorld (appendPop p)
    modify fun c => { c with populations := c.populations.set name i }
    pure i

/-- `load_population` (circus.py:53-66), once the population is loaded: a population of that name is
replaced -/
def attachPopulation (name : String) (p : Population) : Act (Circus σ γ) Nat := do
  let i ← onWorld (appendPop p)
  modify fun c => { c with populations := c.populations.set name i }
  pure i

/-- `create_story` (circus.py:68-83) -/
def createStory (cfg : World.StoryConfig) : Act (Circus σ γ) Nat :=
  onWorld (World.createStory env cfg)

/-- `attach_generator` (circus.py:103-112): refuses an id in use -/
def attachGenerator (name : String) (g : Nat) : Act (Circus σ γ) Unit := do
  let c ← get
  if c.generators.contains name then throw .valueError
  else modify fun c => { c with generators := c.generators.set name g }

/-- `next(self.circus.seeder)` -/
def drawSeed : Act (World σ γ) Int := do
  let w ← get
  let (x, s) ← Act.ofPy (nextSeed env.R w.seeder)
  set { w with seeder := s }
  pure x

/-- `Population.create_relationship` (population.py:57-69) of the population `pop`. The test of line 62
compares the name with the dictionary itself, and is never true. A seed 0 is taken for no seed. -/
def createRelationship (pop : Nat) (name : String) (seed : Option Int) :
    Act (World σ γ) Nat := do
  let seed ← match seed with
    | some s => if s = 0 then drawSeed env else pure s
    | none => drawSeed env
  let i ← appendRel (Relationship.new env.R seed)
  let p ← World.getPop pop
  World.setPop pop { p with relationships := p.relationships.set name i }
  pure i

end Circus

/-! ### Runs -/

/-- a circus and the files -/
structure Sys (σ γ : Type) where
  circus : Circus σ γ
  fs : FS

namespace Sys
variable {σ γ : Type}

/-- an action on the objects of the circus -/
def onWorld {α : Type} (a : Act (World σ γ) α) : Act (Sys σ γ) α := fun s =>
  match a s.circus.world with
  | .ok r w => .ok r { s with circus := { s.circus with world := w } }
  | .error e w => .error e { s with circus := { s.circus with world := w } }

/-- an action on the files -/
def onFiles {α : Type} (a : Act FS α) : Act (Sys σ γ) α := fun s =>
  match a s.fs with
  | .ok r fs => .ok r { s with fs }
  | .error e fs => .error e { s with fs }

/-- texts of the cells of a frame; `fmt` is the formatting of one value by `to_csv` -/
def cellTexts (fmt : Cell → Text) (f : Frame) : List (List Text) :=
  f.rows.map fun r => r.cells.map fmt

/-- `logs.to_csv(..., index=False, header=header)` -/
def logText (fmt : Cell → Text) (header : Bool) (f : Frame) : Text :=
  writeCsv header (f.cols.map String.toList) (cellTexts fmt f)

/-- `os.path.join(folder, "{}.csv".format(log_id))`, for log ids that are no paths -/
def logFile (folder : Path) (logId : String) : Path := folder ++ [logId ++ ".csv"]

/-- the part of `save_logs` that writes (circus.py:136-148) -/
def appendLogs (fmt : Cell → Text) (folder : Path) (logId : String) (logs : Frame) : Act FS Unit :=
  if logs.rows ≠ [] then do
    let fs ← get
    if ¬ fs.pathExists (logFile folder logId) then
      FS.writeFile (logFile folder logId) (logText fmt true logs)
    else FS.appendFile (logFile folder logId) (logText fmt false logs)
  else pure ()

/-- `save_logs` (circus.py:124-148); the creation of the folder (lines 133-134) is that of
`ensure_folder_exists` -/
def saveLogs (fmt : Cell → Text) (folder : Path) (logId : String) (logs : Frame) : Act FS Unit := do
  FS.ensureFolderExists folder
  appendLogs fmt folder logId logs

/-- the loop on the logs of one execution (circus.py:182-183) -/
def saveAll (fmt : Cell → Text) (folder : Path) (logs : Logs) : Act FS Unit :=
  Act.forEach (fun x : String × Frame => saveLogs fmt folder x.1 x.2) logs

variable (env : Env σ γ) (fmt : Cell → Text) (folder : Path)

/-- one execution and its logs (circus.py:182-183) -/
def runStory (ops : List (Op (World σ γ))) (i : Nat) : Act (Sys σ γ) Unit := do
  let logs ← onWorld (World.execute env ops i)
  onFiles (saveAll fmt folder logs)

/-- the executions of one step (circus.py:181-183): `chains` holds the operations of the stories, in
order of creation -/
def runStories (chains : List (List (Op (World σ γ)))) : Act (Sys σ γ) Unit :=
  Act.forEach (fun x : List (Op (World σ γ)) × Nat => runStory env fmt folder x.1 x.2) chains.zipIdx

/-- the main loop (circus.py:178-185) -/
def runSteps (chains : List (List (Op (World σ γ)))) : Nat → Act (Sys σ γ) Unit
  | 0 => pure ()
  | n + 1 => do
    runStories env fmt folder chains
    onWorld (modify (World.tickClock env))
    runSteps chains n

/-- `run` (circus.py:150-185). `so` is the order of the directory listings, `fuel` bounds the depth of
the deleted folder. -/
def run (so : SetOrder String) (fuel : Nat) (chains : List (List (Op (World σ γ))))
    (duration : Int) (delete : Bool) : Act (Sys σ γ) Unit := do
  let s ← get
  let n ← Act.ofPy (s.circus.world.clock.nIterations duration)
  if s.fs.pathExists folder then
    if delete then do
      onFiles (FS.ensureNonExistingDir so fuel folder)
      runSteps env fmt folder chains n.toNat
    else throw .environmentError
  else runSteps env fmt folder chains n.toNat

end Sys

end Trumania
