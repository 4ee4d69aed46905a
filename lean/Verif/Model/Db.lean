import Verif.Model.Persistence
import Verif.Model.AnyGen

/-!
# Model of `trumania/components/db.py` and of the saving and loading of attributes, populations and circuses

`Attribute.save_to/load_from`, `Population.save_to/load_from`, `Circus.save_to_db/load_from_db`.
Ids and names are single path components. Loading only reads files, so the functions that load take the
files as argument.
-/

namespace Trumania

/-! ### Attributes -/

namespace Attribute
variable (F : TextFormat)

/-- `save_to` (attribute.py:92-94): text of the file. The name of the index, if any, is not modelled:
it is ignored when loading. -/
def saveText (a : Attribute) : Text :=
  writeCsv true [[], "value".toList] (a.table.map fun kv => [F.val kv.1, F.cell kv.2])

/-- `load_from` (attribute.py:96-109), on the text of the file -/
def loadText (t : Text) : Py Attribute := do
  let file ← readCsv t
  let ids := F.infer (file.2.map fun row => row.getD 0 [])
  let values := F.infer (file.2.map fun row => row.getD 1 [])
  Attribute.new ids.length ids (values.map Cell.scalar)

end Attribute

/-! ### Reading files -/

namespace FS

/-- the content of a file (as `readFile`) -/
def read (fs : FS) (p : Path) : Py Text :=
  match fs.get? p with
  | some (.file t) => .ok t
  | _ => .error .environmentError

/-- `os.listdir(p)` (as `listdir`) -/
def list (so : SetOrder String) (fs : FS) (p : Path) : Py (List String) :=
  if fs.isDir p then .ok (so.order (fs.children p)) else .error .environmentError

end FS

/-- a dictionary comprehension: the last value of a key wins -/
def Dict.ofPairs {κ ν : Type} [DecidableEq κ] (l : List (κ × ν)) : Dict κ ν :=
  l.foldl (fun d kv => d.set kv.1 kv.2) []

/-! ### Populations -/

/-- `filename[:-4]` -/
def stem (filename : String) : String := String.ofList (filename.toList.take (filename.length - 4))

namespace Population
variable {σ : Type} (F : TextFormat)

/-- the file of the ids (population.py:206-207): a column of name 0 -/
def idsText (ids : List Val) : Text := writeCsv true ["0".toList] (ids.map fun v => [F.val v])

/-- reading of the ids (population.py:235 and 260): without header, the name of the column being read as
the first value, and removed afterwards -/
def readIds (t : Text) : Py (List Val) := do
  let lines ← csvLines t
  if lines.all fun l => l.length == 1 then
    .ok ((F.infer (lines.map fun l => l.getD 0 [])).drop 1)
  else .error .valueError

/-- a folder of CSV files (population.py:211-215 and 217-222): only created if there is something to
write -/
def saveItems (folder : Path) (items : List (String × Py Text)) : Act FS Unit :=
  if items = [] then pure ()
  else do
    FS.mkdir folder
    Act.forEach (fun x : String × Py Text => do
      let t ← Act.ofPy x.2
      FS.writeFile (folder ++ [x.1 ++ ".csv"]) t) items

/-- text of the relationship of reference `i` -/
def relText (env : Orders) (rels : List (Relationship σ)) (i : Nat) : Py Text :=
  match rels[i]? with
  | some r => .ok (r.saveText F env)
  | none => .error .attributeError

/-- `Population.save_to` (population.py:193-222); `rels` are the relationships of the circus -/
def saveTo (so : SetOrder String) (fuel : Nat) (env : Orders) (rels : List (Relationship σ))
    (folder : Path) (p : Population) : Act FS Unit := do
  FS.ensureNonExistingDir so fuel folder
  FS.makedirs folder
  FS.writeFile (folder ++ ["ids.csv"]) (idsText F p.ids)
  saveItems (folder ++ ["attributes"]) (p.attributes.map fun x => (x.1, .ok (x.2.saveText F)))
  saveItems (folder ++ ["relationships"]) (p.relationships.map fun x => (x.1, relText F env rels x.2))

/-- a folder of CSV files read as a dictionary (population.py:237-245 and 247-255) -/
def loadItems {α : Type} (so : SetOrder String) (load : Text → Py α) (fs : FS) (folder : Path) :
    Py (Dict String α) :=
  if fs.pathExists folder then do
    let names ← FS.list so fs folder
    let items ← names.mapM fun name => do
      let t ← fs.read (folder ++ [name])
      let a ← load t
      .ok (stem name, a)
    .ok (Dict.ofPairs items)
  else .ok []

/-- what `load_from` reads -/
structure Loaded (σ : Type) where
  ids : List Val
  attributes : Dict String Attribute
  relationships : Dict String (Relationship σ)

/-- `Population.load_from` (population.py:224-263) -/
def loadFrom (so : SetOrder String) (R : Rng σ) (env : Orders) (fs : FS) (folder : Path) :
    Py (Loaded σ) := do
  let t ← fs.read (folder ++ ["ids.csv"])
  let ids ← readIds F t
  let attributes ← loadItems so (Attribute.loadText F) fs (folder ++ ["attributes"])
  let relationships ← loadItems so (Relationship.loadText F R env) fs (folder ++ ["relationships"])
  .ok { ids, attributes, relationships }

end Population

/-! ### Circuses -/

/-- How the files of a circus other than tables are written and read: `circus_config.json` (master seed,
start, step) and the generators. -/
structure DbFormat (γ : Type) where
  text : TextFormat
  /-- `json.dump` of the configuration (circus.py:238-243) -/
  dumpConfig : Int → Int → Int → Text
  /-- `json.load` and conversions (circus.py:195-202) -/
  loadConfig : Text → Py (Int × Int × Int)
  /-- `generator.__class__.__name__` -/
  className : γ → String
  /-- `save_to`, the text of the file. If it raises, a part of the file may have been written: this is not
  modelled. -/
  dumpGen : γ → Py Text
  /-- `Generator.load_generator` (random_generators.py:98-104), on the result of reading the file: the type
  is checked first -/
  loadGen : String → Py Text → Py γ

/-- `gen_file.split(".")[0]` -/
def beforeDot (s : String) : String := String.ofList (s.toList.takeWhile fun c => decide (c ≠ '.'))

namespace Db
variable {σ γ : Type} (D : DbFormat γ)

/-- `namespace_folder` (db.py:117-118) -/
def namespaceFolder (db : Path) (name : String) : Path := db ++ [name]

/-- `_population_folder` (db.py:132-133) -/
def populationsFolder (db : Path) (name : String) : Path := namespaceFolder db name ++ ["populations"]

/-- `_generators_folder` (db.py:140-143) -/
def generatorsFolder (db : Path) (name : String) : Path := namespaceFolder db name ++ ["generators"]

/-- the configuration file (circus.py:193, 236) -/
def configFile (db : Path) (name : String) : Path := namespaceFolder db name ++ ["circus_config.json"]

/-- the loop on the populations (circus.py:246-248) -/
def savePopulations (so : SetOrder String) (fuel : Nat) (env : Orders) (db : Path)
    (c : Circus σ γ) : Act FS Unit :=
  Act.forEach (fun x : String × Nat =>
    match c.world.pops[x.2]? with
    | some p => p.saveTo D.text so fuel env c.world.rels (populationsFolder db c.name ++ [x.1])
    | none => throw .attributeError) c.populations

/-- `save_generator` (db.py:38-44) -/
def saveGenerator (db : Path) (name genId : String) (g : γ) : Act FS Unit := do
  FS.ensureFolderExists (generatorsFolder db name ++ [D.className g])
  let t ← Act.ofPy (D.dumpGen g)
  FS.writeFile (generatorsFolder db name ++ [D.className g, genId ++ ".json"]) t

/-- the loop on the generators (circus.py:251-252) -/
def saveGenerators (db : Path) (c : Circus σ γ) : Act FS Unit :=
  Act.forEach (fun x : String × Nat =>
    match c.world.gens[x.2]? with
    | some g => saveGenerator D db c.name x.1 g
    | none => throw .attributeError) c.generators

/-- the part of `save_to_db` that writes (circus.py:235-254) -/
def saveAll (so : SetOrder String) (fuel : Nat) (env : Orders) (db : Path) (c : Circus σ γ) :
    Act FS Unit := do
  FS.ensureFolderExists (namespaceFolder db c.name)
  FS.writeFile (configFile db c.name) (D.dumpConfig c.masterSeed c.start c.step)
  savePopulations D so fuel env db c
  saveGenerators D db c

/-- `Circus.save_to_db` (circus.py:215-254); `create_namespace` is `ensure_folder_exists` -/
def saveToDb (so : SetOrder String) (fuel : Nat) (env : Orders) (db : Path) (overwrite : Bool)
    (c : Circus σ γ) : Act FS Unit := do
  let fs ← get
  if fs.pathExists (namespaceFolder db c.name) then
    if overwrite then do
      FS.ensureNonExistingDir so fuel (namespaceFolder db c.name)
      saveAll D so fuel env db c
    else throw .environmentError
  else saveAll D so fuel env db c

/-- attaches a loaded population and its relationships to the circus (circus.py:63-66): they are new
objects -/
def attachLoaded (c : Circus σ γ) (name : String) (l : Population.Loaded σ) : Circus σ γ :=
  { c with
    world := { c.world with
      rels := c.world.rels ++ l.relationships.map Prod.snd
      pops := c.world.pops ++ [{
        ids := l.ids, size := l.ids.length, attributes := l.attributes
        relationships := l.relationships.zipIdx.map fun x => (x.1.1, c.world.rels.length + x.2) }] }
    populations := c.populations.set name c.world.pops.length }

/-- `list_populations` (db.py:32-35) -/
def listPopulations (so : SetOrder String) (fs : FS) (db : Path) (name : String) : Py (List String) := do
  let l ← FS.list so fs (populationsFolder db name)
  .ok (l.filter fun d => fs.isDir (populationsFolder db name ++ [d]))

/-- the loop on the populations (circus.py:207-208) -/
def loadPopulations (so : SetOrder String) (R : Rng σ) (env : Orders) (fs : FS) (db : Path)
    (c : Circus σ γ) (names : List String) : Py (Circus σ γ) :=
  names.foldlM (fun c name => do
    let l ← Population.loadFrom D.text so R env fs (populationsFolder db c.name ++ [name])
    .ok (attachLoaded c name l)) c

/-- `list_generators` (db.py:47-58) -/
def listGenerators (so : SetOrder String) (fs : FS) (db : Path) (name : String) :
    Py (List (String × String)) :=
  if fs.pathExists (generatorsFolder db name) then do
    let types ← FS.list so fs (generatorsFolder db name)
    let l ← types.mapM fun type => do
      let files ← FS.list so fs (generatorsFolder db name ++ [type])
      .ok (files.map fun f => (type, beforeDot f))
    .ok l.flatten
  else .ok []

/-- a new generator object, attached under `genId`; refused if the id is in use (circus.py:103-112) -/
def attachGen (c : Circus σ γ) (genId : String) (g : γ) : Py (Circus σ γ) :=
  if c.generators.contains genId then .error .valueError
  else .ok { c with
    world := { c.world with clock := { c.world.clock with listeners := c.world.clock.listeners ++ [g] } }
    generators := c.generators.set genId c.world.gens.length }

/-- `load_generator` (circus.py:114-122, db.py:61-66) -/
def loadGenerator (fs : FS) (db : Path) (c : Circus σ γ) (type genId : String) : Py (Circus σ γ) := do
  let g ← D.loadGen type (fs.read (generatorsFolder db c.name ++ [type, genId ++ ".json"]))
  attachGen c genId g

/-- the loop on the generators (circus.py:210-211) -/
def loadGenerators (fs : FS) (db : Path) (c : Circus σ γ) (l : List (String × String)) :
    Py (Circus σ γ) :=
  l.foldlM (fun c x => loadGenerator D fs db c x.1 x.2) c

/-- `Circus.load_from_db` (circus.py:188-213) -/
def loadFromDb (so : SetOrder String) (R : Rng σ) (env : Orders) (fs : FS) (db : Path) (name : String) :
    Py (Circus σ γ) := do
  let t ← fs.read (configFile db name)
  let cfg ← D.loadConfig t
  let c ← Circus.new R name cfg.1 cfg.2.1 cfg.2.2
  let names ← listPopulations so fs db name
  let c ← loadPopulations D so R env fs db c names
  let gens ← listGenerators so fs db name
  loadGenerators D fs db c gens

end Db

/-! ### Generators of the library -/

namespace AnyGen
variable {σ : Type}

/-- `generator.__class__.__name__` -/
def className : AnyGen σ → String
  | .constant _ => "ConstantGenerator"
  | .fixed _ => "FixedValuesGenerator"
  | .seq _ => "SequencialGenerator"
  | .uniform .. => "NumpyRandomGenerator"
  | .choice .. => "NumpyRandomGenerator"
  | .pareto .. => "ParetoGenerator"
  | .msisdn .. => "MSISDNGenerator"
  | .cyclic _ => "CyclicTimerGenerator"
  | .trigger .. => "DependentTriggerGenerator"
  | .bulk _ => "DependentBulkGenerator"

/-- the json documents of the generators: `SequencialGenerator.save_to` (random_generators.py:295-305) and
`NumpyRandomGenerator.save_to` (random_generators.py:195-209) -/
inductive Doc (σ : Type) where
  | seq (d : Dict String Json)
  | uniform (low high : Rat) (s : σ)
  | choice (a : List Val) (p : Option (List Rat)) (s : σ)

/-- the document of a generator; the other classes have no `save_to`, and that of the base class raises
`TypeError` by calling `NotImplemented` (random_generators.py:92-93) -/
def toDoc : AnyGen σ → Py (Doc σ)
  | .seq g => .ok (.seq g.saveTo)
  | .uniform lo hi s => .ok (.uniform lo hi s)
  | .choice a p s => .ok (.choice a p s)
  | _ => .error .typeError

/-- `SequencialGenerator.load_from` (random_generators.py:307-313) on a document -/
def seqOfDoc : Doc σ → Py (AnyGen σ)
  | .seq d => do .ok (.seq (← SeqGen.loadFrom d))
  | _ => .error .keyError

/-- `NumpyRandomGenerator.load_from` on a document: a loaded numpy generator draws from the state of seed
1234 (random_generators.py:211-233, see `NumpyGen.loadFrom`) -/
def numpyOfDoc (R : Rng σ) : Doc σ → Py (AnyGen σ)
  | .uniform lo hi _ => .ok (.uniform lo hi (R.seed 1234))
  | .choice a p _ => .ok (.choice a p (R.seed 1234))
  | _ => .error .keyError

/-- `Generator.load_generator` (random_generators.py:98-104); `read` is the result of reading the
document, that a type without loader does not need -/
def ofDoc (R : Rng σ) (type : String) (read : Py (Doc σ)) : Py (AnyGen σ) :=
  if type = "SequencialGenerator" then do seqOfDoc (← read)
  else if type = "NumpyRandomGenerator" then do numpyOfDoc R (← read)
  else .error .valueError

/-- the files of a circus that has the generators of the library; `enc` and `dec` are `json.dump` and
`json.load` -/
def dbFormat (F : TextFormat) (R : Rng σ) (dumpConfig : Int → Int → Int → Text)
    (loadConfig : Text → Py (Int × Int × Int)) (enc : Doc σ → Text) (dec : Text → Py (Doc σ)) :
    DbFormat (AnyGen σ) where
  text := F
  dumpConfig := dumpConfig
  loadConfig := loadConfig
  className := className
  dumpGen := fun g => do .ok (enc (← toDoc g))
  loadGen := fun type t => ofDoc R type (do dec (← t))

end AnyGen

end Trumania
