import Verif.Model.Db

/-!
# Model of the descriptions: `Circus.description` and `str(circus)`
-/

namespace Trumania

/-- objects given to `json.dumps`. `keysView` is the `dict_keys` of a dictionary. -/
inductive PyObj where
  | none
  | num (q : Rat)
  | str (s : String)
  | list (l : List PyObj)
  | dict (d : List (String × PyObj))
  | keysView (names : List String)

namespace PyObj

mutual
/-- does `json.dumps` know the object: `None`, numbers, texts, lists and dictionaries, but not `dict_keys`
(CPython 3.9, `json/encoder.py`, `JSONEncoder.default`) -/
def dumpable : PyObj → Bool
  | .none | .num _ | .str _ => true
  | .list l => dumpableAll l
  | .dict d => dumpableItems d
  | .keysView _ => false

def dumpableAll : List PyObj → Bool
  | [] => true
  | o :: l => o.dumpable && dumpableAll l

def dumpableItems : List (String × PyObj) → Bool
  | [] => true
  | (_, o) :: d => o.dumpable && dumpableItems d
end

/-- `json.dumps(o, indent=4)`; `text` is the text of the objects that json knows -/
def dumps (text : PyObj → Text) (o : PyObj) : Py Text :=
  if o.dumpable then .ok (text o) else .error .typeError

/-- a value of an attribute or a parameter -/
def ofVal : Val → PyObj
  | .na => .none
  | .bool b => .num (if b then 1 else 0)
  | .num q => .num q
  | .str s => .str s

end PyObj

/-- `Population.description` (population.py:179-188); `attribute_names` and `relationship_names` are the
`keys()` of dictionaries (population.py:129-133) -/
def Population.description (p : Population) : PyObj :=
  .dict [("size", .num p.size), ("attributes", .keysView p.attributes.keys),
    ("relationships", .keysView p.relationships.keys)]

/-- the `description` of the generators of the library: that of `NumpyRandomGenerator`
(random_generators.py:188-193) and of `SequencialGenerator` (random_generators.py:288-293); the other
subclasses of `Generator` have that of the base class (random_generators.py:95-96), and those of
`DependentGenerator` have none. A constant is a `ConstantGenerator` here. -/
def AnyGen.description {σ : Type} : AnyGen σ → Py PyObj
  | .constant _ | .fixed _ | .pareto .. | .msisdn .. => .ok (.dict [])
  | .seq g => .ok (.dict [("type", .str "SequencialGenerator"), ("prefix", .str g.pre),
      ("max_length", .num g.maxLength)])
  | .uniform lo hi _ => .ok (.dict [("type", .str "NumpyRandomGenerator"), ("method", .str "uniform"),
      ("numpy_parameters", .dict [("low", .num lo), ("high", .num hi)])])
  | .choice a p _ => .ok (.dict [("type", .str "NumpyRandomGenerator"), ("method", .str "choice"),
      ("numpy_parameters", .dict ([("a", .list (a.map .ofVal))] ++
        match p with
        | some p => [("p", .list (p.map .num))]
        | none => []))])
  | .cyclic _ | .trigger .. | .bulk _ => .error .attributeError

namespace Circus
variable {σ γ : Type}

/-- name and description of a population (circus.py:273-274) -/
def describedPopulation (c : Circus σ γ) (x : String × Nat) : Py (String × PyObj) :=
  match c.world.pops[x.2]? with
  | some p => .ok (x.1, p.description)
  | none => .error .attributeError

/-- the descriptions of the populations (circus.py:273-275) -/
def describedPopulations (c : Circus σ γ) : Py (List (String × PyObj)) :=
  c.populations.mapM c.describedPopulation

/-- id and description of a generator (circus.py:276-277) -/
def describedGenerator (describe : γ → Py PyObj) (c : Circus σ γ) (x : String × Nat) :
    Py (String × PyObj) :=
  match c.world.gens[x.2]? with
  | some g => do .ok (x.1, ← describe g)
  | none => .error .attributeError

/-- the descriptions of the generators (circus.py:276-278) -/
def describedGenerators (describe : γ → Py PyObj) (c : Circus σ γ) : Py (List (String × PyObj)) :=
  c.generators.mapM (c.describedGenerator describe)

/-- `Circus.description` (circus.py:268-279) -/
def description (describe : γ → Py PyObj) (c : Circus σ γ) : Py PyObj := do
  let pops ← c.describedPopulations
  let gens ← c.describedGenerators describe
  .ok (.dict [("circus_name", .str c.name), ("master_seed", .num c.masterSeed),
    ("populations", .dict pops), ("generators", .dict gens)])

/-- `Circus.__str__` (circus.py:281-282) -/
def toText (text : PyObj → Text) (describe : γ → Py PyObj) (c : Circus σ γ) : Py Text := do
  (← c.description describe).dumps text

end Circus

end Trumania
