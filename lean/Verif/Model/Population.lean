import Verif.Model.Frame
import Verif.Model.Relationship

/-!
# Model of `trumania/core/attribute.py` and of the data part of `trumania/core/population.py`
-/

namespace Trumania

/-- `l | r` / `l.union(r)` on pandas 1.4 indices: `l` itself when `r` is empty or equal to `l`, `r`
when `l` is empty, and otherwise the sorted union -/
def indexUnion (l r : List Val) : List Val :=
  if r = [] ∨ l = r then l
  else if l = [] then r
  else sortBy Val.le (l ++ r.filter (fun i => decide (i ∉ l)))

/-- `l.difference(r)` on pandas 1.4 indices: empty when `r` equals `l`, `l` itself when `r` is empty,
and otherwise the sorted difference -/
def indexDifference (l r : List Val) : List Val :=
  if l = r then []
  else if r = [] then l
  else sortBy Val.le ((uniq l).filter (fun i => decide (i ∉ r)))

/-- An `Attribute` (attribute.py:6-52): `_table`, as (member id, value) pairs -/
structure Attribute where
  table : List (Val × Cell)
deriving DecidableEq, Repr

namespace Attribute

/-- the index of `_table` -/
def ids (a : Attribute) : List Val := a.table.map Prod.fst

/-- `Attribute(population, init_values=values)` (attribute.py:26-43). `ids` and `size` are those of
the population. -/
def new (size : Nat) (ids : List Val) (values : List Cell) : Py Attribute :=
  if size = 0 then .ok ⟨[]⟩
  else if values.length ≠ ids.length then .error .valueError
  else .ok ⟨ids.zip values⟩

/-- `Attribute(population, init_relationship=...)` (attribute.py:45-52): one random `to` per `from`
of the relationship -/
def fromRelationship {σ : Type} (R : Rng σ) (size : Nat) (r : Relationship σ) :
    Py (Attribute × Relationship σ) :=
  if size = 0 then .ok (⟨[]⟩, r)
  else do
    let (rows, r) ← r.select_one R none
    .ok (⟨rows.map fun x => (x.from_, .scalar (x.to_.getD .na))⟩, r)

/-- `get_values()` (attribute.py:59-60) -/
def values (a : Attribute) : List Cell := a.table.map Prod.snd

/-- `get_values(ids)` (attribute.py:54-62): `KeyError` on unknown ids -/
def getValues (a : Attribute) (ids : List Val) : Py (List Cell) := ids.mapM (Dict.get a.table)

/-- `update(series)` (attribute.py:64-70). With a duplicated label, the table gets duplicated labels
too and the assignment of line 70 raises `ValueError`. -/
def update (a : Attribute) (series : List (Val × Cell)) : Py Attribute :=
  if ¬ (series.map Prod.fst).Nodup then .error .valueError
  else
    .ok ⟨(indexUnion a.ids (series.map Prod.fst)).map fun i =>
      match Dict.get? series i with
      | some v => (i, v)
      | none => (i, (Dict.get? a.table i).getD Cell.na)⟩

/-- sum of the values given for one id (attribute.py:80): NaN values are skipped by the groupby -/
def contribution : List (Val × Cell) → Val → Py Rat
  | [], _ => .ok 0
  | (j, c) :: l, i =>
    if j = i then
      match c with
      | .scalar (.num q) => do .ok (q + (← contribution l i))
      | .scalar .na => contribution l i
      | _ => .error .typeError
    else contribution l i

/-- `x + q` for a stored value -/
def plusNum (c : Cell) (q : Rat) : Py Cell :=
  match c with
  | .scalar (.num x) => .ok (.num (x + q))
  | .scalar .na => .ok .na
  | _ => .error .typeError

/-- `add(ids, added_values)` (attribute.py:72-82), for numerical values. Groups of NaN ids are
dropped by `groupby` (line 80). -/
def add (a : Attribute) (ids : List Val) (added : List Cell) : Py Attribute :=
  if ids.length ≠ added.length then .error .assertionError
  else
    let keys := (uniq ids).filter (fun i => decide (i ≠ Val.na))
    if keys.any (fun i => !a.ids.contains i) then .error .keyError
    else do
      let table ← a.table.mapM fun kv =>
        if keys.contains kv.1 then do
          .ok (kv.1, ← plusNum kv.2 (← contribution (ids.zip added) kv.1))
        else .ok kv
      .ok ⟨table⟩

/-- `transform_inplace(f)` (attribute.py:84-88) -/
def transform (a : Attribute) (f : Cell → Cell) : Attribute :=
  ⟨a.table.map fun kv => (kv.1, f kv.2)⟩

end Attribute

/-- A `Population` (population.py:14-55); the relationships are references -/
structure Population where
  ids : List Val
  size : Nat
  attributes : Dict String Attribute
  relationships : Dict String Nat
deriving DecidableEq, Repr

namespace Population

/-- the end of `Population.__init__` (population.py:44-53), once the ids are known -/
def ofIds (ids : List Val) (size : Nat) : Py Population :=
  if ids.Nodup then .ok ⟨ids, size, [], []⟩ else .error .valueError

/-- arguments of the constructor (population.py:15): `ids` or `ids_gen` with `size`. `generated` is
the result of `ids_gen.generate(size=size)`. -/
inductive Init where
  | ids (l : List Val)
  | generated (l : List Val) (size : Nat)
  | both
  | neither
deriving Repr

/-- `Population.__init__` (population.py:15-55) -/
def new : Init → Py Population
  | .ids l => ofIds l l.length
  | .generated l size => if size = 0 then ofIds [] 0 else ofIds l size
  | .both => .error .valueError
  | .neither => .error .valueError

/-- `get_attribute` (population.py:115-121) -/
def getAttribute (p : Population) (name : String) : Py Attribute := p.attributes.get name

/-- `get_attribute_values` (population.py:123-127) -/
def getAttributeValues (p : Population) (name : String) (ids : List Val) : Py (List Cell) := do
  (← p.getAttribute name).getValues ids

/-- `get_relationship` (population.py:104-109) -/
def getRelationship (p : Population) (name : String) : Py Nat := p.relationships.get name

/-- `create_attribute(name, init_values=...)` (population.py:111-113): an existing attribute of that
name is replaced -/
def createAttribute (p : Population) (name : String) (values : List Cell) : Py Population := do
  let a ← Attribute.new p.size p.ids values
  .ok { p with attributes := p.attributes.set name a }

/-- `create_attribute(name, init_gen=gen)`: `values` is `gen.generate(size=population.size)`
(attribute.py:35-36); here it is a function of the size -/
def createAttributeGen (p : Population) (name : String) (gen : Nat → List Cell) :
    Py Population :=
  p.createAttribute name (gen p.size)

/-- keeps the last row of each label: `df[~df.index.duplicated(keep="last")]` (population.py:157) -/
def keepLast : List Row → List Row
  | [] => []
  | r :: rows => if r.idx ∈ rows.map (·.idx) then keepLast rows else r :: keepLast rows

/-- the loop of lines 165-166: updates the attributes with the successive columns -/
def updateAttributes (f : Frame) (rows : List Row) :
    List (String × Nat) → Dict String Attribute → Py (Dict String Attribute)
  | [], atts => .ok atts
  | (name, i) :: rest, atts => do
    let a ← atts.get name
    let cells ← rows.mapM (Frame.cellAt i)
    let a ← a.update ((rows.map (·.idx)).zip cells)
    updateAttributes f rows rest (atts.set name a)

/-- `update(attribute_df)` (population.py:135-166). `size` is left unchanged. -/
def update (p : Population) (f : Frame) : Py Population :=
  if ¬ ((∀ c ∈ f.cols, c ∈ p.attributes.keys) ∧ (∀ c ∈ p.attributes.keys, c ∈ f.cols)) then
    .error .valueError
  else do
    let rows := keepLast f.rows
    let newIds := indexDifference (rows.map (·.idx)) p.ids
    let atts ← updateAttributes f rows f.cols.zipIdx p.attributes
    .ok { p with ids := indexUnion p.ids newIds, attributes := atts }

/-- the values of a weight attribute used as numbers (population.py:402-414) -/
def weights (a : Attribute) : Py (List Rat) := do
  let ws ← a.values.mapM Cell.asNum
  if ws.any (fun w => decide (w < 0)) then .error .valueError
  else if ws.sum = 0 then .error .valueError
  else .ok (ws.map (· / ws.sum))

/-- arguments `a` and `p` of the generator built by `PopulationOps.select_one`
(population.py:383-421) -/
def selectOneParams (p : Population) : Option String → Py (List Val × Option (List Rat))
  | none => .ok (p.ids, none)
  | some name => do
    let a ← p.getAttribute name
    .ok (p.ids, some (← weights a))

/-- `to_dataframe` (population.py:168-177) -/
def toDataframe (p : Population) : Py Frame := do
  let cols ← p.attributes.mapM fun kv => do .ok (kv.1, ← kv.2.getValues p.ids)
  .ok ⟨cols.map Prod.fst,
    p.ids.zipIdx.map fun x => ⟨x.1, cols.map fun c => c.2.getD x.2 Cell.na⟩⟩

end Population

/-- `NumpyRandomGenerator(method="choice", a=a, p=p).generate(size)` -/
def choiceGenerate {σ : Type} (R : Rng σ) (s : σ) (a : List Val) (p : Option (List Rat))
    (size : Nat) : Py (List Val × σ) := do
  let (idx, s) ← match p with
    | none => R.choice s a.length size
    | some p => R.choiceP s a.length size p
  .ok (← fancy a idx, s)

end Trumania
