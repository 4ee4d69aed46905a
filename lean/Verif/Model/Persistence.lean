import Verif.Model.Circus
import Mathlib.Data.List.Dedup

/-!
# Model of the CSV files of relationships, attributes and populations

`Relationship.save_to/load_from`, `Attribute.save_to/load_from`.
The texts of numbers and the recognition of types are those of pandas: they are a parameter.
-/

namespace Trumania

/-- How `to_csv` prints numbers and lists, and what `read_csv` recognizes. Ints and floats are the same
numbers here: `num` stands for either text of a number. -/
structure TextFormat where
  /-- text of a number -/
  num : Rat → Text
  /-- text of a list, as cell of a table -/
  list : List Val → Text
  /-- the number that a text looks like (conversion to `int64` or `float64`) -/
  parse : Text → Option Rat
  /-- the boolean that a text looks like (`True`, `TRUE`, `true`, ...) -/
  bool? : Text → Option Bool
  /-- is the text one of the default `na_values` (empty, `NA`, `null`, ...) -/
  isNa : Text → Bool

namespace TextFormat
variable (F : TextFormat)

/-- text of a value in a CSV file: missing values are empty -/
def val : Val → Text
  | .na => []
  | .bool true => "True".toList
  | .bool false => "False".toList
  | .num q => F.num q
  | .str s => s.toList

/-- text of a cell in a CSV file -/
def cell : Cell → Text
  | .scalar v => F.val v
  | .list l => F.list l

/-- does the column look numerical -/
def allNum (col : List Text) : Bool := col.all fun t => F.isNa t || (F.parse t).isSome

/-- does the column look boolean -/
def allBool (col : List Text) : Bool := col.all fun t => F.isNa t || (F.bool? t).isSome

/-- values of a column read by `read_csv` without `dtype`: numbers if all the texts look like numbers,
else booleans if all look like booleans, else texts; missing values apart
(pandas/_libs/parsers.pyx, `_convert_tokens`). The columns of big files, that pandas reads by chunks
(`low_memory`), are not modelled. -/
def infer (col : List Text) : List Val :=
  if F.allNum col then
    col.map fun t => if F.isNa t then .na else (F.parse t).elim .na .num
  else if F.allBool col then
    col.map fun t => if F.isNa t then .na else (F.bool? t).elim .na .bool
  else
    col.map fun t => if F.isNa t then .na else .str (String.ofList t)

/-- `int(v)` of a value read -/
def toInt : Val → Py Int
  | .num q => .ok (pyInt q)
  | .bool b => .ok (if b then 1 else 0)
  | .na => .error .valueError
  | .str s =>
    match F.parse s.toList with
    | some q => if q.den = 1 then .ok q.num else .error .valueError
    | none => .error .valueError

/-- `astype(float)` of a value read. A missing weight becomes NaN in pandas: it is an error here. -/
def toFloat : Val → Py Rat
  | .num q => .ok q
  | .bool b => .ok (if b then 1 else 0)
  | .na => .error .valueError
  | .str s =>
    match F.parse s.toList with
    | some q => .ok q
    | none => .error .valueError

end TextFormat

namespace Relationship
variable {σ : Type} (F : TextFormat)

/-- rows of the file for the relation of rank `i`: `stack()` drops the missing values
(relationship.py:467-474) -/
def savedRelation (x : (Val × Val × Rat) × Nat) : List (List Text) :=
  [("from".toList, x.1.1), ("to".toList, x.1.2.1), ("weight".toList, Val.num x.1.2.2)].filterMap fun c =>
    if c.2 = .na then none
    else some ["relations".toList, F.num (x.2 : Rat), c.1, F.val c.2]

/-- rows of the file: the relations, then the seed (relationship.py:467-477) -/
def savedRows (env : Orders) (r : Relationship σ) : List (List Text) :=
  ((r.get_relations env).zipIdx.flatMap (savedRelation F)) ++
    [["seed".toList, F.num 0, F.num 0, F.num (r.seed : Rat)]]

/-- `save_to` (relationship.py:460-478): text of the file. Ids of different types, that `get_relations`
converts to texts, are written as the same texts. -/
def saveText (env : Orders) (r : Relationship σ) : Text :=
  writeCsv true ["param".toList, [], [], "value".toList] (r.savedRows F env)

/-- field `k` of a line -/
def field (k : Nat) (row : List Text) : Text := row.getD k []

/-- the table of the relations: value by (rank, name of the column) -/
def pivotOf (entries : List (List Text × Val)) : Py (Dict (Rat × Text) Val) :=
  (entries.filter fun e => decide (field 0 e.1 = "relations".toList)).mapM fun e =>
    match F.parse (field 1 e.1) with
    | some i => .ok ((i, field 2 e.1), e.2)
    | none => .error .valueError

/-- ranks of the relations: `unstack()` sorts them -/
def ranksOf (pivot : Dict (Rat × Text) Val) : List Rat :=
  sortBy (fun a b => decide (a ≤ b)) (pivot.keys.map Prod.fst).dedup

/-- one column of the unstacked table: `KeyError` if there is no value in it -/
def columnOf (pivot : Dict (Rat × Text) Val) (name : Text) : Py (List Val) :=
  if pivot.keys.any fun k => decide (k.2 = name) then
    .ok ((ranksOf pivot).map fun i => (pivot.get? (i, name)).getD .na)
  else .error .keyError

/-- the lines of the file, with the values of the last column -/
def entriesOf (rows : List (List Text)) : List (List Text × Val) :=
  rows.zip (F.infer (rows.map (field 3)))

/-- `load_from` (relationship.py:480-500), on the text of the file. `KeyError` without a relation. -/
def loadText (R : Rng σ) (env : Orders) (t : Text) : Py (Relationship σ) := do
  let file ← readCsv t
  match (entriesOf F file.2).find? fun e => decide (field 0 e.1 = "seed".toList) with
  | none => .error .keyError
  | some e => do
    let seed ← F.toInt e.2
    let pivot ← pivotOf F (entriesOf F file.2)
    if pivot = [] then .error .keyError
    else do
      let froms ← columnOf pivot "from".toList
      let tos ← columnOf pivot "to".toList
      let ws ← columnOf pivot "weight".toList
      let ws ← ws.mapM F.toFloat
      (Relationship.new R seed).add_relations env froms tos (.list ws)

end Relationship

end Trumania
