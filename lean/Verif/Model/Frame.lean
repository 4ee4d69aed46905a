import Verif.Model.Util
import Verif.Model.Rng

/-!
# Data frames and stateful actions

The fragment of pandas `DataFrame` used as story data and logs. Columns are untyped (no dtype): the
errors that only depend on the dtype of an *empty* column are not modelled. Column names may be
duplicated by the suffixes of a merge; selecting such a name is not modelled and raises.
-/

namespace Trumania

/-- one cell of a frame: a scalar, or a Python list of scalars -/
inductive Cell where
  | scalar (v : Val)
  | list (vs : List Val)
deriving DecidableEq, Repr

namespace Cell

abbrev na : Cell := .scalar .na
abbrev num (q : Rat) : Cell := .scalar (.num q)
abbrev str (s : String) : Cell := .scalar (.str s)
abbrev bool (b : Bool) : Cell := .scalar (.bool b)

/-- a cell used as an id; lists are not hashable -/
def asVal : Cell → Py Val
  | scalar v => .ok v
  | list _ => .error .typeError

/-- a cell used as a list -/
def asList : Cell → Py (List Val)
  | list vs => .ok vs
  | scalar _ => .error .typeError

/-- a cell used as a number -/
def asNum : Cell → Py Rat
  | scalar (.num q) => .ok q
  | _ => .error .typeError

/-- a cell used in a boolean mask -/
def asBool : Cell → Py Bool
  | scalar (.bool b) => .ok b
  | _ => .error .typeError

/-- a cell used as a number of elements: a whole number `>= 0` -/
def asNat : Cell → Py Nat
  | scalar (.num q) => if q.den = 1 ∧ 0 ≤ q then .ok q.num.toNat else .error .valueError
  | _ => .error .valueError

/-- `pd.notna`, as used by `dropna` -/
def notna : Cell → Bool
  | scalar .na => false
  | _ => true

end Cell

/-- one row of a frame: its index label and its cells, in the order of the columns -/
structure Row where
  idx : Val
  cells : List Cell
deriving DecidableEq, Repr

/-- a `DataFrame` -/
structure Frame where
  cols : List String
  rows : List Row
deriving DecidableEq, Repr

/-- kind of join of `AddColumns` (operations.py:159-160) -/
inductive JoinKind where
  | left
  | inner
deriving DecidableEq, Repr

namespace Frame

/-- `df.index` -/
def index (f : Frame) : List Val := f.rows.map (·.idx)

/-- positions of a column name -/
def positions (f : Frame) (name : String) : List Nat :=
  (f.cols.zipIdx.filter (fun x => decide (x.1 = name))).map Prod.snd

/-- position of a column: `KeyError` if absent; a duplicated name is not modelled (`ValueError`) -/
def pos (f : Frame) (name : String) : Py Nat :=
  match f.positions name with
  | [i] => .ok i
  | [] => .error .keyError
  | _ => .error .valueError

/-- cell at a position -/
def cellAt (i : Nat) (r : Row) : Py Cell :=
  match r.cells[i]? with
  | some c => .ok c
  | none => .error .keyError

/-- `df[name]`: the cells of a column -/
def col (f : Frame) (name : String) : Py (List Cell) := do
  let i ← f.pos name
  f.rows.mapM (cellAt i)

/-- `df[names]`: the frame restricted to some columns, in the order of `names` -/
def select (f : Frame) (names : List String) : Py Frame := do
  let is ← names.mapM f.pos
  let rows ← f.rows.mapM fun r => do
    .ok (Row.mk r.idx (← is.mapM fun i => cellAt i r))
  .ok ⟨names, rows⟩

/-- `df[mask]` for a boolean mask -/
def mask (f : Frame) (keep : List Bool) : Frame :=
  ⟨f.cols, ((f.rows.zip keep).filter (·.2)).map Prod.fst⟩

/-- `pd.DataFrame({name: values}, index=index)` -/
def ofColumn (index : List Val) (name : String) (values : List Cell) : Py Frame :=
  if values.length = index.length then
    .ok ⟨[name], List.zipWith (fun i v => ⟨i, [v]⟩) index values⟩
  else .error .valueError

/-- columns after a merge: the names present on both sides get the suffixes `_x` and `_y` -/
def mergedCols (l r : List String) : List String :=
  l.map (fun c => if c ∈ r then c ++ "_x" else c) ++
  r.map (fun c => if c ∈ l then c ++ "_y" else c)

/-- `pd.merge(left, right, left_index=True, right_index=True, how=how)`: in the order of the left
rows (as pandas does when the right index has no duplicates). -/
def mergeIndex (how : JoinKind) (l r : Frame) : Frame :=
  ⟨mergedCols l.cols r.cols,
    l.rows.flatMap fun a =>
      match r.rows.filter (fun b => decide (b.idx = a.idx)) with
      | [] =>
        match how with
        | .left => [⟨a.idx, a.cells ++ List.replicate r.cols.length Cell.na⟩]
        | .inner => []
      | ms => ms.map fun b => ⟨a.idx, a.cells ++ b.cells⟩⟩

/-- cell of a row under a column name, NaN if the frame has no such column -/
def cellOrNa (cols : List String) (r : Row) (name : String) : Cell :=
  match (cols.zip r.cells).find? (fun x => decide (x.1 = name)) with
  | some x => x.2
  | none => Cell.na

/-- `df_concat` (util_functions.py:111-112): `pd.concat([d1, d2], ignore_index=True)`: union of the
columns in order of appearance, missing cells are NaN, rows renumbered from 0. -/
def concat (d1 d2 : Frame) : Frame :=
  let cols := d1.cols ++ d2.cols.filter (fun c => decide (c ∉ d1.cols))
  let cells := d1.rows.map (fun r => cols.map (cellOrNa d1.cols r)) ++
    d2.rows.map (fun r => cols.map (cellOrNa d2.cols r))
  ⟨cols, cells.zipIdx.map fun x => ⟨Val.num (x.2 : Rat), x.1⟩⟩

end Frame

/-- logs: dictionary of log id to frame -/
abbrev Logs := Dict String Frame

/-! ### Actions -/

/-- A Python call that modifies the objects `W`: it returns or raises, and in both cases leaves a
state. -/
abbrev Act (W : Type) := EStateM Err W

/-- a call without side effect -/
def Act.ofPy {W α : Type} : Py α → Act W α
  | .ok a => pure a
  | .error e => throw e

/-- An operation (operations.py:9-38): `__call__` on some story data returns the transformed data
and the logs. -/
abbrev Op (W : Type) := Frame → Act W (Frame × Logs)

end Trumania
