import Verif.Model.Util
import Verif.Model.Rng

/-!
# Model of `trumania/core/relationship.py`: `Relations` and `Relationship`

The ids (`from`, `to`, request labels) are `Val`s; numpy arrays are assumed to hold values of one
type, so building an array never converts ids (numpy would turn `[1, "a"]` into strings).
Weights are exact rationals. A stored `to` is never `None`.
`weights_normed` is always `weights / weights.sum()` (lines 32, 143), so it is not stored.
The operations of `RelationshipOps` are in `Verif.Model.Ops`.
-/

namespace Trumania

/-- `np.ndarray.argsort` with the default (unstable) quicksort: some permutation of the positions
that sorts the values; ties are broken in an unspecified way. -/
structure ArgSort where
  order : List Val → List Nat
  perm : ∀ l, (order l).Perm (List.range l.length)
  sorted : ∀ l, ((order l).filterMap (l[·]?)).Pairwise (fun a b => Val.le a b = true)

/-- The two orders Python and numpy leave unspecified: iteration of sets, ties of `argsort`. -/
structure Orders where
  set : SetOrder Val
  sort : ArgSort

/-- `xs[order]` for an array of positions -/
def fancy {α : Type} (xs : List α) (order : List Nat) : Py (List α) :=
  order.mapM fun i => match xs[i]? with
    | some x => .ok x
    | none => .error .indexError

/-- distinct values, in order of first appearance (`drop_duplicates`, group keys with `sort=False`) -/
def uniq : List Val → List Val
  | [] => []
  | a :: l => a :: (uniq l).filter (fun b => decide (b ≠ a))

/-- class `Relations` (relationship.py:19-32): parallel arrays -/
structure Relations where
  tos : List Val
  weights : List Rat
deriving DecidableEq, Repr

/-- the `weights` argument of `add_relations` (relationship.py:55-58): a scalar is repeated -/
inductive Weights where
  | scalar (w : Rat)
  | list (ws : List Rat)

/-- the array of weights for `n` froms (relationship.py:55-58) -/
def Weights.expand (n : Nat) : Weights → List Rat
  | .scalar w => List.replicate n w
  | .list ws => ws

namespace Relations

/-- `__len__` (relationship.py:34-35) -/
def size (r : Relations) : Nat := r.tos.length

/-- `itertools.groupby(ordered, lambda t: t[0])` and the construction of each `Relations`
(relationship.py:63-67): consecutive equal froms are grouped. -/
def runs : List (Val × Val × Rat) → List (Val × Relations)
  | [] => []
  | (f, t, w) :: l =>
    match runs l with
    | [] => [(f, ⟨[t], [w]⟩)]
    | (f', r) :: gs =>
      if f' = f then (f, ⟨t :: r.tos, w :: r.weights⟩) :: gs
      else (f, ⟨[t], [w]⟩) :: (f', r) :: gs

/-- `from_tuples` (relationship.py:41-69). A group that would reappear later overwrites the
previous one in the dict comprehension of line 69. -/
def from_tuples (env : Orders) (from_ids to_ids : List Val) (weights : Weights) :
    Py (Dict Val Relations) := do
  let order := env.sort.order from_ids
  let f ← fancy from_ids order
  let t ← fancy to_ids order
  let w ← fancy (weights.expand from_ids.length) order
  .ok ((runs (f.zip (t.zip w))).foldl (fun d kv => d.set kv.1 kv.2) [])

/-- `plus` (relationship.py:71-77) -/
def plus (a b : Relations) : Relations := ⟨a.tos ++ b.tos, a.weights ++ b.weights⟩

/-- `minus` (relationship.py:79-88) -/
def minus (a b : Relations) : Py Relations := do
  let removed := (a.tos.zipIdx.filter fun x => b.tos.contains x.1).map Prod.snd
  .ok ⟨← npDelete a.tos removed, ← npDelete a.weights removed⟩

/-- `weights / weights.sum()` as a `p` argument of `choice`: a zero sum gives NaN (or infinities),
which `choice` rejects with `ValueError` -/
def normed (ws : List Rat) : Py (List Rat) :=
  if ws.sum = 0 then .error .valueError else .ok (ws.map (· / ws.sum))

/-- the weights used by `pick_one` (relationship.py:103-107) -/
def pickWeights (r : Relations) : Option (Dict Val Rat) → Py (List Rat)
  | none => .ok r.weights
  | some d => r.tos.mapM d.get

/-- `pick_one` (relationship.py:90-115): `none` for the result `(None, None)` -/
def pick_one {σ : Type} (R : Rng σ) (s : σ) (r : Relations) (ow : Option (Dict Val Rat)) :
    Py (Option (Nat × Val) × σ) :=
  match r.tos with
  | [] => .ok (none, s)
  | [t] => .ok (some (0, t), s)
  | tos => do
    let ws ← r.pickWeights ow
    let p ← normed ws
    let (idx, s) ← R.choiceP s tos.length 1 p
    match idx with
    | [] => .error .indexError
    | i :: _ =>
      match tos[i]? with
      | some t => .ok (some (i, t), s)
      | none => .error .indexError

/-- `pick_many` (relationship.py:117-137); a negative size is refused by `choice` -/
def pick_many {σ : Type} (R : Rng σ) (s : σ) (r : Relations) (amount : Int) :
    Py ((List Nat × List Val) × σ) := do
  if amount < 0 then .error .valueError
  else
    let (indices, s) ← R.choiceNoReplace s r.size (min r.size amount.toNat)
    .ok ((indices, ← fancy r.tos indices), s)

/-- `remove_inplace` (relationship.py:139-143) -/
def remove_inplace (r : Relations) (removed : List Nat) : Py Relations := do
  .ok ⟨← npDelete r.tos removed, ← npDelete r.weights removed⟩

end Relations

/-- class `Relationship` (relationship.py:146-151); `σ` is the state of the `RandomState` -/
structure Relationship (σ : Type) where
  seed : Int
  state : σ
  grouped : Dict Val Relations
deriving DecidableEq

/-- one row of the result of `select_one`: request label, from, position of the picked relation
(`none` for -1), picked `to` (`none` for `None`) -/
structure OneRow where
  label : Val
  from_ : Val
  idx : Option Nat
  to_ : Option Val
deriving DecidableEq, Repr

/-- one row of the intermediate result of `select_many` -/
structure ManyRow where
  label : Val
  from_ : Val
  tos : List Val
  idxs : List Nat
deriving DecidableEq, Repr

namespace Relationship
variable {σ : Type} (R : Rng σ) (env : Orders)

/-- `Relationship(seed)` (relationship.py:147-151) -/
def new (seed : Int) : Relationship σ := ⟨seed, R.seed seed, []⟩

/-- `add_relations` (relationship.py:153-161) -/
def add_relations (r : Relationship σ) (from_ids to_ids : List Val)
    (weights : Weights := .scalar 1) : Py (Relationship σ) := do
  let new ← Relations.from_tuples env from_ids to_ids weights
  let g ← merge_2_dicts env.set (some r.grouped) (some new)
    (some fun r1 r2 => .ok (r1.plus r2))
  .ok { r with grouped := g }

/-- `add_grouped_relations` (relationship.py:163-177); `zip` stops at the shortest list -/
def add_grouped_relations (r : Relationship σ) (from_ids : List Val)
    (grouped_ids : List (List Val)) : Py (Relationship σ) :=
  (from_ids.zip grouped_ids).foldlM (fun r x =>
    r.add_relations env (List.replicate x.2.length x.1) x.2) r

/-- `remove_relations` (relationship.py:179-189) -/
def remove_relations (r : Relationship σ) (from_ids to_ids : List Val) :
    Py (Relationship σ) := do
  let del ← Relations.from_tuples env from_ids to_ids (.scalar 0)
  let g ← merge_2_dicts env.set (some r.grouped) (some del)
    (some fun r1 r2 => r1.minus r2)
  .ok { r with grouped := g }

/-- `get_relations` (relationship.py:191-217): rows (from, to, weight) -/
def get_relations (r : Relationship σ) (from_ids : Option (List Val) := none) :
    List (Val × Val × Rat) :=
  let ids := match from_ids with
    | none => env.set.order r.grouped.keys
    | some l => l
  (env.set.order ids).flatMap fun gid =>
    match r.grouped.get? gid with
    | some rels => (rels.tos.zip rels.weights).map fun x => (gid, x)
    | none => []

/-- `get_neighbourhood_size` (relationship.py:219-231) -/
def get_neighbourhood_size (r : Relationship σ) (from_ids : List Val) : Dict Val Nat :=
  from_ids.foldl (fun d f =>
    d.set f (match r.grouped.get? f with
      | some rels => rels.size
      | none => 0)) []

/-- `unique_tos` (relationship.py:233-238), as the list of the elements put in the set -/
def unique_tos (r : Relationship σ) : List Val := r.grouped.flatMap fun kv => kv.2.tos

/-- one turn of the generator `_results` of `select_one` (relationship.py:287-299) -/
def selectRow (g : Dict Val Relations) (discard_empty : Bool) (ow : Option (Dict Val Rat))
    (s : σ) (label f : Val) : Py (Option OneRow × σ) :=
  match g.get? f with
  | some rels => do
    let (p, s) ← Relations.pick_one R s rels ow
    match p with
    | none => .ok (if discard_empty then none else some ⟨label, f, none, none⟩, s)
    | some (i, t) => .ok (some ⟨label, f, some i, some t⟩, s)
  | none => .ok (if discard_empty then none else some ⟨label, f, none, none⟩, s)

/-- the generator `_results` of `select_one` (relationship.py:283-299) -/
def selectResults (g : Dict Val Relations) (discard_empty : Bool) (ow : Option (Dict Val Rat)) :
    σ → List (Val × Val) → Py (List OneRow × σ)
  | s, [] => .ok ([], s)
  | s, (label, f) :: reqs => do
    let (row, s) ← selectRow R g discard_empty ow s label f
    let (rows, s) ← selectResults g discard_empty ow s reqs
    .ok (row.toList ++ rows, s)

/-- `drop_duplicates(subset=named_as, keep="first")` (relationship.py:317); `seen` holds the tos of
the previous rows -/
def dropDups : List (Option Val) → List OneRow → List OneRow
  | _, [] => []
  | seen, r :: rows =>
    if r.to_ ∈ seen then dropDups seen rows else r :: dropDups (r.to_ :: seen) rows

/-- the one-to-one filter of `select_one` (relationship.py:311-319). `.loc` with a list of labels
returns, for each label, all the rows carrying it. -/
def oneToOne (s : σ) (output : List OneRow) : List OneRow × σ :=
  let blanks := output.filter (fun r => r.to_.isNone)
  let present := output.filter (fun r => !r.to_.isNone)
  let (labels, s) := R.permutation s (present.map (·.label))
  let present := labels.flatMap fun l => present.filter (fun r => decide (r.label = l))
  (dropDups [] present ++ blanks, s)

/-- removal of the picked relations, from by from (relationship.py:325-331 and 428-435): `groups`
is the list of (from, positions to delete) -/
def removeGroups (g : Dict Val Relations) : List (Val × List Nat) → Py (Dict Val Relations)
  | [] => .ok g
  | (f, idxs) :: rest => do
    let rels ← g.get f
    let rels ← rels.remove_inplace idxs
    removeGroups (if rels.size = 0 then g.del f else g.set f rels) rest

/-- the groups of line 325: for each from with a picked row, the `idx` of all its rows -/
def oneGroups (output : List OneRow) : List (Val × List Nat) :=
  let rows := output.filterMap fun r => r.idx.map fun i => (r.from_, i)
  (uniq (rows.map Prod.fst)).map fun f =>
    (f, (rows.filter (fun x => decide (x.1 = f))).map Prod.snd)

/-- `missing_keys` (relationship.py:270-271) -/
def missingKeys (r : Relationship σ) : Option (Dict Val Rat) → List Val
  | none => []
  | some d => r.unique_tos.filter (fun t => !(d.keys.contains t))

/-- `_from_ids` as (label, value) pairs (relationship.py:276-281) -/
def requests (r : Relationship σ) : Option (List (Val × Val)) → List (Val × Val)
  | none => r.grouped.keys.zipIdx.map fun x => (Val.num (x.2 : Rat), x.1)
  | some l => l

/-- `select_one` (relationship.py:240-334). `reqs` is the Series `from_ids` as (label, value) pairs;
`none` stands for `from_ids=None` (labels 0, 1, ...). -/
def select_one (r : Relationship σ) (reqs : Option (List (Val × Val)))
    (remove_selected : Bool := false) (discard_empty : Bool := true) (one_to_one : Bool := false)
    (ow : Option (Dict Val Rat) := none) : Py (List OneRow × Relationship σ) := do
  -- lines 269-274
  if r.missingKeys ow ≠ [] then .error .assertionError
  else
    let (output, s) ← selectResults R r.grouped discard_empty ow r.state (r.requests reqs)
    -- lines 302-303
    if output = [] then .ok ([], { r with state := s })
    else
      let (output, s) := if one_to_one then oneToOne R s output else (output, s)
      let g ← removeGroups r.grouped (if remove_selected then oneGroups output else [])
      .ok (output, { r with state := s, grouped := g })

/-- `select_all_horizontal` (relationship.py:336-351): one row per from, with the list of its tos -/
def select_all_horizontal (r : Relationship σ) (from_ids : List Val) : List (Val × List Val) :=
  let rows := r.get_relations env (some from_ids)
  (uniq (rows.map Prod.fst)).map fun f =>
    (f, (rows.filter (fun x => decide (x.1 = f))).map (fun x => x.2.1))

/-- `gather` applied to each group of requests (relationship.py:368-377): for each from, the
requests (label, quantity) in shuffled order -/
def gatherAll (reqs : List (Val × Val × Int)) : σ → List Val → List (Val × List (Val × Int)) × σ
  | s, [] => ([], s)
  | s, f :: froms =>
    let df := (reqs.filter (fun x => decide (x.2.1 = f))).map fun x => (x.1, x.2.2)
    let (labels, s) := R.permutation s (df.map Prod.fst)
    let df2 := labels.flatMap fun l => df.filter (fun x => decide (x.1 = l))
    let (rest, s) := gatherAll reqs s froms
    ((f, df2) :: rest, s)

/-- `_one_pick_result` (relationship.py:396-413): consecutive slices of the picked values, the
empty ones being skipped; `lb` is the running lower bound -/
def slicePicks (f : Val) (tos : List Val) (idxs : List Nat) :
    Nat → List (Val × Int) → List ManyRow
  | _, [] => []
  | lb, (label, q) :: rest =>
    let n := q.toNat
    if q = 0 then slicePicks f tos idxs lb rest
    else ⟨label, f, (tos.drop lb).take n, (idxs.drop lb).take n⟩ ::
      slicePicks f tos idxs (lb + n) rest

/-- one turn of `_all_picks_results` (relationship.py:380-415) -/
def picksOf (g : Dict Val Relations) (s : σ) (f : Val) (reqs : List (Val × Int)) :
    Py (List ManyRow × σ) :=
  match g.get? f with
  | none => .ok ([], s)
  | some rels => do
    let qties ← cap_to_total (reqs.map Prod.snd) rels.size
    let ((idxs, tos), s) ← Relations.pick_many R s rels qties.sum
    .ok (slicePicks f tos idxs 0 ((reqs.map Prod.fst).zip qties), s)

/-- `_all_picks_results` (relationship.py:379-415), flattened as by line 421 -/
def allPicks (g : Dict Val Relations) : σ → List (Val × List (Val × Int)) →
    Py (List ManyRow × σ)
  | s, [] => .ok ([], s)
  | s, (f, reqs) :: rest => do
    let (rows, s) ← picksOf R g s f reqs
    let (rows', s) ← allPicks g s rest
    .ok (rows ++ rows', s)

/-- the groups of lines 428-432: for each from, the positions picked by its *first* row only
(`.values[0]`) -/
def manyGroups (output : List ManyRow) : List (Val × List Nat) :=
  (uniq (output.map (·.from_))).filterMap fun f =>
    (output.find? (fun r => decide (r.from_ = f))).map fun r => (f, r.idxs)

/-- `select_many` (relationship.py:353-455). `reqs` is the frame `req` of line 363: (label, from,
quantity). The result is a list of (label, tos). `Index.difference` (line 447) sorts and removes
duplicates. -/
def select_many (r : Relationship σ) (reqs : List (Val × Val × Int))
    (remove_selected : Bool := false) (discard_empty : Bool := true) :
    Py (List (Val × List Val) × Relationship σ) := do
  let (all_reqs, s) := gatherAll R reqs r.state (uniq (reqs.map (·.2.1)))
  let (output, s) ← allPicks R r.grouped s all_reqs
  let g ← removeGroups r.grouped (if remove_selected then manyGroups output else [])
  let served := output.map fun x => (x.label, x.tos)
  let missing :=
    if !discard_empty && served.length ≠ reqs.length then
      sortBy Val.le ((uniq (reqs.map (·.1))).filter
        (fun l => decide (l ∉ served.map Prod.fst)))
    else []
  .ok (served ++ missing.map (fun l => (l, [])), { r with state := s, grouped := g })

end Relationship

end Trumania
