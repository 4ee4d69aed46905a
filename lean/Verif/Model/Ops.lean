import Verif.Model.World
import Verif.Model.Generators

/-!
# Model of the operations

`trumania/core/operations.py` and the `...Ops` classes of the other modules. Every operation is a
function from story data to an action on the `World`.
-/

namespace Trumania
namespace Ops

/-- `SideEffectOnly` (operations.py:132-149): the story data is returned as is, without logs -/
def sideEffect {W : Type} (effect : Frame → Act W Unit) : Op W := fun data => do
  effect data
  pure (data, [])

/-- `AddColumns.transform` (operations.py:173-178) -/
def addColumns {W : Type} (how : JoinKind) (build : Frame → Act W Frame) : Op W := fun data => do
  let output ← build data
  pure (data.mergeIndex how output, [])

/-- an operation that only transforms the story data -/
def transform {W : Type} (f : Frame → Py Frame) : Op W := fun data => do
  let output ← Act.ofPy (f data)
  pure (output, [])

/-! ### operations.py -/

/-- the columns logged by a `FieldLogger` (operations.py:94-104): `self.cols += self.exploded_cols`
(which also extends the list passed by the caller) -/
def loggerCols (cols exploded : List String) : List String := cols ++ exploded

/-- element `k` of the list of an exploded column -/
def explodedCell (vs : List Val) (k : Nat) : Cell := .scalar (vs.getD k .na)

/-- `explo` for one row (operations.py:111-118): one row per element of the lists, the other cells
being repeated. `lists` are the positions of the exploded columns. Lists of another length than the
first one raise `ValueError` (except when the first one is empty, which is not modelled). -/
def explodeRow (lists : List Nat) (r : Row) : Py (List Row) := do
  let ls ← lists.mapM fun i => do (← Frame.cellAt i r).asList
  let n := (ls.headD []).length
  if ls.all (fun l => decide (l.length = n)) then
    .ok ((List.range n).map fun k =>
      { r with cells := r.cells.zipIdx.map fun x =>
          match (lists.zip ls).find? (fun y => decide (y.1 = x.2)) with
          | some y => explodedCell y.2 k
          | none => x.1 })
  else .error .valueError

/-- the exploded story data (operations.py:109-121): `pd.concat` of nothing raises `ValueError`; when
all the lists are empty, only the exploded columns exist. -/
def explode (exploded : List String) (data : Frame) : Py Frame :=
  if exploded = [] then .ok data
  else if data.rows = [] then .error .valueError
  else do
    let lists ← exploded.mapM data.pos
    let rows ← data.rows.mapM (explodeRow lists)
    if rows.flatten = [] then .ok ⟨exploded, []⟩
    else .ok ⟨data.cols, rows.flatten⟩

/-- `FieldLogger.emit_logs` (operations.py:106-129) -/
def loggedData (cols exploded : List String) (data : Frame) : Py Frame := do
  let logged ← explode exploded data
  if loggerCols cols exploded = [] then .ok logged
  else logged.select (loggerCols cols exploded)

/-- `FieldLogger` (operations.py:75-129) -/
def fieldLogger {W : Type} (logId : String) (cols exploded : List String) : Op W := fun data => do
  let logged ← Act.ofPy (loggedData cols exploded data)
  pure (data, [(logId, logged)])

/-- `DropRow.transform` (operations.py:189-190): keeps the rows whose condition is *false* -/
def dropRows (field : String) (data : Frame) : Py Frame := do
  let conds ← (← data.col field).mapM Cell.asBool
  .ok (data.mask (conds.map (!·)))

/-- `DropRow` (operations.py:181-190) -/
def dropRow {W : Type} (field : String) : Op W := transform (dropRows field)

/-- `result.rename(columns=dict(zip(result.columns, self.named_as)))` (operations.py:243-244) -/
def renamed (result : Frame) (namedAs : List String) : Frame :=
  let d : Dict String String := (result.cols.zip namedAs).foldl (fun d x => d.set x.1 x.2) []
  { result with cols := result.cols.map fun c => (d.get? c).getD c }

/-- `Apply` with a function on frames (operations.py:193-246); `f` is the user function -/
def applyFrame {W : Type} (sources namedAs : List String) (f : Frame → Py Frame) : Op W :=
  addColumns .left fun data => Act.ofPy do
    let result ← f (← data.select sources)
    .ok (renamed result namedAs)

/-- `Apply` with a function on columns (operations.py:247-250); the result of the user function is a
Series assumed to be indexed like its arguments -/
def applySeries {W : Type} (sources : List String) (namedAs : String)
    (f : List (List Cell) → Py (List Cell)) : Op W :=
  addColumns .left fun data => Act.ofPy do
    let cols ← sources.mapM data.col
    let values ← f cols
    Frame.ofColumn data.index namedAs values

/-- `copy_if` (operations.py:256-270): the first column is the condition, the second the source -/
def copyIf (data : Frame) : Py Frame :=
  match data.cols with
  | [cond, source] => do
    let conds ← (← data.col cond).mapM Cell.asBool
    let values ← data.col source
    Frame.ofColumn data.index "result"
      (List.zipWith (fun (b : Bool) v => if b then v else Cell.na) conds values)
  | _ => .error .valueError

section
variable {σ γ : Type} (env : Env σ γ)

/-! ### Generators and clock -/

/-- values of `RandomValues.build_output` (random_generators.py:121-134) -/
def randomCells (g : GenRef) (quantity : Option String) (data : Frame) :
    Act (World σ γ) (List Cell) :=
  match quantity with
  | none => World.generate env g (data.rows.length : Rat)
  | some field => do
    let qties ← Act.ofPy do (← data.col field).mapM Cell.asNat
    let flat ← World.generate env g (qties.sum : Rat)
    let vals ← Act.ofPy (flat.mapM Cell.asVal)
    pure ((sliceBulk vals qties).map Cell.list)

/-- `GeneratorOps.RandomValues` (random_generators.py:110-141) -/
def randomValues (g : GenRef) (namedAs : String) (quantity : Option String := none) :
    Op (World σ γ) :=
  addColumns .left fun data => do
    let values ← randomCells env g quantity data
    Act.ofPy (Frame.ofColumn data.index namedAs values)

/-- `DependentGeneratorOps.RandomValuesFromField` (random_generators.py:443-461) -/
def randomValuesFromField (g : GenRef) (namedAs observed : String) : Op (World σ γ) :=
  addColumns .left fun data => do
    let obs ← Act.ofPy (data.col observed)
    let values ← World.observe env g obs
    Act.ofPy (Frame.ofColumn data.index namedAs values)

/-- `ClockOps.Timestamp` (clock.py:103-118); `fmt` renders a date as a cell (`strftime`) -/
def timestamp (namedAs : String) (random : Bool) (fmt : Int → Cell) : Op (World σ γ) :=
  addColumns .left fun data => do
    let w ← get
    let (dates, clock) ← Act.ofPy (w.clock.getTimestamp env.R data.rows.length random)
    set { w with clock := clock }
    Act.ofPy (Frame.ofColumn data.index namedAs (dates.map fmt))

/-! ### Relationships -/

/-- a column used as ids -/
def idColumn (data : Frame) (field : String) : Py (List Val) := do
  (← data.col field).mapM Cell.asVal

/-- whole number cell -/
def asInt : Cell → Py Int
  | .scalar (.num q) => if q.den = 1 then .ok q.num else .error .typeError
  | _ => .error .typeError

/-- `AddNeighbourhoodSize` (relationship.py:504-519) -/
def neighbourhoodSize (rel : Nat) (fromField namedAs : String) : Op (World σ γ) :=
  addColumns .left fun data => do
    let froms ← Act.ofPy (idColumn data fromField)
    let r ← World.getRel rel
    let sizes := r.get_neighbourhood_size froms
    Act.ofPy (Frame.ofColumn data.index namedAs
      (froms.map fun f => Cell.num (((sizes.get? f).getD 0 : Nat) : Rat)))

/-- `SelectOne` (relationship.py:525-554) -/
def selectOne (rel : Nat) (fromField namedAs : String) (oneToOne pop discardEmpty : Bool)
    (weight : Option (Dict Val Rat)) : Op (World σ γ) :=
  addColumns .inner fun data => do
    let froms ← Act.ofPy (idColumn data fromField)
    let r ← World.getRel rel
    let (rows, r) ← Act.ofPy (r.select_one env.R (some (data.index.zip froms)) pop discardEmpty
      oneToOne weight)
    World.setRel rel r
    pure ⟨[namedAs], rows.map fun x => ⟨x.label, [.scalar (x.to_.getD .na)]⟩⟩

/-- the merge of `SelectAll.transform` (relationship.py:598-604), an inner merge of the story data
with the selected lists: pandas lists the rows key by key, in order of first appearance -/
def mergeLists (data : Frame) (froms : List Val) (namedAs : String)
    (selected : List (Val × List Val)) : Frame :=
  ⟨Frame.mergedCols data.cols [namedAs],
    (uniq froms).flatMap fun f =>
      match Dict.get? selected f with
      | none => []
      | some tos => ((data.rows.zip froms).filter (fun x => decide (x.2 = f))).map fun x =>
          ⟨x.1.idx, x.1.cells ++ [.list tos]⟩⟩

/-- `SelectAll` (relationship.py:585-604). The index of story data has no name, hence the merge is on
the field (line 603). -/
def selectAll (rel : Nat) (fromField namedAs : String) : Op (World σ γ) := fun data => do
  let froms ← Act.ofPy (idColumn data fromField)
  let r ← World.getRel rel
  pure (mergeLists data froms namedAs (r.select_all_horizontal env.orders (uniq froms)), [])

/-- `SelectMany` (relationship.py:613-639) -/
def selectMany (rel : Nat) (fromField namedAs quantityField : String) (pop discardMissing : Bool) :
    Op (World σ γ) :=
  addColumns .inner fun data => do
    let froms ← Act.ofPy (idColumn data fromField)
    let qties ← Act.ofPy do (← data.col quantityField).mapM asInt
    let r ← World.getRel rel
    let (rows, r) ← Act.ofPy (r.select_many env.R (data.index.zip (froms.zip qties)) pop
      discardMissing)
    World.setRel rel r
    pure ⟨[namedAs], rows.map fun x => ⟨x.1, [.list x.2]⟩⟩

/-- a side effect on one relationship, skipped on empty story data -/
def onRel (rel : Nat) (f : Relationship σ → Frame → Py (Relationship σ)) : Op (World σ γ) :=
  sideEffect fun data =>
    if data.rows = [] then pure ()
    else do
      let r ← World.getRel rel
      let r ← Act.ofPy (f r data)
      World.setRel rel r

/-- `RelationshipOps.Add` (relationship.py:646-656) -/
def relAdd (rel : Nat) (fromField itemField : String) : Op (World σ γ) :=
  onRel rel fun r data => do
    r.add_relations env.orders (← idColumn data fromField) (← idColumn data itemField)

/-- `RelationshipOps.AddGrouped` (relationship.py:661-672) -/
def relAddGrouped (rel : Nat) (fromField groupedField : String) : Op (World σ γ) :=
  onRel rel fun r data => do
    let items ← (← data.col groupedField).mapM Cell.asList
    r.add_grouped_relations env.orders (← idColumn data fromField) items

/-- `RelationshipOps.Remove` (relationship.py:682-692): calls `self.relationship.remove`, a method
that does not exist -/
def relRemove (rel : Nat) (fromField itemField : String) : Op (World σ γ) :=
  onRel rel fun _ data => do
    let _ ← data.col fromField
    let _ ← data.col itemField
    .error .attributeError

/-! ### Attributes and populations -/

/-- a method of one attribute -/
def onAttribute (pop : Nat) (name : String) (f : Attribute → Py Attribute) :
    Act (World σ γ) Unit := do
  let p ← World.getPop pop
  let a ← Act.ofPy (p.getAttribute name)
  let a ← Act.ofPy (f a)
  World.setPop pop { p with attributes := p.attributes.set name a }

/-- `AttributeOps.Update` (attribute.py:118-129) -/
def attrUpdate (pop : Nat) (name : String) (idField copyFrom : String) : Op (World σ γ) :=
  sideEffect fun data =>
    if data.rows = [] then pure ()
    else do
      let values ← Act.ofPy (data.col copyFrom)
      let ids ← Act.ofPy (idColumn data idField)
      onAttribute pop name fun a => a.update (ids.zip values)

/-- `-values` (attribute.py:157) -/
def negate : Cell → Py Cell
  | .scalar (.num q) => .ok (.num (-q))
  | .scalar .na => .ok .na
  | _ => .error .typeError

/-- the added values (attribute.py:155-157) -/
def addedValues (subtract : Bool) (values : List Cell) : Py (List Cell) :=
  if subtract then values.mapM negate else .ok values

/-- `AttributeOps.Add` (attribute.py:144-161) -/
def attrAdd (pop : Nat) (name : String) (idField addedField : String) (subtract : Bool) :
    Op (World σ γ) :=
  sideEffect fun data =>
    if data.rows = [] then pure ()
    else do
      let values ← Act.ofPy (data.col addedField)
      let values ← Act.ofPy (addedValues subtract values)
      let ids ← Act.ofPy (idColumn data idField)
      onAttribute pop name fun a => a.add ids values

/-- `_lookup_by_scalars` (population.py:284-306): columns added by the successive merges on the id
field (line 299), without the id field itself (dropped on line 305: `KeyError` if a merge renamed
it) -/
def lookupScalars (p : Population) (idField : String) (sel : Dict String String) (data : Frame) :
    Py Frame := do
  let ids ← idColumn data idField
  let vals ← sel.mapM fun s => p.getAttributeValues s.1 ids
  if sel.any (fun s => decide (s.2 = idField)) then .error .keyError
  else
    let cols := sel.foldl (fun cols s => Frame.mergedCols cols [s.2]) []
    .ok ⟨cols, data.index.zipIdx.map fun x => ⟨x.1, vals.map fun v => v.getD x.2 Cell.na⟩⟩

/-- `_lookup_by_sequences` (population.py:308-330): a later column of the same name overwrites the
previous one -/
def lookupSequences (p : Population) (idField : String) (sel : Dict String String) (data : Frame) :
    Py Frame := do
  let lists ← (← data.col idField).mapM Cell.asList
  let cols ← sel.mapM fun s => do
    let cells ← lists.mapM fun ids => do
      let vals ← p.getAttributeValues s.1 ids
      .ok (Cell.list (← vals.mapM Cell.asVal))
    .ok (s.2, cells)
  let cols : Dict String (List Cell) := cols.foldl (fun d c => d.set c.1 c.2) []
  .ok ⟨cols.keys, data.index.zipIdx.map fun x => ⟨x.1, cols.map fun c => c.2.getD x.2 Cell.na⟩⟩

/-- `Lookup.build_output` (population.py:276-282) -/
def lookupOutput (p : Population) (idField : String) (sel : Dict String String) (data : Frame) :
    Py Frame :=
  match data.rows with
  | [] => .ok ⟨sel.map Prod.snd, []⟩
  | r :: _ => do
    let i ← data.pos idField
    match ← Frame.cellAt i r with
    | .list _ => lookupSequences p idField sel data
    | .scalar _ => lookupScalars p idField sel data

/-- `PopulationOps.Lookup` (population.py:269-330) -/
def lookup (pop : Nat) (idField : String) (sel : Dict String String) : Op (World σ γ) :=
  addColumns .left fun data => do
    let p ← World.getPop pop
    Act.ofPy (lookupOutput p idField sel data)

/-- the frame built by `PopulationOps.Update.side_effect` (population.py:356-361) -/
def updateFrame (idField : String) (copy : Dict String String) (data : Frame) : Py Frame := do
  let ids ← idColumn data idField
  let cols ← copy.mapM fun c => data.col c.2
  .ok ⟨copy.map Prod.fst,
    ids.zipIdx.map fun x => ⟨x.1, cols.map fun c => c.getD x.2 Cell.na⟩⟩

/-- `PopulationOps.Update` (population.py:350-362) -/
def popUpdate (pop : Nat) (idField : String) (copy : Dict String String) : Op (World σ γ) :=
  sideEffect fun data => do
    let f ← Act.ofPy (updateFrame idField copy data)
    let p ← World.getPop pop
    let p ← Act.ofPy (p.update f)
    World.setPop pop p

/-! ### Stories -/

/-- `story_data.where(condition)` then the column of ids (story.py:267-273): the ids of the rows
whose condition is false become NaN -/
def maskedIds (idField : String) (cond : Option String) (data : Frame) : Py (List Cell) :=
  match cond with
  | none => data.col idField
  | some c => do
    let conds ← (← data.col c).mapM Cell.asBool
    let ids ← data.col idField
    .ok (List.zipWith (fun (b : Bool) v => if b then v else Cell.na) conds ids)

/-- `ForceActNext` (story.py:256-275) -/
def forceActNext (story : Nat) (idField : String) (cond : Option String := none) :
    Op (World σ γ) :=
  sideEffect fun data =>
    if data.rows = [] then pure ()
    else do
      let cells ← Act.ofPy (maskedIds idField cond data)
      let ids ← Act.ofPy ((cells.filter Cell.notna).mapM Cell.asVal)
      World.onStory story fun s => s.forceActNext ids

/-- ids reset by the operation `ResetTimers` (story.py:293-299) -/
def resetIds (idField : Option String) (data : Frame) : Py (List Val) :=
  match idField with
  | none => .ok data.index
  | some f => do
    let cells ← data.col f
    .ok (uniq (← (cells.filter Cell.notna).mapM Cell.asVal))

/-- `ResetTimers` (story.py:288-299) -/
def resetTimers (story : Nat) (idField : Option String := none) : Op (World σ γ) :=
  sideEffect fun data => do
    let ids ← Act.ofPy (resetIds idField data)
    World.resetTimers env story (some ids)

/-- where the new states come from (story.py:340-342): exactly one of a field and a constant -/
inductive StateSource where
  | field (name : String)
  | const (state : Val)

/-- `story_data[story_data[condition_field]]` (story.py:318-321) -/
def conditioned (cond : Option String) (data : Frame) : Py Frame :=
  match cond with
  | none => .ok data
  | some c => do
    let conds ← (← data.col c).mapM Cell.asBool
    .ok (data.mask conds)

/-- members and states of a `TransitToState` (story.py:323-330) -/
def transitions (idField : String) (src : StateSource) (data : Frame) : Py (List (Val × Val)) :=
  match src with
  | .const st => do
    let cells ← data.col idField
    let ids ← (cells.filter Cell.notna).mapM Cell.asVal
    .ok (ids.map fun i => (i, st))
  | .field name => do
    let ids ← data.col idField
    let sts ← data.col name
    ((ids.zip sts).filter (fun x => x.1.notna && x.2.notna)).mapM fun x => do
      .ok (← x.1.asVal, ← x.2.asVal)

/-- `TransitToState` (story.py:307-332) -/
def transitToState (story : Nat) (idField : String) (src : StateSource)
    (cond : Option String := none) : Op (World σ γ) :=
  sideEffect fun data => do
    let filtered ← Act.ofPy (conditioned cond data)
    let ts ← Act.ofPy (transitions idField src filtered)
    World.onStory story fun s => s.transitToState (ts.map Prod.fst) (ts.map Prod.snd)

/-- `StoryOps.transit_to_state` (story.py:334-345): the constructor of the operation -/
def mkTransitToState (story : Nat) (idField : String) (stateField : Option String)
    (state : Option Val) (cond : Option String := none) : Py (Op (World σ γ)) :=
  match stateField, state with
  | some f, none => .ok (transitToState story idField (.field f) cond)
  | none, some s => .ok (transitToState story idField (.const s) cond)
  | _, _ => .error .valueError

/-- `_MaybeBackToDefault` (story.py:218-253) -/
def maybeBackToDefault (story : Nat) : Op (World σ γ) :=
  sideEffect fun data => World.onStory story fun s => s.maybeBackToDefault env.R data.index

/-- `Story.set_operations` (story.py:80-86): the list of operations of the chain -/
def setOperations (story : Nat) (ops : List (Op (World σ γ))) : List (Op (World σ γ)) :=
  ops ++ [maybeBackToDefault env story]

end

end Ops
end Trumania
