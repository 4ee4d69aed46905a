import Verif.Model.Frame
import Verif.Model.Relationship
import Verif.Model.Clock

/-!
# Model of the class `Story` of `trumania/core/story.py`

State of one story and its methods, as functions of this state. The execution of the operations
and the operations on stories are in `Verif.Model.World` and `Verif.Model.Ops`.
Labels of the timer table are the ids of the population at construction.
-/

namespace Trumania

/-- parameters of one member in one state (story.py:60-66) -/
structure StateParams where
  activity : Rat
  back : Rat
deriving DecidableEq, Repr

/-- a row of `self.timer` (story.py:69-70); `remaining = none` is NaN -/
structure TimerRow where
  id : Val
  state : Val
  remaining : Option Rat
deriving DecidableEq, Repr

/-- A generator object: a reference to one held by the circus, a constant generator built on the spot
(`ConstantGenerator`, `ConstantDependentGenerator`), or a generator without state of its own, made from
other generators. The same generator can be referred to several times. -/
inductive GenRef where
  | ref (i : Nat)
  | constant (v : Cell)
  /-- `g.map(f=f)` (random_generators.py:49-73); `f` has no side effect -/
  | mapped (g : GenRef) (f : Cell → Py Cell)
  /-- `g.map(f_vect=f)` (random_generators.py:49-73); `f` has no side effect -/
  | mappedVect (g : GenRef) (f : List Cell → Py (List Cell))
  /-- `g.flatmap(dep)` (random_generators.py:75-90) -/
  | flatmapped (g dep : GenRef)
  /-- `DependentBulkGenerator(element_generator=g)` (random_generators.py:526-540) -/
  | bulk (g : GenRef)

/-- `Generator.map` (random_generators.py:49-73); it asserts that one of the two functions is given
(line 58) -/
def GenRef.map? (g : GenRef) (f : Option (Cell → Py Cell)) (fVect : Option (List Cell → Py (List Cell))) :
    Py GenRef :=
  match f, fVect with
  | some f, none => .ok (.mapped g f)
  | none, some f => .ok (.mappedVect g f)
  | _, _ => .error .assertionError

/-- name of the default state -/
def defaultState : Val := .str "default"

/-- A `Story` (story.py:44-78). `population` is a reference. `judge` is the state of
the random generator of its `_MaybeBackToDefault` operation (story.py:226). -/
structure Story (σ : Type) where
  name : String
  population : Nat
  idField : String
  timerGen : GenRef
  autoReset : Bool
  judge : σ
  states : List Val
  params : Dict Val (Dict Val StateParams)
  timer : List TimerRow
  forced : List Val

namespace Story
variable {σ : Type}

/-- index of the timer table -/
def ids (s : Story σ) : List Val := s.timer.map (·.id)

/-- row of the timer table of a member -/
def row? (s : Story σ) (id : Val) : Option TimerRow :=
  s.timer.find? (fun r => decide (r.id = id))

/-- `self.timer.loc[ids, ...]` raises `KeyError` if some label is missing -/
def checkIds (s : Story σ) (ids : List Val) : Py Unit :=
  if ids.all (fun i => s.ids.contains i) then .ok () else .error .keyError

/-- the parameters of one member in its current state (story.py:98-105); with the default state
only, the current state is ignored (lines 98-99) -/
def paramOf (s : Story σ) (id : Val) : Py StateParams := do
  let byState ← s.params.get id
  if s.states.length = 1 then byState.get defaultState
  else
    match s.row? id with
    | none => .error .keyError
    | some r => byState.get r.state

/-- `get_param` (story.py:91-105), for ids without duplicates; `which` is the parameter name -/
def getParam (which : StateParams → Rat) (s : Story σ) (ids : List Val) : Py (List Rat) :=
  ids.mapM fun i => do .ok (which (← s.paramOf i))

/-- `transit_to_state` (story.py:110-115); with a duplicated id the last state wins -/
def transitToState (s : Story σ) (ids : List Val) (states : List Val) : Py (Story σ) := do
  s.checkIds ids
  if states.length ≠ ids.length then .error .valueError
  else
    .ok { s with timer := s.timer.map fun r =>
      match Dict.get? (ids.zip states).reverse r.id with
      | some st => { r with state := st }
      | none => r }

/-- `active_inactive_ids` (story.py:117-124), first component -/
def activeIds (s : Story σ) : List Val :=
  (s.timer.filter (fun r => decide (r.remaining = some 0))).map (·.id)

/-- `active_inactive_ids` (story.py:117-124), second component -/
def inactiveIds (s : Story σ) : List Val :=
  (s.timer.filter (fun r => !decide (r.remaining = some 0))).map (·.id)

/-- `pd.Index(ids).difference(self.forced_to_act_next)`: unchanged when nothing is forced, otherwise
without duplicates and sorted -/
def minusForced (s : Story σ) (ids : List Val) : List Val :=
  if s.forced = [] then ids
  else sortBy Val.le ((uniq ids).filter (fun i => !s.forced.contains i))

/-- `timer >= 0`, false for NaN -/
def nonneg (r : TimerRow) : Bool :=
  match r.remaining with
  | some q => decide (0 ≤ q)
  | none => false

/-- `timer_tick` (story.py:126-136) -/
def timerTick (s : Story σ) (ids : List Val) : Py (Story σ) := do
  let ids := if s.forced.length > 0 then s.minusForced ids else ids
  s.checkIds ids
  .ok { s with timer := s.timer.map fun r =>
    if ids.contains r.id && nonneg r then { r with remaining := r.remaining.map (· - 1) } else r }

/-- `force_act_next` (story.py:138-141) -/
def forceActNext (s : Story σ) (ids : List Val) : Py (Story σ) :=
  if ids.length > 0 then do
    s.checkIds ids
    .ok { s with
      forced := ids ++ s.forced
      timer := s.timer.map fun r =>
        if ids.contains r.id then { r with remaining := some 0 } else r }
  else .ok s

/-- a generated timer value -/
def asTimer : Cell → Py (Option Rat)
  | .scalar (.num q) => .ok (some q)
  | .scalar .na => .ok none
  | _ => .error .typeError

/-- `self.timer.loc[ids, "remaining"] = values` -/
def assignTimers (timer : List TimerRow) (vals : List (Val × Option Rat)) : List TimerRow :=
  timer.map fun r =>
    match Dict.get? vals.reverse r.id with
    | some v => { r with remaining := v }
    | none => r

/-- `reset_timers` (story.py:143-179); `observe` is `time_generator.generate(observations=...)`,
whose result is assumed to be indexed like the observations. `ids = none` is everybody. -/
def resetTimers {γ : Type} (observe : γ → List Cell → Py (List Cell × γ)) (g : γ)
    (s : Story σ) (ids : Option (List Val)) : Py (Story σ × γ) :=
  let ids := s.minusForced (ids.getD s.ids)
  if ids = [] then .ok (s, g)
  else do
    let activity ← s.getParam (·.activity) ids
    let (vals, g) ← observe g (activity.map Cell.num)
    let timers ← vals.mapM asTimer
    s.checkIds ids
    if timers.length ≠ ids.length then .error .valueError
    else
      let new := List.zipWith (fun a t => if a ≠ 0 then t else some (-1)) activity timers
      .ok ({ s with timer := assignTimers s.timer (ids.zip new) }, g)

/-- first lines of `execute` (story.py:195): forgets who was forced -/
def clearForced (s : Story σ) : Story σ := { s with forced := [] }

/-- `init_story_data` (story.py:181-187) -/
def initStoryData (field : String) (active : List Val) : Frame :=
  ⟨[field], active.map fun i => ⟨i, [.scalar i]⟩⟩

/-- ids of the given members that are not in the default state (story.py:231-234) -/
def nonDefault (s : Story σ) (ids : List Val) : List Val :=
  ids.filter fun i => match s.row? i with
    | some r => decide (r.state ≠ defaultState)
    | none => false

/-- the condition of lines 242-248: with all probabilities 0 or all 1 no random draw is made -/
def backConds (R : Rng σ) (judge : σ) (probs : List Rat) : List Bool × σ :=
  if probs.all (fun p => decide (p = 0)) then (probs.map fun _ => false, judge)
  else if probs.all (fun p => decide (p = 1)) then (probs.map fun _ => true, judge)
  else
    let (baseline, judge) := R.uniform judge probs.length
    (List.zipWith (fun p b => decide (p > b)) probs baseline, judge)

/-- `_MaybeBackToDefault.side_effect` (story.py:229-253) for the given index of the story data -/
def maybeBackToDefault (R : Rng σ) (s : Story σ) (index : List Val) : Py (Story σ) := do
  s.checkIds index
  let ids := s.nonDefault index
  if ids = [] then .ok s
  else
    let probs ← s.getParam (·.back) ids
    let (cond, judge) := backConds R s.judge probs
    let chosen := ((ids.zip cond).filter (·.2)).map Prod.fst
    ({ s with judge := judge }).transitToState chosen (chosen.map fun _ => defaultState)

/-- the loop of the constructor (story.py:60-66) for one state: the generated activities and
probabilities must be as many as the ids of the population -/
def addState (ids : List Val) (params : Dict Val (Dict Val StateParams)) (state : Val)
    (activity back : List Rat) : Py (Dict Val (Dict Val StateParams)) :=
  if activity.length ≠ ids.length ∨ back.length ≠ ids.length then .error .valueError
  else .ok (List.zipWith (fun (kv : Val × Dict Val StateParams) (ab : Rat × Rat) =>
    (kv.1, kv.2.set state ⟨ab.1, ab.2⟩)) params (activity.zip back))

end Story

end Trumania
