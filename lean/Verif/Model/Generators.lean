import Verif.Model.Rng
import Verif.Model.Util

/-!
# Model of `trumania/core/random_generators.py`
-/

namespace Trumania

/-! ### Seeds -/

/-- one iteration of the loop of `seed_provider` (random_generators.py:20-23):
`state.randint(1, 2**31 - 1)`, the upper bound being excluded -/
def nextSeed {σ : Type} (R : Rng σ) (s : σ) : Py (Int × σ) :=
  match R.randint s (2 ^ 31 - 1 - 1) 1 with
  | ([x], s') => .ok ((x : Int) + 1, s')
  | _ => .error .indexError

/-- the `n` first seeds yielded by `seed_provider(master_seed)` (random_generators.py:15-23) -/
def seeds {σ : Type} (R : Rng σ) : σ → Nat → Py (List Int)
  | _, 0 => .ok []
  | s, n + 1 => do
    let (x, s') ← nextSeed R s
    .ok (x :: (← seeds R s' n))

/-! ### Constant and fixed generators -/

/-- `ConstantGenerator.generate` (random_generators.py:149-150); `[v] * size` is `[]` if negative -/
def constantGenerate {α : Type} (value : α) (size : Int) : List α :=
  List.replicate size.toNat value

/-- `FixedValuesGenerator.generate` (random_generators.py:158-160) -/
def fixedValuesGenerate {α : Type} (values : List α) (size : Int) : Py (List α) :=
  if (values.length : Int) = size then .ok values else .error .assertionError

/-- json values of the saved generators -/
inductive Json where
  | int (i : Int)
  | str (s : String)
deriving DecidableEq, Repr

def Json.asInt : Json → Py Int
  | .int i => .ok i
  | .str _ => .error .typeError

def Json.asStr : Json → Py String
  | .str s => .ok s
  | .int _ => .error .typeError

/-! ### SequencialGenerator -/

/-- state of a `SequencialGenerator` (random_generators.py:269-277) -/
structure SeqGen where
  counter : Int
  pre : String
  maxLength : Nat
deriving DecidableEq, Repr

namespace SeqGen

/-- `SequencialGenerator.generate` (random_generators.py:279-286). The size may be a float and is
truncated (`int(size)`, line 282). -/
def generate (g : SeqGen) (size : Rat) : List String × SeqGen :=
  let sizeI := pyInt size
  (build_ids sizeI g.counter g.pre g.maxLength, { g with counter := g.counter + sizeI })

/-- successive calls to `generate` -/
def generates (g : SeqGen) : List Rat → List (List String) × SeqGen
  | [] => ([], g)
  | n :: ns =>
    let (v, g') := g.generate n
    let (vs, g'') := g'.generates ns
    (v :: vs, g'')

/-- `SequencialGenerator.save_to` (random_generators.py:295-305): the json object written -/
def saveTo (g : SeqGen) : Dict String Json :=
  [("counter", .int g.counter), ("prefix", .str g.pre), ("max_length", .int g.maxLength)]

/-- `SequencialGenerator.load_from` (random_generators.py:307-318), through the constructor
(lines 273-277) -/
def loadFrom (state : Dict String Json) : Py SeqGen := do
  let start ← (← state.get "counter").asInt
  let pre ← (← state.get "prefix").asStr
  let maxLength ← (← state.get "max_length").asInt
  .ok { counter := start, pre := pre, maxLength := maxLength.toNat }

end SeqGen

/-! ### MSISDNGenerator -/

/-- state of a `MSISDNGenerator` (random_generators.py:341-367). `available` is the two-column array
of (number, index of the prefix). -/
structure MsisdnGen where
  cc : String
  pref : List String
  length : Nat
  available : List (Nat × Nat)
deriving DecidableEq, Repr

namespace MsisdnGen

/-- `MSISDNGenerator.__init__` (random_generators.py:346-367) -/
def new (cc : String) (pref : List String) (length : Nat) : MsisdnGen :=
  let maxnumber := 10 ^ length - 1
  { cc, pref, length
    available := (List.range pref.length).flatMap fun i =>
      (List.range maxnumber).map fun x => (x, i) }

/-- one generated number (random_generators.py:383-384) -/
def render (g : MsisdnGen) (e : Nat × Nat) : Py String :=
  match g.pref[e.2]? with
  | some p => .ok (g.cc ++ p ++ String.ofList (zfill (pyStr e.1) g.length))
  | none => .error .indexError

/-- row `i` of the array of available numbers -/
def entry (g : MsisdnGen) (i : Nat) : Py (Nat × Nat) :=
  match g.available[i]? with
  | some e => .ok e
  | none => .error .indexError

/-- `MSISDNGenerator.generate` (random_generators.py:369-390). A new numpy generator is built at
each call from `self.seed` (lines 378-379), which may be `None`: `s` is the state it starts from,
possibly different at each call. -/
def generate {σ : Type} (R : Rng σ) (s : σ) (g : MsisdnGen) (size : Nat) :
    Py (List String × MsisdnGen) := do
  let (idx, _) ← R.choiceNoReplace s g.available.length size
  let msisdns ← idx.mapM fun i => do g.render (← g.entry i)
  let rest ← npDelete g.available idx
  .ok (msisdns, { g with available := rest })

/-- a history of calls: each with its own initial random state and size -/
def generates {σ : Type} (R : Rng σ) (g : MsisdnGen) :
    List (σ × Nat) → Py (List (List String) × MsisdnGen)
  | [] => .ok ([], g)
  | (s, n) :: calls => do
    let (v, g') ← generate R s g n
    let (vs, g'') ← generates R g' calls
    .ok (v :: vs, g'')

end MsisdnGen

/-! ### ParetoGenerator -/

/-- `ParetoGenerator.generate` (random_generators.py:260-266) -/
def paretoGenerate {σ : Type} (R : Rng σ) (xmin : Rat) (forceInt : Bool) (s : σ) (size : Nat) :
    List Rat × σ :=
  let (lomax, s') := R.pareto s size
  let values := lomax.map fun v => (v + 1) * xmin
  (if forceInt then values.map (fun v => (pyInt v : Rat)) else values, s')

/-! ### Triggers -/

/-- `DependentTrigger.generate` (random_generators.py:506-510). The mapper works on the whole
column; numpy raises `ValueError` when it returns another number of values (the broadcasting of a
single returned value is not modelled). -/
def triggerGenerate {σ : Type} (R : Rng σ) (mapper : List Rat → List Rat) (s : σ)
    (observations : List Rat) : Py (List Bool × σ) :=
  let (draws, s') := R.uniform s observations.length
  let proba := mapper observations
  if proba.length = draws.length then
    .ok (List.zipWith (fun d p => decide (d < p)) draws proba, s')
  else .error .valueError

/-! ### Bulk values -/

/-- the slicing of `RandomValues.build_output` (random_generators.py:133-134):
`[list(islice(flat_vals, size)) for size in qties]` on one shared iterator -/
def sliceBulk {α : Type} : List α → List Nat → List (List α)
  | _, [] => []
  | vals, q :: qs => vals.take q :: sliceBulk (vals.drop q) qs

/-- values of `RandomValues.build_output` when a quantity field is given
(random_generators.py:129-134), for integer quantities `>= 0` (`islice` rejects the others) -/
def bulkValues {α τ : Type} (gen : τ → Nat → Py (List α × τ)) (s : τ) (qties : List Nat) :
    Py (List (List α) × τ) := do
  let (vals, s') ← gen s qties.sum
  .ok (sliceBulk vals qties, s')

/-- `DependentBulkGenerator.generate` (random_generators.py:535-540) for a stateful element
generator -/
def bulkGenerate {α τ : Type} (gen : τ → Nat → Py (List α × τ)) :
    τ → List Nat → Py (List (List α) × τ)
  | s, [] => .ok ([], s)
  | s, n :: ns => do
    let (v, s') ← gen s n
    let (vs, s'') ← bulkGenerate gen s' ns
    .ok (v :: vs, s'')

/-! ### NumpyRandomGenerator

`self.state` and `self.numpy_method` (bound to a `RandomState` object) are references to objects:
the objects live in a small heap so that the aliasing of lines 181-182 and 221-232 is visible. -/

/-- A `NumpyRandomGenerator` (random_generators.py:163-182): `method` and `numpy_parameters` are an
opaque description `μ`. -/
structure NumpyGen (μ : Type) where
  method : μ
  /-- reference held by `self.state` -/
  stateRef : Nat
  /-- reference captured by the bound method `self.numpy_method` -/
  methodRef : Nat
deriving DecidableEq, Repr

/-- heap of `RandomState` objects -/
abbrev Heap (σ : Type) := List σ

namespace NumpyGen
variable {σ μ α : Type}

/-- `NumpyRandomGenerator.__init__` (random_generators.py:168-182) -/
def new (R : Rng σ) (h : Heap σ) (method : μ) (seed : Int) : NumpyGen μ × Heap σ :=
  ({ method, stateRef := h.length, methodRef := h.length }, h ++ [R.seed seed])

/-- `NumpyRandomGenerator.generate` (random_generators.py:184-186): calls the bound method, hence
draws from the object `methodRef`. `draw` is the numpy method. -/
def generate (draw : μ → σ → Nat → List α × σ) (h : Heap σ) (g : NumpyGen μ) (size : Nat) :
    Py (List α × Heap σ) :=
  match h[g.methodRef]? with
  | none => .error .attributeError
  | some s =>
    let (v, s') := draw g.method s size
    .ok (v, h.set g.methodRef s')

/-- successive calls to `generate` on the same object -/
def generates (draw : μ → σ → Nat → List α × σ) (h : Heap σ) (g : NumpyGen μ) :
    List Nat → Py (List (List α) × Heap σ)
  | [] => .ok ([], h)
  | n :: ns => do
    let (v, h') ← generate draw h g n
    let (vs, h'') ← generates draw h' g ns
    .ok (v :: vs, h'')

/-- The json document written by `save_to` (random_generators.py:195-209):
`self.state.get_state()`. -/
structure Saved (σ μ : Type) where
  method : μ
  state : σ
deriving DecidableEq, Repr

/-- `NumpyRandomGenerator.save_to` (random_generators.py:195-209) -/
def saveTo (h : Heap σ) (g : NumpyGen μ) : Py (Saved σ μ) :=
  match h[g.stateRef]? with
  | none => .error .attributeError
  | some s => .ok { method := g.method, state := s }

/-- `NumpyRandomGenerator.load_from` (random_generators.py:211-233): builds a generator seeded with
1234 (lines 221-224), then replaces `gen.state` by a *new* object set to the saved state
(lines 231-232); `gen.numpy_method` is not rebound. -/
def loadFrom (R : Rng σ) (h : Heap σ) (saved : Saved σ μ) : NumpyGen μ × Heap σ :=
  let (gen, h1) := new R h saved.method 1234
  ({ gen with stateRef := h1.length }, h1 ++ [saved.state])

end NumpyGen

end Trumania
