import Verif.Model.Generators
import Verif.Model.Clock
import Verif.Model.World

/-!
# The generator objects of a circus

The generator classes of the library as one type, to instantiate `GenSem`. `FakerGenerator` and
`MongoIdGenerator` are left out. `Generator.map`, `flatmap`, and bulk generators which share their
element generator, are in `GenRef`.
-/

namespace Trumania

/-- a generator object and its state -/
inductive AnyGen (σ : Type) where
  /-- `ConstantGenerator`, `ConstantDependentGenerator` -/
  | constant (v : Cell)
  /-- `FixedValuesGenerator` -/
  | fixed (values : List Cell)
  /-- `SequencialGenerator` -/
  | seq (g : SeqGen)
  /-- `NumpyRandomGenerator(method="uniform")`: low, high, state -/
  | uniform (low high : Rat) (s : σ)
  /-- `NumpyRandomGenerator(method="choice", a=..., p=...)` -/
  | choice (a : List Val) (p : Option (List Rat)) (s : σ)
  /-- `ParetoGenerator` -/
  | pareto (xmin : Rat) (forceInt : Bool) (s : σ)
  /-- `MSISDNGenerator`, with the seed of the numpy generator it builds at each call -/
  | msisdn (g : MsisdnGen) (seed : Int)
  /-- `CyclicTimerGenerator` -/
  | cyclic (t : CyclicTimer σ)
  /-- `DependentTriggerGenerator` -/
  | trigger (mapper : List Rat → List Rat) (s : σ)
  /-- `DependentBulkGenerator`, with an element generator of its own -/
  | bulk (element : AnyGen σ)

namespace AnyGen
variable {σ : Type} (R : Rng σ)

/-- the `generate` of the subclasses of `Generator` (see the definitions used); the dependent ones
have no `size` parameter (`TypeError`). `[v] * size` and numpy reject sizes that are not whole. -/
def generate : AnyGen σ → Rat → Py (List Cell × AnyGen σ)
  | .constant v, n =>
    if n.den = 1 then .ok (constantGenerate v n.num, .constant v) else .error .typeError
  | .fixed l, n =>
    if n.den = 1 then do .ok (← fixedValuesGenerate l n.num, .fixed l) else .error .assertionError
  | .seq g, n =>
    .ok ((g.generate n).1.map Cell.str, .seq (g.generate n).2)
  | .uniform lo hi s, n =>
    if n.den = 1 ∧ 0 ≤ n then
      .ok ((R.uniform s n.num.toNat).1.map (fun u => Cell.num (lo + (hi - lo) * u)),
        .uniform lo hi (R.uniform s n.num.toNat).2)
    else .error .valueError
  | .choice a p s, n =>
    if n.den = 1 ∧ 0 ≤ n then do
      let (v, s) ← choiceGenerate R s a p n.num.toNat
      .ok (v.map Cell.scalar, .choice a p s)
    else .error .valueError
  | .pareto xmin f s, n =>
    if n.den = 1 ∧ 0 ≤ n then
      .ok ((paretoGenerate R xmin f s n.num.toNat).1.map Cell.num,
        .pareto xmin f (paretoGenerate R xmin f s n.num.toNat).2)
    else .error .valueError
  | .msisdn g seed, n =>
    if n.den = 1 ∧ 0 ≤ n then do
      let (v, g) ← MsisdnGen.generate R (R.seed seed) g n.num.toNat
      .ok (v.map Cell.str, .msisdn g seed)
    else .error .valueError
  | .cyclic _, _ => .error .typeError
  | .trigger _ _, _ => .error .typeError
  | .bulk _, _ => .error .typeError

/-- successive sizes given to the element generator of a `DependentBulkGenerator`
(random_generators.py:535-540) -/
def bulkCells : AnyGen σ → List Cell → Py (List Cell × AnyGen σ)
  | g, [] => .ok ([], g)
  | g, c :: cs => do
    let n ← c.asNum
    let (v, g) ← generate R g n
    let vals ← v.mapM Cell.asVal
    let (rest, g) ← bulkCells g cs
    .ok (Cell.list vals :: rest, g)

/-- the timers of the cyclic generator as cells -/
def timerCell : Option Rat → Cell
  | some q => Cell.num q
  | none => Cell.na

/-- the `generate` of the subclasses of `DependentGenerator`; the others have no `observations`
parameter -/
def observe : AnyGen σ → List Cell → Py (List Cell × AnyGen σ)
  | .constant v, obs => .ok (obs.map (fun _ => v), .constant v)
  | .cyclic t, obs => do
    let acts ← obs.mapM Cell.asNum
    .ok ((t.generate R acts).1.map timerCell, .cyclic (t.generate R acts).2)
  | .trigger m s, obs => do
    let vals ← obs.mapM Cell.asNum
    let (bs, s) ← triggerGenerate R m s vals
    .ok (bs.map Cell.bool, .trigger m s)
  | .bulk g, obs => do
    let (v, g) ← bulkCells R g obs
    .ok (v, .bulk g)
  | _, _ => .error .typeError

/-- reaction to the increment of the clock: only cyclic timers are listeners (clock.py:187) -/
def tick : AnyGen σ → AnyGen σ
  | .cyclic t => .cyclic t.increment
  | g => g

/-- the draws of numpy are arrays (random_generators.py:186), unless converted to integers by
`ParetoGenerator` (random_generators.py:264); `MSISDNGenerator` builds an array
(random_generators.py:382) -/
def isArray : AnyGen σ → Bool
  | .uniform _ _ _ => true
  | .choice _ _ _ => true
  | .pareto _ forceInt _ => !forceInt
  | .msisdn _ _ => true
  | _ => false

/-- `dep.generate(samples)` when the samples are an array or a list, which have neither `index` labels
(random_generators.py:486) nor `where` (clock.py:216); lists have no `shape`
(random_generators.py:507). Calling a generator that is not dependent is not modelled. -/
def accepts : AnyGen σ → Bool → Py Unit
  | .constant _, array => .error (if array then .attributeError else .typeError)
  | .cyclic _, _ => .error .attributeError
  | .trigger _ _, array => if array then .ok () else .error .attributeError
  | .bulk _, _ => .ok ()
  | _, _ => .error .typeError

/-- the behaviour of these generators -/
def sem : GenSem (AnyGen σ) := ⟨generate R, observe R, tick, isArray, accepts⟩

end AnyGen

end Trumania
