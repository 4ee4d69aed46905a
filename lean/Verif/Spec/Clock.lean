import Verif.Model.Clock
import Mathlib.Data.List.Rotate

/-!
# Specifications for the clock and the cyclic timers (C08-C15)
-/

namespace Trumania
namespace Spec

/-- `d` is the last date of the form `start + n * step` that is not after `ub` -/
def IsLastCycleStart (start ub step d : Int) : Prop :=
  (∃ n : Int, d = start + n * step) ∧ d ≤ ub ∧ ub < d + step

/-- share of the weights held by the `j + 1` first bins, for each `j` -/
def shares (w : List Rat) : List Rat :=
  (List.range w.length).map fun j => (w.take (j + 1)).sum / w.sum

/-- Number of whole clock steps in one profile cycle. -/
def nBins (cfg : TimerProfile) (step : Int) : Nat :=
  ((cfg.profile.length : Int) * cfg.steps / step).toNat

/-- `w` are the weights of the clock steps of one cycle: step `k` starts `k * step` after the start
of the profile and has the weight of the profile entry covering that instant, i.e. entry `i` with
`i * steps <= k * step < (i + 1) * steps`. -/
def IsBinWeights (cfg : TimerProfile) (step : Int) (w : List Rat) : Prop :=
  w.length = nBins cfg step ∧
  ∀ k : Nat, k < w.length → ∃ i : Nat,
    (i : Int) * cfg.steps ≤ k * step ∧ (k : Int) * step < (i + 1) * cfg.steps ∧
    ∃ x, cfg.profile[i]? = some x ∧ w[k]? = some x

/-- the dates of the `n` clock steps from `init` on -/
def gridDates (init step : Int) (n : Nat) : List Int :=
  (List.range n).map fun k : Nat => init + k * step

end Spec

/-- All that can happen to a timer after its construction: the clock increments it, or timers are
generated. `TimerRun R t0 k t`: `t` is reached from `t0` with `k` increments. -/
inductive TimerRun {σ : Type} (R : Rng σ) (t0 : CyclicTimer σ) : Nat → CyclicTimer σ → Prop
  | start : TimerRun R t0 0 t0
  | increment {k t} : TimerRun R t0 k t → TimerRun R t0 (k + 1) t.increment
  | generate {k t} (obs : List Rat) : TimerRun R t0 k t → TimerRun R t0 k (t.generate R obs).2

/-- What can be called on a clock. -/
inductive ClockCall (ℓ : Type) where
  | increment
  | register (l : ℓ)
  | timestamp (size : Nat) (random : Bool)

namespace ClockCall
variable {σ ℓ : Type}

/-- effect of one call on the clock -/
def exec (R : Rng σ) (inc : ℓ → ℓ) (c : Clock σ ℓ) : ClockCall ℓ → Py (Clock σ ℓ)
  | increment => .ok (c.increment inc)
  | register l => .ok (c.register l)
  | timestamp size random => do .ok (← c.getTimestamp R size random).2

/-- effect of a sequence of calls -/
def execs (R : Rng σ) (inc : ℓ → ℓ) (c : Clock σ ℓ) : List (ClockCall ℓ) → Py (Clock σ ℓ)
  | [] => .ok c
  | call :: calls => do execs R inc (← call.exec R inc c) calls

/-- number of increments among the calls -/
def nIncrements : List (ClockCall ℓ) → Nat
  | [] => 0
  | increment :: calls => nIncrements calls + 1
  | _ :: calls => nIncrements calls

/-- the registered listeners in order, each with the number of increments called after its
registration -/
def registered : List (ClockCall ℓ) → List (ℓ × Nat)
  | [] => []
  | register l :: calls => (l, nIncrements calls) :: registered calls
  | _ :: calls => registered calls

end ClockCall

end Trumania
