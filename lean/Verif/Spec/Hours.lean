import Verif.Spec.Clock
import Verif.Spec.Run
import Verif.Model.AnyGen

/-!
# When the members of a story scheduled by a cyclic timer act
-/

namespace Trumania
namespace Spec
variable {σ : Type}

/-- weight given by a profile to a date: the one of the entry of the cycle that covers it -/
def profileWeight (cfg : TimerProfile) (date : Int) : Rat :=
  cfg.profile.getD ((date - cfg.start) % (cfg.profile.length * cfg.steps) / cfg.steps).toNat 0

/-- the profile gives some weight to this clock step, or to the one before -/
def Active (cfg : TimerProfile) (step date : Int) : Prop :=
  0 < profileWeight cfg date ∨ 0 < profileWeight cfg (date - step)

/-- no random draw is exactly 0 -/
structure NoZeroDraw (R : Rng σ) : Prop where
  uniform : ∀ s n, ∀ u ∈ (R.uniform s n).1, 0 < u
  beta : ∀ s a b, 0 < (R.beta s a b).1

/-- A timer built at a date of the grid of clock steps counted from the start of the profile, and
incremented once per step since then; `date` is the current date. -/
def OnTime (R : Rng σ) (cfg : TimerProfile) (step date : Int) (t : CyclicTimer σ) : Prop :=
  ∃ (fuel : Nat) (seed date0 : Int) (t0 : CyclicTimer σ) (k : Nat),
    CyclicTimer.new fuel R cfg seed date0 step = some (some (.ok t0)) ∧ TimerRun R t0 k t ∧
    date = date0 + k * step ∧ (date0 - cfg.start) % step = 0

/-- two dates at the same point of the cycle -/
def SamePoint (cfg : TimerProfile) (d e : Int) : Prop :=
  (d - e) % (cfg.profile.length * cfg.steps) = 0

/-- Events in which the story `b` is executed once per clock step: between two increments of the clock,
once. `done` tells whether it has been executed since the last increment; the result is the same at the
end of the events. -/
def oncePerStep (b : Nat) : Bool → List (Option Nat) → Option Bool
  | done, [] => some done
  | done, none :: l => if done then oncePerStep b false l else none
  | done, some i :: l =>
    if i = b then (if done then none else oncePerStep b true l) else oncePerStep b done l

/-- the story `b` reschedules its members itself, with the cyclic timer `g`, which is on time -/
def TimedBy (env : Env σ (AnyGen σ)) (cfg : TimerProfile) (b g : Nat) (w : World σ (AnyGen σ)) : Prop :=
  ∃ s t, w.stories[b]? = some s ∧ s.ids.Nodup ∧ s.autoReset = true ∧ s.timerGen = .ref g ∧
    w.gens[g]? = some (.cyclic t) ∧ OnTime env.R cfg w.clock.step w.clock.current t

/-- a date at which a member may act: the profile gives some weight to this step or to the one before,
or its timer in the beginning, in the story `s0` at the date `start`, said so, for this date or for the
same point of another cycle -/
def MayAct (cfg : TimerProfile) (s0 : Story σ) (start step : Int) (id : Val) (date : Int) : Prop :=
  Active cfg step date ∨
    ∃ n : Nat, timerOf s0 id = some (some (n : Rat)) ∧ SamePoint cfg date (start + n * step)

/-- what the timers of new members say: a member whose activity is not positive has no timer or a
negative one; the other ones act first one step before a step with some weight, or right now in such a
step, or one step before the same point of the cycle as now -/
def FirstTimer (cfg : TimerProfile) (step now : Int) : Option Rat → Prop
  | none => True
  | some r => r < 0 ∨ ∃ n : Nat, r = n ∧
    (0 < profileWeight cfg (now + n * step + step) ∨ (n = 0 ∧ 0 < profileWeight cfg now) ∨
      SamePoint cfg (now + n * step + step) now)

/-! ### Calendar -/

/-- day of the week: 0 is Monday. 1970-01-01, day 0, is a Thursday. -/
def weekday (date : Int) : Int := (date / nsPerDay + 3) % 7

/-- hour of the day -/
def hourOf (date : Int) : Int := date % nsPerDay / (3600 * nsPerSec)

end Spec
end Trumania
