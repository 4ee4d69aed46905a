import Verif.Model.Rng
import Verif.Model.Util

/-!
# Model of `trumania/core/clock.py`

Dates and durations are integers (nanoseconds), as in pandas.
-/

namespace Trumania

/-- nanoseconds per second -/
def nsPerSec : Int := 1000000000

/-- nanoseconds per day -/
def nsPerDay : Int := 86400 * nsPerSec

/-- `Timedelta.total_seconds()`, exactly -/
def totalSeconds (d : Int) : Rat := (d : Rat) / (nsPerSec : Rat)

/-- A `Clock` (clock.py:13-40). `ℓ` is the type of the listeners. -/
structure Clock (σ ℓ : Type) where
  current : Int
  step : Int
  state : σ
  listeners : List ℓ

namespace Clock
variable {σ ℓ : Type}

/-- `Clock.__init__` (clock.py:19-40) -/
def new (R : Rng σ) (start step seed : Int) : Clock σ ℓ :=
  { current := start, step, state := R.seed seed, listeners := [] }

/-- `Clock.register_increment_listener` (clock.py:42-45) -/
def register (c : Clock σ ℓ) (l : ℓ) : Clock σ ℓ := { c with listeners := c.listeners ++ [l] }

/-- `Clock.increment` (clock.py:47-56); `inc` is the listeners' `increment` method -/
def increment (inc : ℓ → ℓ) (c : Clock σ ℓ) : Clock σ ℓ :=
  { c with current := c.current + c.step, listeners := c.listeners.map inc }

/-- `Clock.get_timestamp` (clock.py:58-87), before formatting with `strftime` -/
def getTimestamp (R : Rng σ) (c : Clock σ ℓ) (size : Nat) (random : Bool) :
    Py (List Int × Clock σ ℓ) :=
  if random then do
    -- line 84; `choice(n, ...)` with n <= 0 raises ValueError unless size = 0
    let stepSecs := pyInt (totalSeconds c.step)
    let (secs, s') ← R.choice c.state stepSecs.toNat size
    .ok (secs.map (fun (s : Nat) => c.current + (s : Int) * nsPerSec), { c with state := s' })
  else .ok (List.replicate size c.current, c)

/-- `Clock.n_iterations` (clock.py:89-97) -/
def nIterations (c : Clock σ ℓ) (duration : Int) : Py Int :=
  let stepSecs := totalSeconds c.step
  if stepSecs = 0 then .error .zeroDivisionError
  else .ok (Rat.ceil (totalSeconds duration / stepSecs))

end Clock

/-! ### Cyclic timers -/

/-- `CyclicTimerProfile` (clock.py:297-317); `steps` is `profile_time_steps` in ns -/
structure TimerProfile where
  start : Int
  profile : List Rat
  steps : Int
deriving DecidableEq, Repr

/-- `CyclicTimerProfile.duration` (clock.py:344-349) -/
def TimerProfile.duration (p : TimerProfile) : Int := p.profile.length * p.steps

/-- Mutable part of a `CyclicTimerGenerator` (clock.py:127-187): `profile` is the dataframe of the
cdf, indexed by date labels (the "timeframe" debugging column is left out). -/
structure CyclicTimer (σ : Type) where
  state : σ
  nBins : Nat
  profile : List (Int × Rat)

/-- midnight of the day of `t` (`Timestamp.normalize()`) -/
def midnight (t : Int) : Int := t - t % nsPerDay

/-- `CyclicTimerGenerator.increment` (clock.py:189-201): subtracts the first value from all the
cdf, moves the first entry to the end, and sets the last value to 1. -/
def rotateProfile : List (Int × Rat) → List (Int × Rat)
  | [] => []
  | (l, c) :: rest => rest.map (fun x => (x.1, x.2 - c)) ++ [(l, 1)]

/-- Outcome of the construction of the initial profile. -/
inductive BuiltProfile where
  /-- the profile, with one entry per clock step -/
  | ok (profile : List (Int × Rat))
  /-- the origin of the profile is not on the grid of clock steps counted from midnight
  (pandas' resampling origin): not modelled -/
  | misaligned
  /-- the weights sum to 0: the cdf is all NaN (comparisons with NaN are not modelled) -/
  | nan
deriving DecidableEq, Repr

/-- resampled weights (clock.py:164-173): one value per clock step, the last one being dropped
(`[:-1]`, line 171). pandas labels the bins `init + k * clockStep` for all k with
`k * clockStep <= duration`, and pads with the latest earlier value. -/
def resampled (cfg : TimerProfile) (init clockStep : Int) : List (Int × Rat) :=
  (List.range (cfg.duration / clockStep).toNat).map fun (k : Nat) =>
    (init + k * clockStep, cfg.profile.getD ((k * clockStep) / cfg.steps).toNat 0)

/-- cdf of the resampled profile (clock.py:175): `(profile_ser / profile_ser.sum()).cumsum()` -/
def buildProfile (cfg : TimerProfile) (init clockStep : Int) : BuiltProfile :=
  if (init - midnight init) % clockStep ≠ 0 then .misaligned
  else
    let ser := resampled cfg init clockStep
    let total := (ser.map Prod.snd).sum
    if ser = [] then .ok []
    else if total = 0 then .nan
    else .ok ((ser.map Prod.fst).zip (cumsum 0 (ser.map fun x => x.2 / total)))

/-- "micro" time shift (clock.py:181-184), `none` if it takes more than `fuel` iterations -/
def microShift (fuel : Nat) (profile : List (Int × Rat)) (current : Int) :
    Option (Py (List (Int × Rat))) :=
  match fuel with
  | 0 => none
  | fuel + 1 =>
    match profile with
    | [] => some (.error .indexError)
    | (l, _) :: _ =>
      if l < current then microShift fuel (rotateProfile profile) current
      else some (.ok profile)

namespace CyclicTimer
variable {σ : Type}

/-- `CyclicTimerGenerator.__init__` (clock.py:138-187), without the registration to the clock.
Outer `none`: more than `fuel` iterations of one of its loops; inner `none`: NaN or misaligned
profile (see `BuiltProfile`). -/
def new (fuel : Nat) (R : Rng σ) (cfg : TimerProfile) (seed current clockStep : Int) :
    Option (Option (Py (CyclicTimer σ))) := do
  let init ← latest_date_before fuel cfg.start current cfg.duration
  match buildProfile cfg init clockStep with
  | .ok prof =>
    match ← microShift fuel prof current with
    | .ok prof' =>
      some (some (.ok { state := R.seed seed, nBins := prof.length, profile := prof' }))
    | .error e => some (some (.error e))
  | _ => some none

/-- `CyclicTimerGenerator.increment` (clock.py:189-201) -/
def increment (t : CyclicTimer σ) : CyclicTimer σ := { t with profile := rotateProfile t.profile }

/-- the `cdf` column -/
def cdf (t : CyclicTimer σ) : List Rat := t.profile.map Prod.snd

/-- timer of one low activity (clock.py:227-233), before the correction of line 263 -/
def lowTimer (t : CyclicTimer σ) (draw activity : Rat) : Rat :=
  let nCycles := 2 * draw / activity
  let nCyclesInt := nCycles.floor
  let slot := nCycles - nCyclesInt
  (searchLeft t.cdf slot : Rat) + (t.nBins : Rat) * nCyclesInt

/-- timer of one high activity (clock.py:249-252), before the correction of line 263 -/
def highTimer (t : CyclicTimer σ) (slot : Rat) : Rat := (searchLeft t.cdf slot : Rat)

/-- the "bias" correction of clock.py:263 -/
def correct (d : Rat) : Rat := max 0 (d - 1)

/-- one beta draw per high activity, in order (clock.py:249-250) -/
def betaDraws (R : Rng σ) : σ → List Rat → List Rat × σ
  | s, [] => ([], s)
  | s, a :: as =>
    let (b, s') := R.beta s 1 (a - 1)
    let (bs, s'') := betaDraws R s' as
    (b :: bs, s'')

/-- puts the low and high activity timers back in the order of the observations
(`reindex_like`, clock.py:258-267); activities `<= 0` get NaN (`none`) -/
def assemble (t : CyclicTimer σ) : List Rat → List Rat → List Rat → List (Option Rat)
  | [], _, _ => []
  | a :: obs, us, bs =>
    if 0 < a ∧ a ≤ 2 then
      match us with
      | u :: us => some (correct (t.lowTimer u a)) :: assemble t obs us bs
      | [] => none :: assemble t obs [] bs
    else if 2 < a then
      match bs with
      | b :: bs => some (correct (t.highTimer b)) :: assemble t obs us bs
      | [] => none :: assemble t obs us []
    else none :: assemble t obs us bs

/-- `CyclicTimerGenerator.generate` (clock.py:203-268), for observations with a unique index:
one timer per observation, in order. -/
def generate (R : Rng σ) (t : CyclicTimer σ) (obs : List Rat) :
    List (Option Rat) × CyclicTimer σ :=
  let lows := obs.filter fun a => decide (0 < a ∧ a ≤ 2)
  let (us, s1) := if lows.length > 0 then R.uniform t.state lows.length else ([], t.state)
  let highs := obs.filter fun a => decide (2 < a)
  let (bs, s2) := betaDraws R s1 highs
  (assemble t obs us bs, { t with state := s2 })

/-- `CyclicTimerGenerator.activity` (clock.py:270-294). `per / n` (line 283) raises
`ZeroDivisionError` when `n == 0`; `scale` (line 280) when `per` is empty. -/
def activity (cfg : TimerProfile) (n : Rat) (per : Int) : Py Rat :=
  if totalSeconds per = 0 then .error .zeroDivisionError
  else if n = 0 then .error .zeroDivisionError
  else .ok (n * (totalSeconds cfg.duration / totalSeconds per))

end CyclicTimer

end Trumania
