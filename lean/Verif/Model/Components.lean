import Verif.Model.Clock

/-!
# Model of `trumania/components/time_patterns/profilers.py` and of the random assignments of
`trumania/core/util_functions.py`
-/

namespace Trumania

/-- the profile built by `WorkHoursTimerGenerator.__init__` (profilers.py:33-58); hours may be any
integers, `[0] * n` being `[]` for negative `n` -/
def workHoursProfile (start_hour end_hour : Int) : Py (List Rat) :=
  if ¬ start_hour ≥ 0 then .error .assertionError
  else if ¬ end_hour < 24 then .error .assertionError
  else if ¬ start_hour ≤ end_hour then .error .assertionError
  else
    let before_work := List.replicate start_hour.toNat (0 : Rat)
    let during_work := List.replicate (end_hour - start_hour + 1).toNat (1 : Rat)
    let after_work := List.replicate (23 - end_hour).toNat (0 : Rat)
    let week_day := before_work ++ during_work ++ after_work
    let weekend_day := List.replicate 24 (0 : Rat)
    .ok ((List.replicate 5 week_day).flatten ++ (List.replicate 2 weekend_day).flatten)

/-- the profile of `HighWeekDaysTimerGenerator` (profilers.py:17-20) -/
def highWeekDaysProfile : List Rat := [5, 5, 5, 5, 5, 3, 3]

/-- `pd.Timestamp("6 June 2016 00:00:00")` (profilers.py:13, 51, 71), a Monday: 16958 days after
1970-01-01 -/
def profilerStart : Int := 16958 * nsPerDay

/-- the configuration of `HighWeekDaysTimerGenerator` (profilers.py:11-21) -/
def highWeekDaysConfig : TimerProfile :=
  { start := profilerStart, profile := highWeekDaysProfile, steps := nsPerDay }

/-- the configuration of `WorkHoursTimerGenerator` (profilers.py:33-58); the default hours are 9 and
17 -/
def workHoursConfig (start_hour end_hour : Int) : Py TimerProfile := do
  .ok { start := profilerStart, profile := ← workHoursProfile start_hour end_hour,
        steps := 3600 * nsPerSec }

/-- the configuration of `DefaultDailyTimerGenerator` (profilers.py:69-83) -/
def defaultDailyConfig : TimerProfile :=
  { start := profilerStart
    profile := [1, 5/10, 2/10, 15/100, 2/10, 4/10, 38/10, 72/10, 84/10, 91/10, 90/10, 83/10, 81/10,
      77/10, 74/10, 78/10, 80/10, 79/10, 97/10, 104/10, 105/10, 88/10, 57/10, 28/10]
    steps := 3600 * nsPerSec }

/-- one looked up end of an edge -/
def nth {α : Type} (l : List α) (i : Nat) : Py α :=
  match l[i]? with
  | some a => .ok a
  | none => .error .indexError

/-- `make_random_bipartite_data` (util_functions.py:14-49). `edges` are the edges drawn by
`networkx.bipartite.random_graph(len(group1), len(group2), p, seed)`. With no edge at all,
`bp.apply(..., axis=1)` returns an empty frame, whose assignment to one column raises
`ValueError`. -/
def make_random_bipartite_data {α β : Type} (group1 : List α) (group2 : List β) (p : Rat)
    (edges : List (Nat × Nat)) : Py (List (α × β)) :=
  if group1.length = 0 ∨ group2.length = 0 ∨ p = 0 then .ok []
  else if edges = [] then .error .valueError
  else edges.mapM fun e => do
    let a ← nth group1 e.1
    -- line 42; a negative index would count from the end
    if e.2 < group1.length then .error .indexError
    else
      let b ← nth group2 (e.2 - group1.length)
      .ok (a, b)

/-- `make_random_assign` (util_functions.py:66-71) -/
def make_random_assign {α β σ : Type} (R : Rng σ) (seed : Int) (set1 : List α) (set2 : List β) :
    Py (List (α × β)) := do
  let (idx, _) ← R.choice (R.seed seed) set2.length set1.length
  let chosen ← idx.mapM (nth set2)
  .ok (set1.zip chosen)

end Trumania
