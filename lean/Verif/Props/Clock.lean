import Verif.Proofs.Clock

/-!
# Properties C08-C15 and C73 (clock, cyclic timers)
-/

namespace Trumania

/-! ### C08 -/

/-- **C08** for a positive step, `latest_date_before` terminates and returns the unique last cycle
start that is not after the upper bound. -/
theorem C08_latest_date_before (start ub step : Int) (hs : 0 < step) :
    ∃ d, Spec.IsLastCycleStart start ub step d ∧
      (∀ e, Spec.IsLastCycleStart start ub step e → e = d) ∧
      ∃ N, ∀ fuel, N ≤ fuel → latest_date_before fuel start ub step = some d := by
  obtain ⟨N, hN⟩ := latest_date_before_terminates start ub step hs
  obtain ⟨d, hd⟩ := hN N le_rfl
  have hd' := latest_date_before_spec hs hd
  refine ⟨d, hd', fun e he => lastCycleStart_unique hs he hd', N, fun fuel hf => ?_⟩
  obtain ⟨e, he⟩ := hN fuel hf
  rw [he, lastCycleStart_unique hs (latest_date_before_spec hs he) hd']

/-- **C08** for a non-positive step the loops never end when the start is after the upper bound. -/
theorem C08_nonpositive_step_hangs (start ub step : Int) (hs : step ≤ 0) (h : ub < start) :
    ∀ fuel, latest_date_before fuel start ub step = none := by
  have key : ∀ fuel r, ub < r → stepDown fuel r ub step = none := by
    intro fuel
    induction fuel with
    | zero => intro r _; rfl
    | succ fuel ih =>
      intro r hr
      rw [stepDown, if_pos hr]
      exact ih _ (by omega)
  intro fuel
  rw [latest_date_before, key fuel start h]; rfl

example : latest_date_before 10 100 37 10 = some 30 := by decide
example : latest_date_before 10 0 37 10 = some 30 := by decide
example : latest_date_before 10 0 30 10 = some 30 := by decide

/-! ### C09 -/

/-- **C09** `n_iterations(duration)` is the smallest number of steps lasting at least `duration`. -/
theorem C09_n_iterations {σ ℓ : Type} (c : Clock σ ℓ) (duration : Int) (hs : 0 < c.step)
    (hd : 0 ≤ duration) :
    ∃ n : Int, c.nIterations duration = .ok n ∧ 0 ≤ n ∧ duration ≤ n * c.step ∧
      ∀ m : Int, duration ≤ m * c.step → n ≤ m := by
  have hns : (0 : Rat) < (nsPerSec : Rat) := by decide +kernel
  have hs' : (0 : Rat) < (c.step : Rat) := by exact_mod_cast hs
  have hne : totalSeconds c.step ≠ 0 := by
    rw [totalSeconds]; exact (div_pos hs' hns).ne'
  have hq : totalSeconds duration / totalSeconds c.step = (duration : Rat) / (c.step : Rat) := by
    rw [totalSeconds, totalSeconds, div_div_div_cancel_right₀ hns.ne']
  have hceil : ∀ q : Rat, q.ceil = ⌈q⌉ := fun q => by
    rw [Rat.ceil_eq_neg_floor_neg]; rfl
  refine ⟨⌈(duration : Rat) / (c.step : Rat)⌉, ?_, ?_, ?_, ?_⟩
  · simp only [Clock.nIterations, hne, if_false, hq, hceil]
  · exact Int.ceil_nonneg (div_nonneg (by exact_mod_cast hd) hs'.le)
  · have := Int.le_ceil ((duration : Rat) / (c.step : Rat))
    rw [div_le_iff₀ hs'] at this
    exact_mod_cast this
  · intro m hm
    rw [Int.ceil_le, div_le_iff₀ hs']
    exact_mod_cast hm

/-- **C09** a clock of empty steps raises `ZeroDivisionError`. -/
theorem C09_zero_step {σ ℓ : Type} (c : Clock σ ℓ) (duration : Int) (hs : c.step = 0) :
    c.nIterations duration = .error .zeroDivisionError := by
  simp [Clock.nIterations, totalSeconds, hs]

example : (Clock.nIterations (σ := Nat) (ℓ := Unit)
    { current := 0, step := 60 * nsPerSec, state := 0, listeners := [] } (150 * nsPerSec)) = .ok 3 := by
  decide +kernel

/-! ### C10 -/

theorem pyInt_totalSeconds (d : Int) (h : 0 ≤ d) :
    (pyInt (totalSeconds d)) = d / nsPerSec := by
  have hns : (0 : Rat) < (nsPerSec : Rat) := by decide +kernel
  have h0 : (0 : Rat) ≤ totalSeconds d := div_nonneg (by exact_mod_cast h) hns.le
  rw [pyInt, if_pos h0, totalSeconds]
  exact Rat.floor_intCast_div_natCast d 1000000000

/-- **C10** every random timestamp is a whole number of seconds after the current date, and before
the end of the step; there are `size` of them; the clock date does not change. -/
theorem C10_random_timestamps {σ ℓ : Type} (R : Rng σ) (c c' : Clock σ ℓ) (size : Nat)
    (hstep : 0 ≤ c.step) (ts : List Int) (h : c.getTimestamp R size true = .ok (ts, c')) :
    ts.length = size ∧
    (∀ t ∈ ts, ∃ k : Nat, t = c.current + k * 1000000000 ∧ t < c.current + c.step) ∧
    c'.current = c.current ∧ c'.step = c.step ∧ c'.listeners = c.listeners := by
  simp only [Clock.getTimestamp, if_true, bind_eq_ok] at h
  obtain ⟨⟨secs, s'⟩, hc, hfin⟩ := h
  cases hfin
  rw [Rng.choice, pyInt_totalSeconds _ hstep] at hc
  split at hc
  · cases hc
  · rename_i hn
    injection hc with hc
    have hc1 : secs = (R.randint c.state (c.step / nsPerSec).toNat size).1 := by rw [hc]
    subst hc1
    refine ⟨by rw [List.length_map, R.randint_length], ?_, rfl, rfl, rfl⟩
    intro t ht
    obtain ⟨k, hk, rfl⟩ := List.mem_map.1 ht
    refine ⟨k, rfl, ?_⟩
    have hpos : 0 < (c.step / nsPerSec).toNat := by
      rcases Nat.eq_zero_or_pos (c.step / nsPerSec).toNat with h0 | h0
      · have : size = 0 := by by_contra hsz; exact hn ⟨h0, hsz⟩
        have hl := R.randint_length c.state (c.step / nsPerSec).toNat size
        rw [this, List.length_eq_zero_iff] at hl
        rw [this, hl] at hk
        simp at hk
      · exact h0
    have := R.randint_range _ _ _ hpos k hk
    have hd : (k : Int) + 1 ≤ c.step / nsPerSec := by omega
    have hm := (Int.le_ediv_iff_mul_le (by decide : (0 : Int) < nsPerSec)).1 hd
    rw [add_mul, one_mul] at hm
    have hp : (0 : Int) < nsPerSec := by decide
    show c.current + (k : Int) * nsPerSec < _
    omega

/-- **C10** a non random timestamp is the current date. -/
theorem C10_fixed_timestamps {σ ℓ : Type} (R : Rng σ) (c : Clock σ ℓ) (size : Nat) :
    ∃ ts, c.getTimestamp R size false = .ok (ts, c) ∧ ts.length = size ∧
      ∀ t ∈ ts, t = c.current :=
  ⟨_, rfl, List.length_replicate, fun _ ht => List.eq_of_mem_replicate ht⟩

/-- **C10** random timestamps are available exactly when the step lasts one second at least (or
none is asked for). -/
theorem C10_subsecond_step {σ ℓ : Type} (R : Rng σ) (c : Clock σ ℓ) (size : Nat)
    (hstep : 0 ≤ c.step) (hsize : size ≠ 0) :
    (c.step < 1000000000 → c.getTimestamp R size true = .error .valueError) ∧
    (1000000000 ≤ c.step → ∃ r, c.getTimestamp R size true = .ok r) := by
  have hns : nsPerSec = 1000000000 := rfl
  constructor
  · intro h
    have h0 : (c.step / nsPerSec).toNat = 0 := by rw [hns]; omega
    rw [Clock.getTimestamp, if_pos rfl]
    simp only [pyInt_totalSeconds _ hstep, h0, Rng.choice]
    rw [if_pos ⟨trivial, hsize⟩]
    rfl
  · intro h
    have h0 : (c.step / nsPerSec).toNat ≠ 0 := by rw [hns]; omega
    rw [Clock.getTimestamp, if_pos rfl]
    simp only [pyInt_totalSeconds _ hstep, Rng.choice]
    rw [if_neg (fun h => h0 h.1)]
    exact ⟨_, rfl⟩

example : (Clock.getTimestamp Rng.counter (ℓ := Unit)
    { current := 0, step := 3 * nsPerSec, state := 0, listeners := [] } 4 true).map (·.1) =
      .ok [0, 1000000000, 2000000000, 0] := by decide +kernel

/-! ### C11 -/

/-- **C11** after any sequence of calls on a new clock, the date is `start + n * step` where `n` is
the number of increments, and each listener was incremented once per increment that followed its
registration. -/
theorem C11_clock_runs {σ ℓ : Type} (R : Rng σ) (inc : ℓ → ℓ) (start step seed : Int)
    (calls : List (ClockCall ℓ)) (c : Clock σ ℓ)
    (h : ClockCall.execs R inc (Clock.new R start step seed) calls = .ok c) :
    c.current = start + (ClockCall.nIncrements calls : Int) * step ∧ c.step = step ∧
      c.listeners = (ClockCall.registered calls).map fun (l, n) => inc^[n] l := by
  have key : ∀ (calls : List (ClockCall ℓ)) (c0 : Clock σ ℓ),
      ClockCall.execs R inc c0 calls = .ok c →
      c.current = c0.current + (ClockCall.nIncrements calls : Int) * c0.step ∧ c.step = c0.step ∧
      c.listeners = c0.listeners.map (fun l => inc^[ClockCall.nIncrements calls] l) ++
        (ClockCall.registered calls).map fun (l, n) => inc^[n] l := by
    intro calls
    induction calls with
    | nil =>
      intro c0 h
      cases h
      simp [ClockCall.nIncrements, ClockCall.registered]
    | cons call calls ih =>
      intro c0 h
      simp only [ClockCall.execs, bind_eq_ok] at h
      obtain ⟨c1, h1, h2⟩ := h
      obtain ⟨i1, i2, i3⟩ := ih c1 h2
      cases call with
      | increment =>
        cases h1
        simp only [ClockCall.nIncrements, ClockCall.registered]
        refine ⟨?_, i2, ?_⟩
        · rw [i1]; simp only [Clock.increment]; push_cast; ring
        · rw [i3]
          simp only [Clock.increment, List.map_map]
          rfl
      | register l =>
        cases h1
        simp only [ClockCall.nIncrements, ClockCall.registered]
        refine ⟨i1, i2, ?_⟩
        rw [i3]
        simp [Clock.register]
      | timestamp size random =>
        simp only [ClockCall.exec, bind_eq_ok] at h1
        obtain ⟨⟨ts, c2⟩, h3, h4⟩ := h1
        cases h4
        have hsame : c2.current = c0.current ∧ c2.step = c0.step ∧ c2.listeners = c0.listeners := by
          rw [Clock.getTimestamp] at h3
          split at h3
          · simp only [bind_eq_ok] at h3
            obtain ⟨_, _, h5⟩ := h3
            cases h5
            exact ⟨rfl, rfl, rfl⟩
          · cases h3; exact ⟨rfl, rfl, rfl⟩
        simp only [ClockCall.nIncrements, ClockCall.registered]
        simp only [hsame.1, hsame.2.1, hsame.2.2] at i1 i2 i3
        exact ⟨i1, i2, i3⟩
  have := key calls _ h
  simpa [Clock.new] using this

example : (ClockCall.execs Rng.counter (· + 1) (Clock.new Rng.counter 100 10 7)
    [.register 5, .increment, .register 50, .increment, .increment]).map
      (fun c => (c.current, c.listeners)) = .ok (130, [8, 52]) := by decide +kernel

/-! ### C12 -/

/-- `w` weights of the bins of a cycle, as rotated from `init`; the common part of C12-C15 -/
theorem timer_profile {σ : Type} {R : Rng σ} {fuel : Nat} {cfg : TimerProfile}
    {seed current step : Int} {t0 t : CyclicTimer σ} {k : Nat} (hs : 0 < step) (hp : 0 < cfg.steps)
    (h0 : CyclicTimer.new fuel R cfg seed current step = some (some (.ok t0)))
    (h : TimerRun R t0 k t) :
    ∃ init w m, latest_date_before fuel cfg.start current cfg.duration = some init ∧
      Spec.IsBinWeights cfg step w ∧ w.sum ≠ 0 ∧ m < w.length ∧
      current ≤ init + (m : Int) * step ∧ init + (m : Int) * step < current + step ∧
      t.nBins = w.length ∧ t.profile = rotated init step w (m + k) := by
  obtain ⟨init, w, m, h1, h2, h3, h4, h5, h6, -, h7, h8⟩ := new_ok hs hp h0
  obtain ⟨r1, r2⟩ := run_profile h4 h5 h
  have hn : 0 < w.length := List.length_pos_iff.2 h3
  have hm : m < w.length := by
    by_contra hge
    have hmod := Nat.mod_lt m hn
    have := h8 (m % w.length) (by omega)
    rw [Nat.mod_mod] at this
    omega
  have hc0 : init ≤ current := by
    by_cases hd : 0 < cfg.duration
    · exact (latest_date_before_spec hd h1).2.1
    · exfalso
      have hlen : w.length = 0 := by
        rw [h2.1, Spec.nBins]
        have : (cfg.profile.length : Int) * cfg.steps ≤ 0 := not_lt.1 hd
        have := Int.ediv_nonpos_of_nonpos_of_neg this hs
        omega
      omega
  refine ⟨init, w, m, h1, h2, h4, hm, ?_, ?_, by rw [r2, h6], r1⟩
  · rwa [Nat.mod_eq_of_lt hm] at h7
  · cases m with
    | zero => push_cast; omega
    | succ m =>
      have := h8 m (by omega)
      rw [Nat.mod_eq_of_lt (by omega)] at this
      push_cast
      rw [add_mul]
      omega

/-- **C12** after any number `k` of clock increments (and any timer generations in between), the
profile holds the dates of the cycle and the cumulated shares of the bin weights, both rotated by
`m + k`, where `m` is the number of whole steps between the start of the cycle and the date of
construction (rounded up). -/
theorem C12_cdf_of_rotated_weights {σ : Type} (R : Rng σ) (fuel : Nat) (cfg : TimerProfile)
    (seed current step : Int) (t0 t : CyclicTimer σ) (k : Nat) (hs : 0 < step) (hp : 0 < cfg.steps)
    (h0 : CyclicTimer.new fuel R cfg seed current step = some (some (.ok t0)))
    (h : TimerRun R t0 k t) :
    ∃ init w m, Spec.IsLastCycleStart cfg.start current (cfg.profile.length * cfg.steps) init ∧
      Spec.IsBinWeights cfg step w ∧
      current ≤ init + (m : Nat) * step ∧ init + m * step < current + step ∧
      t.profile.map Prod.fst = (Spec.gridDates init step w.length).rotate (m + k) ∧
      t.profile.map Prod.snd = Spec.shares (w.rotate (m + k)) := by
  obtain ⟨init, w, m, h1, h2, h3, h4, h5, h6, -, h8⟩ := timer_profile hs hp h0 h
  have hd : 0 < cfg.duration := by
    by_contra hd
    have : w.length = 0 := by
      rw [h2.1, Spec.nBins]
      have : (cfg.profile.length : Int) * cfg.steps ≤ 0 := not_lt.1 hd
      have := Int.ediv_nonpos_of_nonpos_of_neg this hs
      omega
    omega
  refine ⟨init, w, m, latest_date_before_spec hd h1, h2, h5, h6, ?_, ?_⟩
  · rw [h8, rotated, List.map_fst_zip]
    simp [gridDates_length, shares_length]
  · rw [h8, rotated_cdf]

/-- **C12** with non-negative weights the cdf is non-decreasing, non-negative, and ends at 1. -/
theorem C12_cdf_shape {σ : Type} (R : Rng σ) (fuel : Nat) (cfg : TimerProfile)
    (seed current step : Int) (t0 t : CyclicTimer σ) (k : Nat) (hs : 0 < step) (hp : 0 < cfg.steps)
    (hw : ∀ x ∈ cfg.profile, 0 ≤ x)
    (h0 : CyclicTimer.new fuel R cfg seed current step = some (some (.ok t0)))
    (h : TimerRun R t0 k t) :
    (t.profile.map Prod.snd).Pairwise (· ≤ ·) ∧ (∀ c ∈ t.profile.map Prod.snd, 0 ≤ c) ∧
      (t.profile.map Prod.snd).getLast? = some 1 := by
  obtain ⟨init, w, m, -, h2, h3, -, -, -, -, h8⟩ := timer_profile hs hp h0 h
  rw [h8, rotated_cdf]
  have hnn : ∀ x ∈ w.rotate (m + k), 0 ≤ x := by
    intro x hx
    rw [List.mem_rotate] at hx
    obtain ⟨j, hj, rfl⟩ := List.mem_iff_getElem.1 hx
    obtain ⟨i, -, -, x, hx1, hx2⟩ := h2.2 j hj
    rw [List.getElem?_eq_getElem hj] at hx2
    cases hx2
    exact hw _ (List.mem_of_getElem? hx1)
  have hs' : 0 < (w.rotate (m + k)).sum := by
    have h1 : 0 ≤ (w.rotate (m + k)).sum := List.sum_nonneg hnn
    rcases h1.lt_or_eq with h1 | h1
    · exact h1
    · rw [sum_rotate] at h1; exact absurd h1.symm h3
  generalize w.rotate (m + k) = v at hnn hs'
  have hmono : ∀ i j, i ≤ j → (v.take i).sum ≤ (v.take j).sum := by
    intro i j hij
    obtain ⟨d, rfl⟩ := Nat.exists_eq_add_of_le hij
    rw [List.take_add, List.sum_append]
    have : 0 ≤ ((v.drop i).take d).sum :=
      List.sum_nonneg fun x hx => hnn x (List.mem_of_mem_drop (List.mem_of_mem_take hx))
    linarith
  refine ⟨?_, ?_, ?_⟩
  · rw [Spec.shares, List.pairwise_map]
    refine List.Pairwise.imp ?_ List.pairwise_lt_range
    intro i j hij
    exact div_le_div_of_nonneg_right (hmono _ _ (by omega)) hs'.le
  · intro c hc
    obtain ⟨j, -, rfl⟩ := List.mem_map.1 hc
    exact div_nonneg (by simpa using hmono 0 (j + 1) (by omega)) hs'.le
  · rw [List.getLast?_eq_getElem?]
    exact shares_last hs'.ne'

/-- **C12** the profile is back to itself after a full cycle. -/
theorem C12_full_cycle {σ : Type} (R : Rng σ) (fuel : Nat) (cfg : TimerProfile)
    (seed current step : Int) (t0 t t' : CyclicTimer σ) (k : Nat) (hs : 0 < step)
    (hp : 0 < cfg.steps)
    (h0 : CyclicTimer.new fuel R cfg seed current step = some (some (.ok t0)))
    (h : TimerRun R t0 k t) (h' : TimerRun R t0 (k + Spec.nBins cfg step) t') :
    t'.profile = t.profile := by
  obtain ⟨init, w, m, h1, h2, h3, h4, h5, h6, -, h8⟩ := timer_profile hs hp h0 TimerRun.start
  have a := (run_profile h3 h8 h).1
  have b := (run_profile h3 h8 h').1
  rw [a, b, ← h2.1, ← Nat.add_assoc, rotated_add_length]

/-! Example: a two-hour cycle (weights 1 and 3) with half-hour clock steps, built at 00:30; after
one increment. -/
example : (CyclicTimer.new 10 Rng.counter
      { start := 0, profile := [1, 3], steps := 3600 * nsPerSec } 7 (1800 * nsPerSec)
      (1800 * nsPerSec)).map (·.map (·.map fun t => (t.cdf, t.increment.cdf))) =
    some (some (.ok ([1/8, 4/8, 7/8, 1], [3/8, 6/8, 7/8, 1]))) := by decide +kernel

/-! ### C13 -/

/-- **C13**, partial: the construction terminates when the current date is not after the start of
the last bin of the cycle, and the first bin is then the first grid date not before the current
date. Missing: the other dates, where it never terminates (`C13_construction_hangs`); clock steps
that do not divide the time of day of the profile start (resampling origin of pandas, not
modelled); weights of sum zero (NaN cdf). -/
theorem C13_construction_aligned_partial {σ : Type} (R : Rng σ) (cfg : TimerProfile)
    (seed current step init : Int) (hs : 0 < step) (hp : 0 < cfg.steps)
    (hi : Spec.IsLastCycleStart cfg.start current (cfg.profile.length * cfg.steps) init)
    (hal : init % nsPerDay % step = 0)
    (hw : ∀ w, Spec.IsBinWeights cfg step w → w.sum ≠ 0)
    (hc : current ≤ init + ((Spec.nBins cfg step : Int) - 1) * step) :
    ∃ N, ∀ fuel, N ≤ fuel → ∃ t, CyclicTimer.new fuel R cfg seed current step = some (some (.ok t)) ∧
      ∃ l, (t.profile.map Prod.fst).head? = some l ∧ (∃ m : Nat, l = init + m * step) ∧
        current ≤ l ∧ l < current + step := by
  have hd : 0 < cfg.duration := by
    have h1 := hi.2.1; have h2 := hi.2.2
    show 0 < (cfg.profile.length : Int) * cfg.steps
    omega
  obtain ⟨N, hN⟩ := latest_date_before_terminates cfg.start current cfg.duration hd
  have hws := resampled_weights (init := init) hs hp
  have hsum := hw _ hws
  have hne : resampled cfg init step ≠ [] := by
    intro he; rw [he] at hsum; simp at hsum
  have hlen : 0 < (resampled cfg init step).length := List.length_pos_iff.2 hne
  have hbuild : ∃ prof, buildProfile cfg init step = .ok prof := by
    have : (init - midnight init) % step = 0 := by
      rw [midnight]
      rw [show init - (init - init % nsPerDay) = init % nsPerDay by omega]; exact hal
    simp [buildProfile, this, hne, hsum]
  obtain ⟨prof, hprof⟩ := hbuild
  obtain ⟨w, hw1, hw2, hw3⟩ := buildProfile_ok hs hp hprof
  have hwsum := hw _ hw1
  have hp0 : prof = rotated init step w 0 := by rw [hw3, rotated]; simp
  have hwpos : 0 < w.length := by
    apply List.length_pos_iff.2; rintro rfl; simp at hwsum
  refine ⟨max N (w.length + 1), fun fuel hf => ?_⟩
  obtain ⟨d, hd'⟩ := hN fuel (le_trans (le_max_left _ _) hf)
  have hdi : d = init := lastCycleStart_unique hd (latest_date_before_spec hd hd') hi
  subst hdi
  obtain ⟨p, hpm⟩ := microShift_terminates (init := d) (step := step) (current := current) hwsum
    (w.length - 1) (by omega) (by
      rw [← hw1.1] at hc
      have : ((w.length - 1 : Nat) : Int) = (w.length : Int) - 1 := by omega
      rw [this]; exact hc) fuel 0 (by omega) (by
      have := le_trans (le_max_right N _) hf; omega)
  have hnew : CyclicTimer.new fuel R cfg seed current step =
      some (some (.ok { state := R.seed seed, nBins := prof.length, profile := p })) := by
    simp only [CyclicTimer.new, Option.bind_eq_bind, hd', Option.bind_some, hprof]
    rw [hp0, hpm]; rfl
  refine ⟨_, hnew, ?_⟩
  obtain ⟨init', w', m', g1, g2, g3, g4, g5, g6, -, g8⟩ := timer_profile hs hp hnew TimerRun.start
  rw [hd'] at g1
  cases g1
  have hne' : w' ≠ [] := by rintro rfl; simp at g3
  obtain ⟨c, rest, hr⟩ := rotated_head d step w' m' hne'
  refine ⟨d + (m' : Int) * step, ?_, ⟨m', rfl⟩, g5, g6⟩
  rw [g8, Nat.add_zero, hr, Nat.mod_eq_of_lt g4]
  rfl

/-- **C13** in the usual setting, where the clock date and the cycle are multiples of the clock step
counted from the profile start, the construction terminates and the first bin is exactly the one of
the current date. -/
theorem C13_construction_on_grid {σ : Type} (R : Rng σ) (cfg : TimerProfile)
    (seed current step init : Int) (hs : 0 < step) (hp : 0 < cfg.steps)
    (hi : Spec.IsLastCycleStart cfg.start current (cfg.profile.length * cfg.steps) init)
    (hal : init % nsPerDay % step = 0)
    (hw : ∀ w, Spec.IsBinWeights cfg step w → w.sum ≠ 0)
    (hcyc : (cfg.profile.length * cfg.steps) % step = 0) (hcur : (current - cfg.start) % step = 0) :
    ∃ N, ∀ fuel, N ≤ fuel → ∃ t, CyclicTimer.new fuel R cfg seed current step = some (some (.ok t)) ∧
      (t.profile.map Prod.fst).head? = some current := by
  obtain ⟨q, hq⟩ := Int.dvd_of_emod_eq_zero hcyc
  obtain ⟨r, hr⟩ := Int.dvd_of_emod_eq_zero hcur
  obtain ⟨⟨n, hn⟩, hle, hlt⟩ := hi
  have hci : current = init + (r - n * q) * step := by
    rw [hn, hq]
    have : current = cfg.start + step * r := by omega
    rw [this]; ring
  have hq0 : 0 < q := by
    have : 0 < step * q := by rw [← hq]; omega
    exact (mul_pos_iff_of_pos_left hs).1 this
  have hnb : (Spec.nBins cfg step : Int) = q := by
    rw [Spec.nBins, hq, Int.mul_ediv_cancel_left _ hs.ne']; omega
  have hlt' : (r - n * q) < q := by
    have : (r - n * q) * step < q * step := by rw [mul_comm q, ← hq]; omega
    exact lt_of_mul_lt_mul_right this hs.le
  obtain ⟨N, hN⟩ := C13_construction_aligned_partial R cfg seed current step init hs hp
    ⟨⟨n, hn⟩, hle, hlt⟩ hal hw (by
      rw [hnb, hci]
      have : (r - n * q) * step ≤ (q - 1) * step := mul_le_mul_of_nonneg_right (by omega) hs.le
      omega)
  refine ⟨N, fun fuel hf => ?_⟩
  obtain ⟨t, ht, l, hl, ⟨m, hm⟩, h1, h2⟩ := hN fuel hf
  refine ⟨t, ht, ?_⟩
  rw [hl]
  congr 1
  have h3 : (r - n * q) * step ≤ m * step := by omega
  have h4 : (m : Int) * step < (r - n * q + 1) * step := by rw [add_mul]; omega
  have h5 := le_of_mul_le_mul_right h3 hs
  have h6 := lt_of_mul_lt_mul_right h4 hs.le
  have h7 : (m : Int) = r - n * q := by omega
  rw [hm, hci, h7]

/-- **C13** fails for dates strictly inside the last bin of the cycle: the construction never
terminates (whatever the fuel). -/
theorem C13_construction_hangs {σ : Type} (R : Rng σ) (cfg : TimerProfile)
    (seed current step init : Int) (hs : 0 < step) (hp : 0 < cfg.steps)
    (hi : Spec.IsLastCycleStart cfg.start current (cfg.profile.length * cfg.steps) init)
    (hal : init % nsPerDay % step = 0)
    (hw : ∀ w, Spec.IsBinWeights cfg step w → w.sum ≠ 0)
    (hc : init + ((Spec.nBins cfg step : Int) - 1) * step < current) :
    ∀ fuel, CyclicTimer.new fuel R cfg seed current step = none := by
  intro fuel
  have hd : 0 < cfg.duration := by
    have h1 := hi.2.1; have h2 := hi.2.2
    show 0 < (cfg.profile.length : Int) * cfg.steps
    omega
  have hws := resampled_weights (init := init) hs hp
  have hsum := hw _ hws
  have hne : resampled cfg init step ≠ [] := by
    intro he; rw [he] at hsum; simp at hsum
  have hbuild : ∃ prof, buildProfile cfg init step = .ok prof := by
    have : (init - midnight init) % step = 0 := by
      rw [midnight]
      rw [show init - (init - init % nsPerDay) = init % nsPerDay by omega]; exact hal
    simp [buildProfile, this, hne, hsum]
  obtain ⟨prof, hprof⟩ := hbuild
  obtain ⟨w, hw1, hw2, hw3⟩ := buildProfile_ok hs hp hprof
  have hp0 : prof = rotated init step w 0 := by rw [hw3, rotated]; simp
  cases hl : latest_date_before fuel cfg.start current cfg.duration with
  | none => simp [CyclicTimer.new, hl]
  | some d =>
    have hdi : d = init := lastCycleStart_unique hd (latest_date_before_spec hd hl) hi
    subst hdi
    simp only [CyclicTimer.new, Option.bind_eq_bind, hl, Option.bind_some, hprof]
    rw [hp0, microShift_hangs (hw _ hw1) hs (by rw [hw1.1]; exact hc)]
    rfl

/-- **C13** is false in general: a daily profile of two half days and a clock of 12 hour steps
started at 13:00 — the constructor never returns. -/
theorem C13_counterexample :
    ¬ ∀ (cfg : TimerProfile) (current step : Int), 0 < step → 0 < cfg.steps →
      cfg.profile ≠ [] → (∀ x ∈ cfg.profile, 0 < x) → cfg.duration % step = 0 →
      ∃ fuel, CyclicTimer.new fuel Rng.counter cfg 7 current step ≠ none := by
  intro h
  let cfg : TimerProfile := { start := 0, profile := [1, 1], steps := 43200 * nsPerSec }
  obtain ⟨fuel, hf⟩ := h cfg (46800 * nsPerSec) (43200 * nsPerSec) (by decide) (by decide)
    (by decide) (by decide +kernel) (by decide)
  apply hf
  refine C13_construction_hangs Rng.counter cfg 7 _ _ 0 (by decide) (by decide)
    ⟨⟨0, by decide⟩, by decide, by decide⟩ (by decide) ?_ (by decide) fuel
  intro w hw
  have hlen : w.length = 2 := hw.1.trans (by decide)
  have hval : ∀ k : Nat, k < 2 → w[k]? = some 1 := by
    intro k hk
    obtain ⟨i, -, -, x, h1, h2⟩ := hw.2 k (by omega)
    rw [h2]
    have : x ∈ cfg.profile := List.mem_of_getElem? h1
    simp [cfg] at this
    rw [this]
  match w, hlen with
  | [a, b], _ =>
    have h0 := hval 0 (by omega)
    have h1 := hval 1 (by omega)
    simp at h0 h1
    subst h0 h1
    decide +kernel

/-! ### C14 -/

theorem correct_natCast (n : Nat) : CyclicTimer.correct (n : Rat) = ((n - 1 : Nat) : Rat) := by
  rw [CyclicTimer.correct]
  cases n with
  | zero => simp
  | succ n => simp

/-- the raw position (before the correction) of the outcomes, and the draw it comes from -/
theorem outcome_raw {σ : Type} {t : CyclicTimer σ} {a : Rat} {r : Option Rat}
    (h : Outcome t a r) (ha : 0 < a) (hlast : t.cdf[t.cdf.length - 1]? = some 1) (hne : t.cdf ≠ [])
    (hlen : t.cdf.length = t.nBins) :
    ∃ (c : Nat) (v : Rat), r = some ((searchLeft t.cdf v + t.nBins * c - 1 : Nat) : Rat) ∧
      searchLeft t.cdf v < t.nBins ∧ (a ≤ 2 → (c : Int) ≤ ⌊2 / a⌋) ∧ (2 < a → c = 0) := by
  rcases h with ⟨h1, h2, u, hu0, hu1, rfl⟩ | ⟨h1, b, hb0, hb1, rfl⟩ | ⟨h1, -⟩
  · have hx0 : 0 ≤ 2 * u / a := div_nonneg (by linarith) h1.le
    have hx1 : 2 * u / a ≤ 2 / a := div_le_div_of_nonneg_right (by linarith) h1.le
    have hf : (2 * u / a).floor = ⌊2 * u / a⌋ := rfl
    have hfl0 : 0 ≤ ⌊2 * u / a⌋ := Int.floor_nonneg.2 hx0
    refine ⟨⌊2 * u / a⌋.toNat, 2 * u / a - ⌊2 * u / a⌋, ?_, ?_, ?_, ?_⟩
    · rw [← correct_natCast]
      congr 2
      have : ((⌊2 * u / a⌋.toNat : Nat) : Rat) = ((⌊2 * u / a⌋ : Int) : Rat) := by
        have h : ((⌊2 * u / a⌋.toNat : Nat) : Int) = ⌊2 * u / a⌋ := by omega
        exact_mod_cast h
      push_cast
      rw [this]
      rfl
    · rw [← hlen]
      exact searchLeft_lt_length (by have := Int.lt_floor_add_one (2 * u / a); linarith) hne hlast
    · intro _
      have := Int.floor_le_floor hx1
      omega
    · intro h; linarith
  · refine ⟨0, b, ?_, ?_, ?_, fun _ => rfl⟩
    · rw [← correct_natCast, CyclicTimer.highTimer]
      simp
    · rw [← hlen]; exact searchLeft_lt_length hb1 hne hlast
    · intro h; linarith
  · linarith

theorem timer_cdf {σ : Type} {R : Rng σ} {fuel : Nat} {cfg : TimerProfile}
    {seed current step : Int} {t0 t : CyclicTimer σ} {k : Nat} (hs : 0 < step) (hp : 0 < cfg.steps)
    (h0 : CyclicTimer.new fuel R cfg seed current step = some (some (.ok t0)))
    (h : TimerRun R t0 k t) :
    t.cdf[t.cdf.length - 1]? = some 1 ∧ t.cdf ≠ [] ∧ t.cdf.length = t.nBins ∧
      t.nBins = Spec.nBins cfg step := by
  obtain ⟨init, w, m, -, h2, h3, h4, -, -, h7, h8⟩ := timer_profile hs hp h0 h
  have hc : t.cdf = Spec.shares (w.rotate (m + k)) := by rw [CyclicTimer.cdf, h8, rotated_cdf]
  have hl : t.cdf.length = w.length := by rw [hc, shares_length, List.length_rotate]
  refine ⟨?_, ?_, by rw [hl, h7], by rw [h7, h2.1]⟩
  · rw [hc]; exact shares_last (by rwa [sum_rotate])
  · intro he; rw [he] at hl; simp at hl; omega

/-- **C14** for positive activities, `generate` returns one whole waiting time `>= 0` per
observation, in order, within the announced bounds. -/
theorem C14_generated_timers {σ : Type} (R : Rng σ) (fuel : Nat) (cfg : TimerProfile)
    (seed current step : Int) (t0 t : CyclicTimer σ) (k : Nat) (hs : 0 < step) (hp : 0 < cfg.steps)
    (h0 : CyclicTimer.new fuel R cfg seed current step = some (some (.ok t0)))
    (h : TimerRun R t0 k t) (obs : List Rat) (hobs : ∀ a ∈ obs, 0 < a) :
    List.Forall₂ (fun a r => ∃ n : Nat, r = some (n : Rat) ∧
        (a ≤ 2 → (n : Int) < Spec.nBins cfg step * (⌊2 / a⌋ + 1)) ∧
        (2 < a → n < Spec.nBins cfg step))
      obs (t.generate R obs).1 := by
  obtain ⟨c1, c2, c3, c4⟩ := timer_cdf hs hp h0 h
  have hg := generate_spec R t obs
  have hpos : 0 < t.nBins := by rw [← c3]; exact List.length_pos_iff.2 c2
  refine List.Forall₂.imp ?_ ((List.forall₂_and_left _ _).2 ⟨hobs, hg⟩)
  rintro a r ⟨ha, ho⟩
  obtain ⟨c, v, hr, hlt, hc1, hc2⟩ := outcome_raw ho ha c1 c2 c3
  refine ⟨_, hr, ?_, ?_⟩
  · intro ha2
    have hc := hc1 ha2
    rw [← c4]
    have h1 : (t.nBins : Int) * c ≤ t.nBins * ⌊2 / a⌋ := mul_le_mul_of_nonneg_left hc (by omega)
    have h2 : ((searchLeft t.cdf v + t.nBins * c - 1 : Nat) : Int) ≤
        searchLeft t.cdf v + t.nBins * c := by
      have : searchLeft t.cdf v + t.nBins * c - 1 ≤ searchLeft t.cdf v + t.nBins * c :=
        Nat.sub_le _ _
      exact_mod_cast this
    rw [mul_add, mul_one]
    omega
  · intro ha2
    rw [hc2 ha2, Nat.mul_zero, Nat.add_zero, ← c4]
    omega

/-- **C14** members of activity `<= 0` get no timer (NaN). -/
theorem C14_nonpositive_activity {σ : Type} (R : Rng σ) (t : CyclicTimer σ) (obs : List Rat) :
    List.Forall₂ (fun a r => a ≤ 0 → r = none) obs (t.generate R obs).1 := by
  refine List.Forall₂.imp ?_ (generate_spec R t obs)
  rintro a r (⟨h, -⟩ | ⟨h, -⟩ | ⟨-, h⟩) ha
  · linarith
  · linarith
  · exact h

example : (CyclicTimer.new 10 Rng.counter
      { start := 0, profile := [1, 3], steps := 3600 * nsPerSec } 7 (1800 * nsPerSec)
      (1800 * nsPerSec)).map (·.map (·.map fun t => (t.generate Rng.counter [1/2, 3, 0, 2]).1)) =
    some (some (.ok [some 9, some 2, none, some 1])) := by decide +kernel

/-! ### C15 -/

/-- **C15**, partial: a timer `n >= 1` generated `k` steps after construction designates the bin
`n + 1` steps ahead (the step at which the story acts, see `C15_reset_acts_in_bin`), and this bin
has a positive weight, unless it is the bin of the current step in a later cycle. Missing: timers
of 0, which also come from draws falling in the current bin (`C15_counterexample`). -/
theorem C15_positive_weight_bin_partial {σ : Type} (R : Rng σ) (fuel : Nat) (cfg : TimerProfile)
    (seed current step : Int) (t0 t : CyclicTimer σ) (k : Nat) (hs : 0 < step) (hp : 0 < cfg.steps)
    (hw : ∀ x ∈ cfg.profile, 0 ≤ x)
    (h0 : CyclicTimer.new fuel R cfg seed current step = some (some (.ok t0)))
    (h : TimerRun R t0 k t) (obs : List Rat) :
    ∃ init w m, Spec.IsLastCycleStart cfg.start current (cfg.profile.length * cfg.steps) init ∧
      Spec.IsBinWeights cfg step w ∧
      current ≤ init + (m : Nat) * step ∧ init + m * step < current + step ∧
      List.Forall₂ (fun a r => 0 < a → ∃ n : Nat, r = some (n : Rat) ∧
          (0 < n → ∃ x, w[(m + k + (n + 1)) % w.length]? = some x ∧
            (0 < x ∨ (n + 1) % w.length = 0)))
        obs (t.generate R obs).1 := by
  obtain ⟨c1, c2, c3, c4⟩ := timer_cdf hs hp h0 h
  obtain ⟨init, w, m, g1, g2, g3, g4, g5, g6, g7, g8⟩ := timer_profile hs hp h0 h
  have hd : 0 < cfg.duration := by
    by_contra hd
    have : w.length = 0 := by
      rw [g2.1, Spec.nBins]
      have : (cfg.profile.length : Int) * cfg.steps ≤ 0 := not_lt.1 hd
      have := Int.ediv_nonpos_of_nonpos_of_neg this hs
      omega
    omega
  refine ⟨init, w, m, latest_date_before_spec hd g1, g2, g5, g6, ?_⟩
  have hnn : ∀ x ∈ w, 0 ≤ x := by
    intro x hx
    obtain ⟨j, hj, rfl⟩ := List.mem_iff_getElem.1 hx
    obtain ⟨i, -, -, x, hx1, hx2⟩ := g2.2 j hj
    rw [List.getElem?_eq_getElem hj] at hx2
    cases hx2
    exact hw _ (List.mem_of_getElem? hx1)
  have hsum : 0 < w.sum := lt_of_le_of_ne (List.sum_nonneg hnn) (Ne.symm g3)
  have hcdf : t.cdf = Spec.shares (w.rotate (m + k)) := by
    rw [CyclicTimer.cdf, g8, rotated_cdf]
  refine List.Forall₂.imp ?_ (generate_spec R t obs)
  intro a r ho ha
  obtain ⟨c, v, hr, hlt, -, -⟩ := outcome_raw ho ha c1 c2 c3
  refine ⟨_, hr, fun hn => ?_⟩
  rw [g7] at hlt hn ⊢
  generalize hi : searchLeft t.cdf v = i at hlt hn
  have hraw : i + w.length * c - 1 + 1 = i + w.length * c := by omega
  rw [hraw]
  have hmod : (m + k + (i + w.length * c)) % w.length = (i + (m + k)) % w.length := by
    rw [← Nat.add_assoc, Nat.add_mul_mod_self_left, Nat.add_comm]
  rw [hmod, Nat.add_mul_mod_self_left, Nat.mod_eq_of_lt hlt]
  have hrot : (w.rotate (m + k))[i]? = w[(i + (m + k)) % w.length]? :=
    List.getElem?_rotate hlt
  have hlt2 : (i + (m + k)) % w.length < w.length := Nat.mod_lt _ (by omega)
  refine ⟨w[(i + (m + k)) % w.length], List.getElem?_eq_getElem hlt2, ?_⟩
  rcases Nat.eq_zero_or_pos i with h0 | hipos
  · exact Or.inr h0
  · left
    rw [List.getElem?_eq_getElem hlt2] at hrot
    generalize w[(i + (m + k)) % w.length] = x at hrot
    generalize hv : w.rotate (m + k) = u at hrot hcdf
    have hul : u.length = w.length := by rw [← hv, List.length_rotate]
    have hus : 0 < u.sum := by rw [← hv, sum_rotate]; exact hsum
    obtain ⟨y, hy1, hy2⟩ := searchLeft_lt t.cdf v (j := i - 1) (by omega)
    rw [hcdf, shares_getElem? _ (by omega)] at hy1
    have hge : v ≤ (u.take (i + 1)).sum / u.sum := by
      apply searchLeft_ge t.cdf v
      rw [hi, hcdf, shares_getElem? _ (by omega)]
    rw [show i - 1 + 1 = i by omega] at hy1
    cases hy1
    have hlt3 := lt_of_lt_of_le hy2 hge
    rw [div_lt_div_iff_of_pos_right hus, List.take_add_one, List.sum_append, hrot] at hlt3
    simpa using hlt3

/-- **C15** is false in general: with weights 1 (first hour) and 0 (second hour), a member of
activity 1 whose draw falls in the current hour gets timer 0, hence acts at the next step, whose
weight is zero. -/
theorem C15_counterexample :
    (CyclicTimer.new 10 Rng.counter
      { start := 0, profile := [1, 0], steps := 3600 * nsPerSec } 1 0
      (3600 * nsPerSec)).map (·.map (·.map fun t => (t.generate Rng.counter [1]).1)) =
    some (some (.ok [some 0])) := by decide +kernel

/-! ### C73 -/

/-- **C73** activity levels are linear in `n` and scale with the profile duration. -/
theorem C73_activity (cfg : TimerProfile) (n : Rat) (per : Int) (hn : n ≠ 0) (hper : per ≠ 0) :
    CyclicTimer.activity cfg n per =
      .ok (n * ((cfg.profile.length * cfg.steps : Int) : Rat) / (per : Rat)) := by
  have hns : (nsPerSec : Rat) ≠ 0 := by decide +kernel
  have hper' : (per : Rat) ≠ 0 := by exact_mod_cast hper
  have : totalSeconds per ≠ 0 := div_ne_zero hper' hns
  rw [CyclicTimer.activity, if_neg this, if_neg hn, totalSeconds, totalSeconds,
    div_div_div_cancel_right₀ hns, TimerProfile.duration, mul_div_assoc]

/-- **C73** asking for `n` per duration of the profile gives activity `n`. -/
theorem C73_activity_per_cycle (cfg : TimerProfile) (n : Rat) (hn : n ≠ 0)
    (hd : (cfg.profile.length * cfg.steps : Int) ≠ 0) :
    CyclicTimer.activity cfg n (cfg.profile.length * cfg.steps) = .ok n := by
  rw [C73_activity cfg n _ hn hd, mul_div_assoc, div_self (by exact_mod_cast hd), mul_one]

/-- **C73** an activity of 0 cannot be asked for, nor a period of 0: `ZeroDivisionError`. -/
theorem C73_activity_zero (cfg : TimerProfile) (n : Rat) (per : Int) (h : n = 0 ∨ per = 0) :
    CyclicTimer.activity cfg n per = .error .zeroDivisionError := by
  rw [CyclicTimer.activity]
  split
  · rfl
  · rename_i hp
    rcases h with h | h
    · rw [if_pos h]
    · exact absurd (by rw [totalSeconds, h]; simp) hp

example : CyclicTimer.activity
    { start := 0, profile := List.replicate 24 1, steps := 3600 * nsPerSec } 2
    (12 * 3600 * nsPerSec) = .ok 4 := by decide +kernel

end Trumania
