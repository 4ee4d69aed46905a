import Verif.Spec.Clock
import Verif.Proofs.Basic
import Mathlib.Tactic.Linarith
import Mathlib.Tactic.FieldSimp
import Mathlib.Tactic.Ring
import Mathlib.Algebra.BigOperators.Group.List.Basic
import Mathlib.Algebra.Order.BigOperators.Group.List
import Mathlib.Algebra.Order.Floor.Ring
import Mathlib.Data.Rat.Floor

/-! Helper lemmas for C08-C15. -/

namespace Trumania

/-! ### latest_date_before -/

theorem stepDown_spec {fuel : Nat} {r ub step d : Int} (h : stepDown fuel r ub step = some d) :
    d ≤ ub ∧ (r ≤ ub → d = r) ∧ (ub < r → ub - step < d) ∧ ∃ n : Int, d = r + n * step := by
  induction fuel generalizing r with
  | zero => simp [stepDown] at h
  | succ fuel ih =>
    rw [stepDown] at h
    split at h
    · obtain ⟨h1, h2, h3, n, h4⟩ := ih h
      refine ⟨h1, fun h' => by omega, fun _ => ?_, n - 1, by rw [h4]; ring⟩
      rcases le_or_gt (r - step) ub with h' | h'
      · rw [h2 h']; omega
      · exact h3 h'
    · cases h
      exact ⟨by omega, fun _ => rfl, fun h' => by omega, 0, by ring⟩

theorem stepUp_spec {fuel : Nat} {r ub step d : Int} (h : stepUp fuel r ub step = some d) :
    ub < d + step ∧ (r ≤ ub → 0 < step → d ≤ ub) ∧ ∃ n : Int, d = r + n * step := by
  induction fuel generalizing r with
  | zero => simp [stepUp] at h
  | succ fuel ih =>
    rw [stepUp] at h
    split at h
    · obtain ⟨h1, h2, n, h3⟩ := ih h
      exact ⟨h1, fun _ h' => h2 (by omega) h', n + 1, by rw [h3]; ring⟩
    · cases h
      exact ⟨by omega, fun h _ => h, 0, by ring⟩

theorem stepDown_terminates {ub step : Int} (hs : 0 < step) (fuel : Nat) (r : Int)
    (hf : (r - ub).toNat < fuel) : ∃ d, stepDown fuel r ub step = some d := by
  induction fuel generalizing r with
  | zero => omega
  | succ fuel ih =>
    rw [stepDown]
    split
    · exact ih _ (by omega)
    · exact ⟨_, rfl⟩

theorem stepUp_terminates {ub step : Int} (hs : 0 < step) (fuel : Nat) (r : Int)
    (hf : (ub - r).toNat < fuel) : ∃ d, stepUp fuel r ub step = some d := by
  induction fuel generalizing r with
  | zero => omega
  | succ fuel ih =>
    rw [stepUp]
    split
    · exact ih _ (by omega)
    · exact ⟨_, rfl⟩

theorem latest_date_before_spec {fuel : Nat} {start ub step d : Int} (hs : 0 < step)
    (h : latest_date_before fuel start ub step = some d) :
    Spec.IsLastCycleStart start ub step d := by
  rw [latest_date_before] at h
  simp only [Option.bind_eq_bind, Option.bind_eq_some_iff] at h
  obtain ⟨r, h1, h2⟩ := h
  obtain ⟨a1, -, -, n, a2⟩ := stepDown_spec h1
  obtain ⟨b1, b2, m, b3⟩ := stepUp_spec h2
  exact ⟨⟨n + m, by rw [b3, a2]; ring⟩, b2 a1 hs, b1⟩

theorem latest_date_before_terminates (start ub step : Int) (hs : 0 < step) :
    ∃ N, ∀ fuel, N ≤ fuel → ∃ d, latest_date_before fuel start ub step = some d := by
  refine ⟨(start - ub).toNat + 1 + ((ub - start).toNat + step.toNat + 1), fun fuel hf => ?_⟩
  obtain ⟨r, hr⟩ := stepDown_terminates (ub := ub) hs fuel start (by omega)
  obtain ⟨h1, h2, h3, -⟩ := stepDown_spec hr
  obtain ⟨d, hd⟩ := stepUp_terminates (ub := ub) hs fuel r (by
    rcases le_or_gt start ub with h' | h'
    · rw [h2 h']; omega
    · have := h3 h'; omega)
  exact ⟨d, by rw [latest_date_before, hr]; exact hd⟩

theorem lastCycleStart_unique {start ub step d e : Int} (hs : 0 < step)
    (hd : Spec.IsLastCycleStart start ub step d) (he : Spec.IsLastCycleStart start ub step e) :
    d = e := by
  obtain ⟨⟨n, h1⟩, h2, h3⟩ := hd
  obtain ⟨⟨m, k1⟩, k2, k3⟩ := he
  have : n = m := by
    rcases lt_trichotomy n m with h | h | h
    · have : (n + 1) * step ≤ m * step := mul_le_mul_of_nonneg_right (by omega) hs.le
      rw [add_mul, one_mul] at this
      omega
    · exact h
    · have : (m + 1) * step ≤ n * step := mul_le_mul_of_nonneg_right (by omega) hs.le
      rw [add_mul, one_mul] at this
      omega
  rw [h1, k1, this]

/-! ### cumulative sums and rotation -/

theorem cumsum_length (acc : Rat) (l : List Rat) : (cumsum acc l).length = l.length := by
  induction l generalizing acc with
  | nil => rfl
  | cons x xs ih => simp [cumsum, ih]

theorem cumsum_shift (c acc : Rat) (l : List Rat) :
    (cumsum acc l).map (fun x => x - c) = cumsum (acc - c) l := by
  induction l generalizing acc with
  | nil => rfl
  | cons x xs ih =>
    simp only [cumsum, List.map_cons, ih]
    rw [show acc + x - c = acc - c + x by ring]

theorem cumsum_append (acc : Rat) (l : List Rat) (x : Rat) :
    cumsum acc (l ++ [x]) = cumsum acc l ++ [acc + l.sum + x] := by
  induction l generalizing acc with
  | nil => simp [cumsum]
  | cons y ys ih => simp [cumsum, ih, add_assoc]

theorem cumsum_getElem? (acc : Rat) (l : List Rat) (j : Nat) (h : j < l.length) :
    (cumsum acc l)[j]? = some (acc + (l.take (j + 1)).sum) := by
  induction l generalizing acc j with
  | nil => simp at h
  | cons x xs ih =>
    cases j with
    | zero => simp [cumsum]
    | succ j =>
      simp only [cumsum, List.getElem?_cons_succ]
      rw [ih _ _ (by simpa using h)]
      simp [add_assoc]

theorem sum_map_div (l : List Rat) (c : Rat) : (l.map (· / c)).sum = l.sum / c := by
  induction l with
  | nil => simp
  | cons x xs ih => simp [ih, add_div]

theorem cumsum_eq_shares (w : List Rat) : cumsum 0 (w.map (· / w.sum)) = Spec.shares w := by
  apply List.ext_getElem?
  intro j
  rcases Nat.lt_or_ge j w.length with h | h
  · rw [cumsum_getElem? _ _ _ (by simpa using h), Spec.shares, List.getElem?_map,
      List.getElem?_range h, Option.map_some, zero_add, ← List.map_take, sum_map_div]
  · rw [List.getElem?_eq_none (by simpa [cumsum_length] using h),
      List.getElem?_eq_none (by simpa [Spec.shares] using h)]

theorem shares_length (w : List Rat) : (Spec.shares w).length = w.length := by simp [Spec.shares]

theorem sum_rotate (w : List Rat) (k : Nat) : (w.rotate k).sum = w.sum :=
  (List.rotate_perm w k).sum_eq

/-- one increment rotates labels and weights -/
theorem rotateProfile_zip (labels : List Int) (w : List Rat) (hl : labels.length = w.length)
    (hw : w.sum ≠ 0) :
    rotateProfile (labels.zip (Spec.shares w)) =
      (labels.rotate 1).zip (Spec.shares (w.rotate 1)) := by
  cases labels with
  | nil =>
    cases w with
    | nil => rfl
    | cons x xs => simp at hl
  | cons l ls =>
    cases w with
    | nil => simp at hl
    | cons x xs =>
      have hs : (x :: xs).sum ≠ 0 := hw
      rw [← cumsum_eq_shares, ← cumsum_eq_shares, sum_rotate]
      simp only [List.map_cons, cumsum, List.zip_cons_cons, rotateProfile, List.rotate_cons_succ,
        List.rotate_zero, List.map_append, List.map_nil, cumsum_append]
      have hlen : ls.length = (cumsum 0 (xs.map (· / (x :: xs).sum))).length := by
        rw [cumsum_length]; simpa using hl
      rw [List.zip_append hlen]
      congr 1
      · rw [zero_add]
        have := cumsum_shift (x / (x :: xs).sum) (x / (x :: xs).sum) (xs.map (· / (x :: xs).sum))
        rw [sub_self] at this
        rw [← this, List.zip_map_right]
        rfl
      · simp only [List.zip_cons_cons, List.zip_nil_right, zero_add, sum_map_div]
        rw [← add_div, add_comm, ← List.sum_cons, div_self hs]

theorem rotateProfile_zip_rotate (labels : List Int) (w : List Rat)
    (hl : labels.length = w.length) (hw : w.sum ≠ 0) (m : Nat) :
    rotateProfile ((labels.rotate m).zip (Spec.shares (w.rotate m))) =
      (labels.rotate (m + 1)).zip (Spec.shares (w.rotate (m + 1))) := by
  rw [rotateProfile_zip _ _ (by simpa using hl) (by rwa [sum_rotate]), List.rotate_rotate,
    List.rotate_rotate]

/-! ### construction of the profile -/

theorem resampled_labels (cfg : TimerProfile) (init step : Int) :
    (resampled cfg init step).map Prod.fst = Spec.gridDates init step (Spec.nBins cfg step) := by
  simp [resampled, Spec.gridDates, Spec.nBins, TimerProfile.duration]

/-- the padded index is always within the profile -/
theorem resampled_weights {cfg : TimerProfile} {init step : Int} (hs : 0 < step)
    (hp : 0 < cfg.steps) :
    Spec.IsBinWeights cfg step ((resampled cfg init step).map Prod.snd) := by
  have hlen : ((resampled cfg init step).map Prod.snd).length = Spec.nBins cfg step := by
    simp [resampled, Spec.nBins, TimerProfile.duration]
  refine ⟨hlen, fun k hk => ?_⟩
  rw [hlen] at hk
  have hk' : ((k : Int) + 1) * step ≤ cfg.profile.length * cfg.steps := by
    have h1 : (k : Int) + 1 ≤ cfg.profile.length * cfg.steps / step := by
      rw [Spec.nBins] at hk; omega
    exact (Int.le_ediv_iff_mul_le hs).1 h1
  have hks : 0 ≤ (k : Int) * step := mul_nonneg (by omega) hs.le
  have hq0 : 0 ≤ (k : Int) * step / cfg.steps := Int.ediv_nonneg hks hp.le
  have hq : (((k : Int) * step / cfg.steps).toNat : Int) = (k : Int) * step / cfg.steps := by omega
  have hlt : (k : Int) * step < cfg.profile.length * cfg.steps := by
    rw [add_mul] at hk'; omega
  have hqlt : (k : Int) * step / cfg.steps < cfg.profile.length := Int.ediv_lt_of_lt_mul hp hlt
  have hqn : ((k : Int) * step / cfg.steps).toNat < cfg.profile.length := by omega
  refine ⟨((k : Int) * step / cfg.steps).toNat, ?_, ?_, cfg.profile[((k : Int) * step / cfg.steps).toNat],
    List.getElem?_eq_getElem hqn, ?_⟩
  · rw [hq]; exact Int.ediv_mul_le _ hp.ne'
  · rw [hq]; exact Int.lt_ediv_add_one_mul_self _ hp
  · rw [List.getElem?_map, resampled, List.getElem?_map]
    rw [Spec.nBins] at hk
    rw [List.getElem?_range (by simpa [TimerProfile.duration] using hk)]
    simp [List.getD_eq_getElem?_getD, List.getElem?_eq_getElem hqn]

theorem buildProfile_ok {cfg : TimerProfile} {init step : Int} {prof : List (Int × Rat)}
    (hs : 0 < step) (hp : 0 < cfg.steps) (h : buildProfile cfg init step = .ok prof) :
    ∃ w, Spec.IsBinWeights cfg step w ∧ (w ≠ [] → w.sum ≠ 0) ∧
      prof = (Spec.gridDates init step w.length).zip (Spec.shares w) := by
  refine ⟨(resampled cfg init step).map Prod.snd, resampled_weights hs hp, ?_⟩
  have hw := (resampled_weights (init := init) hs hp).1
  simp only [buildProfile] at h
  split at h
  · cases h
  · split at h
    · rename_i he
      cases h
      simp [he, Spec.gridDates]
    · split at h
      · cases h
      · rename_i hne hsum
        cases h
        refine ⟨fun _ => hsum, ?_⟩
        rw [hw, resampled_labels, ← cumsum_eq_shares]
        simp only [List.map_map, Function.comp_def]

/-! ### micro shift -/

theorem gridDates_length (init step : Int) (n : Nat) : (Spec.gridDates init step n).length = n := by
  simp [Spec.gridDates]

theorem gridDates_rotate_head (init step : Int) (n m : Nat) (h : 0 < n) :
    ((Spec.gridDates init step n).rotate m)[0]? = some (init + ((m % n : Nat) : Int) * step) := by
  rw [List.getElem?_rotate (by rw [gridDates_length]; exact h), gridDates_length, zero_add,
    Spec.gridDates, List.getElem?_map, List.getElem?_range (Nat.mod_lt _ h)]
  rfl

/-- the profile after `m` rotations -/
def rotated (init step : Int) (w : List Rat) (m : Nat) : List (Int × Rat) :=
  ((Spec.gridDates init step w.length).rotate m).zip (Spec.shares (w.rotate m))

theorem rotated_length (init step : Int) (w : List Rat) (m : Nat) :
    (rotated init step w m).length = w.length := by
  simp [rotated, gridDates_length, shares_length]

theorem rotated_head (init step : Int) (w : List Rat) (m : Nat) (hw : w ≠ []) :
    ∃ c rest, rotated init step w m = (init + ((m % w.length : Nat) : Int) * step, c) :: rest := by
  have hpos : 0 < w.length := List.length_pos_iff.2 hw
  have h1 := gridDates_rotate_head init step w.length m hpos
  have h2 : (rotated init step w m)[0]?.map Prod.fst =
      some (init + ((m % w.length : Nat) : Int) * step) := by
    rw [← List.getElem?_map, rotated, List.map_fst_zip]
    · exact h1
    · simp [gridDates_length, shares_length]
  cases hr : rotated init step w m with
  | nil => rw [hr] at h2; simp at h2
  | cons x rest =>
    rw [hr] at h2
    simp only [List.getElem?_cons_zero, Option.map_some, Option.some.injEq] at h2
    exact ⟨x.2, rest, by rw [← h2]⟩

theorem rotateProfile_rotated (init step : Int) (w : List Rat) (hw : w.sum ≠ 0) (m : Nat) :
    rotateProfile (rotated init step w m) = rotated init step w (m + 1) :=
  rotateProfile_zip_rotate _ _ (gridDates_length _ _ _) hw m

theorem rotated_add_length (init step : Int) (w : List Rat) (m : Nat) :
    rotated init step w (m + w.length) = rotated init step w m := by
  have h1 : (Spec.gridDates init step w.length).rotate (m + w.length) =
      (Spec.gridDates init step w.length).rotate m := by
    rw [← List.rotate_mod, ← List.rotate_mod _ m, gridDates_length, Nat.add_mod_right]
  have h2 : w.rotate (m + w.length) = w.rotate m := by
    rw [← List.rotate_mod, Nat.add_mod_right, List.rotate_mod]
  rw [rotated, h1, h2, rotated]

theorem microShift_ok {fuel : Nat} {init step current : Int} {w : List Rat} (hw : w.sum ≠ 0)
    {m : Nat} {p : List (Int × Rat)}
    (h : microShift fuel (rotated init step w m) current = some (.ok p)) :
    ∃ m', m ≤ m' ∧ p = rotated init step w m' ∧
      current ≤ init + ((m' % w.length : Nat) : Int) * step ∧
      ∀ j, m ≤ j → j < m' → init + ((j % w.length : Nat) : Int) * step < current := by
  have hne : w ≠ [] := by rintro rfl; simp at hw
  induction fuel generalizing m with
  | zero => simp [microShift] at h
  | succ fuel ih =>
    obtain ⟨c, rest, hr⟩ := rotated_head init step w m hne
    rw [hr, microShift] at h
    split at h
    · rw [← hr, rotateProfile_rotated _ _ _ hw] at h
      obtain ⟨m', h1, h2, h3, h4⟩ := ih h
      refine ⟨m', by omega, h2, h3, fun j hj hj' => ?_⟩
      rcases Nat.eq_or_lt_of_le hj with rfl | hj
      · assumption
      · exact h4 j hj hj'
    · cases h
      exact ⟨m, le_rfl, hr.symm, by omega, fun j hj hj' => by omega⟩

theorem microShift_terminates {init step current : Int} {w : List Rat} (hw : w.sum ≠ 0)
    (M : Nat) (hM : M < w.length) (hc : current ≤ init + (M : Int) * step)
    (fuel m : Nat) (hm : m ≤ M) (hf : M - m < fuel) :
    ∃ p, microShift fuel (rotated init step w m) current = some (.ok p) := by
  have hne : w ≠ [] := by rintro rfl; simp at hw
  induction fuel generalizing m with
  | zero => omega
  | succ fuel ih =>
    obtain ⟨c, rest, hr⟩ := rotated_head init step w m hne
    rw [hr, microShift]
    split
    · rename_i hlt
      rw [← hr, rotateProfile_rotated _ _ _ hw]
      have : m ≠ M := by
        rintro rfl
        rw [Nat.mod_eq_of_lt hM] at hlt
        omega
      exact ih (m + 1) (by omega) (by omega)
    · exact ⟨_, rfl⟩

theorem microShift_hangs {init step current : Int} {w : List Rat} (hw : w.sum ≠ 0)
    (hs : 0 < step) (hc : init + ((w.length : Int) - 1) * step < current) (fuel m : Nat) :
    microShift fuel (rotated init step w m) current = none := by
  have hne : w ≠ [] := by rintro rfl; simp at hw
  induction fuel generalizing m with
  | zero => rfl
  | succ fuel ih =>
    obtain ⟨c, rest, hr⟩ := rotated_head init step w m hne
    have hlt : m % w.length < w.length := Nat.mod_lt _ (List.length_pos_iff.2 hne)
    have hle : ((m % w.length : Nat) : Int) * step ≤ ((w.length : Int) - 1) * step :=
      mul_le_mul_of_nonneg_right (by omega) hs.le
    rw [hr, microShift]
    rw [if_pos (by omega), ← hr, rotateProfile_rotated _ _ _ hw]
    exact ih _

/-! ### construction and evolution of a timer -/

theorem new_ok {σ : Type} {R : Rng σ} {fuel : Nat} {cfg : TimerProfile} {seed current step : Int}
    {t : CyclicTimer σ} (hs : 0 < step) (hp : 0 < cfg.steps)
    (h : CyclicTimer.new fuel R cfg seed current step = some (some (.ok t))) :
    ∃ init w m, latest_date_before fuel cfg.start current cfg.duration = some init ∧
      Spec.IsBinWeights cfg step w ∧ w ≠ [] ∧ w.sum ≠ 0 ∧ t.profile = rotated init step w m ∧
      t.nBins = w.length ∧ t.state = R.seed seed ∧
      current ≤ init + ((m % w.length : Nat) : Int) * step ∧
      ∀ j, j < m → init + ((j % w.length : Nat) : Int) * step < current := by
  simp only [CyclicTimer.new, Option.bind_eq_bind, Option.bind_eq_some_iff] at h
  obtain ⟨init, hi, h⟩ := h
  split at h
  · rename_i prof hprof
    obtain ⟨w, hw, hsum, hpr⟩ := buildProfile_ok hs hp hprof
    simp only [Option.bind_eq_some_iff] at h
    obtain ⟨r, hr, h⟩ := h
    cases r with
    | error e => cases h
    | ok p =>
      cases h
      have hne : w ≠ [] := by
        rintro rfl
        simp only [List.length_nil, Spec.gridDates, List.range_zero, List.map_nil,
          List.zip_nil_left] at hpr
        subst hpr
        cases fuel with
        | zero => simp [microShift] at hr
        | succ fuel => simp [microShift] at hr
      have hp0 : prof = rotated init step w 0 := by rw [hpr, rotated]; simp
      rw [hp0] at hr
      obtain ⟨m, -, h2, h3, h4⟩ := microShift_ok (hsum hne) hr
      exact ⟨init, w, m, hi, hw, hne, hsum hne, h2, by rw [hp0, rotated_length], rfl, h3,
        fun j hj => h4 j (Nat.zero_le _) hj⟩
  · cases h

theorem generate_profile {σ : Type} (R : Rng σ) (t : CyclicTimer σ) (obs : List Rat) :
    (t.generate R obs).2.profile = t.profile ∧ (t.generate R obs).2.nBins = t.nBins := ⟨rfl, rfl⟩

theorem run_profile {σ : Type} {R : Rng σ} {t0 t : CyclicTimer σ} {k m : Nat} {init step : Int}
    {w : List Rat} (hw : w.sum ≠ 0) (h0 : t0.profile = rotated init step w m)
    (h : TimerRun R t0 k t) : t.profile = rotated init step w (m + k) ∧ t.nBins = t0.nBins := by
  induction h with
  | start => exact ⟨h0, rfl⟩
  | increment _ ih =>
    refine ⟨?_, ih.2⟩
    rw [CyclicTimer.increment, ih.1, rotateProfile_rotated _ _ _ hw, Nat.add_assoc]
  | generate obs _ ih => exact ih

/-! ### generated timers -/

theorem searchLeft_lt (c : List Rat) (v : Rat) {j : Nat} (hj : j < searchLeft c v) :
    ∃ x, c[j]? = some x ∧ x < v := by
  induction c generalizing j with
  | nil => simp [searchLeft] at hj
  | cons y ys ih =>
    simp only [searchLeft, List.takeWhile_cons, decide_eq_true_eq] at hj
    split at hj
    · cases j with
      | zero => exact ⟨y, rfl, by assumption⟩
      | succ j =>
        obtain ⟨x, h1, h2⟩ := ih (j := j) (by simpa [searchLeft] using hj)
        exact ⟨x, by simpa using h1, h2⟩
    · simp at hj

theorem searchLeft_ge (c : List Rat) (v : Rat) {x : Rat} (h : c[searchLeft c v]? = some x) :
    v ≤ x := by
  induction c with
  | nil => simp at h
  | cons y ys ih =>
    by_cases hy : y < v
    · simp only [searchLeft, List.takeWhile_cons, hy, decide_true, if_true,
        List.length_cons, List.getElem?_cons_succ] at h
      exact ih h
    · simp only [searchLeft, List.takeWhile_cons, hy, decide_false,
        Bool.false_eq_true, if_false, List.length_nil, List.getElem?_cons_zero,
        Option.some.injEq] at h
      rw [← h]; exact le_of_not_gt hy

theorem searchLeft_lt_length {c : List Rat} {v : Rat} (hv : v ≤ 1) (hc : c ≠ [])
    (hl : c[c.length - 1]? = some 1) : searchLeft c v < c.length := by
  have hle : searchLeft c v ≤ c.length := by
    rw [searchLeft]; exact (List.takeWhile_sublist _).length_le
  rcases Nat.lt_or_ge (searchLeft c v) c.length with h | h
  · exact h
  · have hpos : 0 < c.length := List.length_pos_iff.2 hc
    obtain ⟨x, h1, h2⟩ := searchLeft_lt c v (j := c.length - 1) (by omega)
    rw [hl] at h1
    cases h1
    exact absurd h2 (not_lt.2 hv)

theorem shares_getElem? (w : List Rat) {j : Nat} (hj : j < w.length) :
    (Spec.shares w)[j]? = some ((w.take (j + 1)).sum / w.sum) := by
  rw [Spec.shares, List.getElem?_map, List.getElem?_range hj]; rfl

theorem shares_last {w : List Rat} (hw : w.sum ≠ 0) :
    (Spec.shares w)[(Spec.shares w).length - 1]? = some 1 := by
  have hne : w ≠ [] := by rintro rfl; simp at hw
  have hpos : 0 < w.length := List.length_pos_iff.2 hne
  rw [shares_length, shares_getElem? _ (by omega), show w.length - 1 + 1 = w.length by omega,
    List.take_length, div_self hw]

theorem rotated_cdf (init step : Int) (w : List Rat) (m : Nat) :
    (rotated init step w m).map Prod.snd = Spec.shares (w.rotate m) := by
  rw [rotated, List.map_snd_zip]
  simp [gridDates_length, shares_length]

theorem betaDraws_spec {σ : Type} (R : Rng σ) (as : List Rat) (h : ∀ a ∈ as, 2 < a) (s : σ) :
    (CyclicTimer.betaDraws R s as).1.length = as.length ∧
    ∀ b ∈ (CyclicTimer.betaDraws R s as).1, 0 ≤ b ∧ b ≤ 1 := by
  induction as generalizing s with
  | nil => simp [CyclicTimer.betaDraws]
  | cons a as ih =>
    have ha : 2 < a := h a (by simp)
    obtain ⟨h1, h2⟩ := ih (fun x hx => h x (by simp [hx])) (R.beta s 1 (a - 1)).2
    simp only [CyclicTimer.betaDraws, List.length_cons, h1, List.mem_cons, forall_eq_or_imp,
      true_and]
    exact ⟨R.beta_range s 1 (a - 1) (by norm_num) (by linarith), h2⟩

/-- what one observation yields -/
def Outcome {σ : Type} (t : CyclicTimer σ) (a : Rat) (r : Option Rat) : Prop :=
  (0 < a ∧ a ≤ 2 ∧ ∃ u, 0 ≤ u ∧ u < 1 ∧ r = some (CyclicTimer.correct (t.lowTimer u a))) ∨
  (2 < a ∧ ∃ b, 0 ≤ b ∧ b ≤ 1 ∧ r = some (CyclicTimer.correct (t.highTimer b))) ∨
  (a ≤ 0 ∧ r = none)

theorem assemble_spec {σ : Type} (t : CyclicTimer σ) (obs us bs : List Rat)
    (hul : us.length = (obs.filter fun a => decide (0 < a ∧ a ≤ 2)).length)
    (hbl : bs.length = (obs.filter fun a => decide (2 < a)).length)
    (hu : ∀ u ∈ us, 0 ≤ u ∧ u < 1) (hb : ∀ b ∈ bs, 0 ≤ b ∧ b ≤ 1) :
    List.Forall₂ (Outcome t) obs (CyclicTimer.assemble t obs us bs) := by
  induction obs generalizing us bs with
  | nil => simp [CyclicTimer.assemble]
  | cons a obs ih =>
    simp only [CyclicTimer.assemble]
    by_cases h1 : 0 < a ∧ a ≤ 2
    · have h2 : ¬ 2 < a := not_lt.2 h1.2
      simp only [h1, h2, and_self, decide_true, List.filter_cons_of_pos, List.length_cons,
        decide_false, Bool.false_eq_true, not_false_eq_true, List.filter_cons_of_neg] at hul hbl
      rw [if_pos h1]
      cases us with
      | nil => simp at hul
      | cons u us =>
        have hu0 := hu u (by simp)
        exact List.Forall₂.cons (Or.inl ⟨h1.1, h1.2, u, hu0.1, hu0.2, rfl⟩)
          (ih us bs (by simpa using hul) hbl (fun x hx => hu x (by simp [hx])) hb)
    · rw [if_neg h1]
      by_cases h2 : 2 < a
      · simp only [h1, h2, decide_true, List.filter_cons_of_pos, List.length_cons,
          decide_false, Bool.false_eq_true, not_false_eq_true, List.filter_cons_of_neg] at hul hbl
        rw [if_pos h2]
        cases bs with
        | nil => simp at hbl
        | cons b bs =>
          have hb0 := hb b (by simp)
          exact List.Forall₂.cons (Or.inr (Or.inl ⟨h2, b, hb0.1, hb0.2, rfl⟩))
            (ih us bs hul (by simpa using hbl) hu (fun x hx => hb x (by simp [hx])))
      · simp only [h1, h2, decide_false, Bool.false_eq_true, not_false_eq_true,
          List.filter_cons_of_neg] at hul hbl
        rw [if_neg h2]
        refine List.Forall₂.cons (Or.inr (Or.inr ⟨?_, rfl⟩)) (ih us bs hul hbl hu hb)
        by_contra h
        exact h1 ⟨not_le.1 h, not_lt.1 h2⟩

theorem generate_spec {σ : Type} (R : Rng σ) (t : CyclicTimer σ) (obs : List Rat) :
    List.Forall₂ (Outcome t) obs (t.generate R obs).1 := by
  rw [CyclicTimer.generate]
  have hh : ∀ a ∈ obs.filter fun a => decide (2 < a), 2 < a := by
    intro a ha
    simpa using (List.mem_filter.1 ha).2
  by_cases h0 : (obs.filter fun a => decide (0 < a ∧ a ≤ 2)).length > 0
  · obtain ⟨h1, h2⟩ := betaDraws_spec R _ hh
      (R.uniform t.state (obs.filter fun a => decide (0 < a ∧ a ≤ 2)).length).2
    simp only [h0, if_true]
    exact assemble_spec t obs _ _ (R.uniform_length _ _) h1 (R.uniform_range _ _) h2
  · obtain ⟨h1, h2⟩ := betaDraws_spec R _ hh t.state
    simp only [h0, if_false]
    refine assemble_spec t obs _ _ ?_ h1 (by simp) h2
    simp only [List.length_nil]; omega

end Trumania
