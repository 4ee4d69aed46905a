import Verif.Spec.Hours
import Verif.Props.Clock

/-!
# Helper lemmas on the bins targeted by cyclic timers
-/

namespace Trumania
open Spec
variable {σ : Type} {R : Rng σ}

/-- what `generate` makes of one activity: the draws meet `U` and `B` -/
def OutcomeOf (U B : Rat → Prop) (t : CyclicTimer σ) (a : Rat) (r : Option Rat) : Prop :=
  (0 < a ∧ a ≤ 2 ∧ ∃ u, U u ∧ r = some (CyclicTimer.correct (t.lowTimer u a))) ∨
  (2 < a ∧ ∃ b, B b ∧ r = some (CyclicTimer.correct (t.highTimer b))) ∨
  (a ≤ 0 ∧ r = none)

theorem assemble_draws {U B : Rat → Prop} (t : CyclicTimer σ) (obs us bs : List Rat)
    (hul : us.length = (obs.filter fun a => decide (0 < a ∧ a ≤ 2)).length)
    (hbl : bs.length = (obs.filter fun a => decide (2 < a)).length)
    (hu : ∀ u ∈ us, U u) (hb : ∀ b ∈ bs, B b) :
    List.Forall₂ (OutcomeOf U B t) obs (CyclicTimer.assemble t obs us bs) := by
  induction obs generalizing us bs with
  | nil => simp [CyclicTimer.assemble]
  | cons a obs ih =>
    simp only [CyclicTimer.assemble]
    by_cases h1 : 0 < a ∧ a ≤ 2
    · have h2 : ¬ 2 < a := not_lt.2 h1.2
      simp only [h1, h2, and_self, decide_true, List.filter_cons_of_pos, List.length_cons,
        decide_false, Bool.false_eq_true, not_false_eq_true, List.filter_cons_of_neg] at hul hbl
      rw [if_pos h1]
      cases us with
      | nil => simp at hul
      | cons u us =>
        exact List.Forall₂.cons (Or.inl ⟨h1.1, h1.2, u, hu u (by simp), rfl⟩)
          (ih us bs (by simpa using hul) hbl (fun x hx => hu x (by simp [hx])) hb)
    · rw [if_neg h1]
      by_cases h2 : 2 < a
      · simp only [h1, h2, decide_true, List.filter_cons_of_pos, List.length_cons,
          decide_false, Bool.false_eq_true, not_false_eq_true, List.filter_cons_of_neg] at hul hbl
        rw [if_pos h2]
        cases bs with
        | nil => simp at hbl
        | cons b bs =>
          exact List.Forall₂.cons (Or.inr (Or.inl ⟨h2, b, hb b (by simp), rfl⟩))
            (ih us bs hul (by simpa using hbl) hu (fun x hx => hb x (by simp [hx])))
      · simp only [h1, h2, decide_false, Bool.false_eq_true, not_false_eq_true,
          List.filter_cons_of_neg] at hul hbl
        rw [if_neg h2]
        refine List.Forall₂.cons (Or.inr (Or.inr ⟨?_, rfl⟩)) (ih us bs hul hbl hu hb)
        by_contra h
        exact h1 ⟨not_le.1 h, not_lt.1 h2⟩

theorem betaDraws_all {B : Rat → Prop} (hB : ∀ s a, 2 < a → B (R.beta s 1 (a - 1)).1) (as : List Rat)
    (h : ∀ a ∈ as, 2 < a) (s : σ) :
    (CyclicTimer.betaDraws R s as).1.length = as.length ∧
      ∀ b ∈ (CyclicTimer.betaDraws R s as).1, B b := by
  induction as generalizing s with
  | nil => simp [CyclicTimer.betaDraws]
  | cons a as ih =>
    obtain ⟨h1, h2⟩ := ih (fun x hx => h x (by simp [hx])) (R.beta s 1 (a - 1)).2
    rw [CyclicTimer.betaDraws]
    refine ⟨by simpa using h1, ?_⟩
    intro b hb
    rcases List.mem_cons.1 hb with rfl | hb
    · exact hB _ _ (h a (by simp))
    · exact h2 b hb

theorem generate_draws {U B : Rat → Prop} (hU : ∀ s n, ∀ u ∈ (R.uniform s n).1, U u)
    (hB : ∀ s a, 2 < a → B (R.beta s 1 (a - 1)).1) (t : CyclicTimer σ) (obs : List Rat) :
    List.Forall₂ (OutcomeOf U B t) obs (t.generate R obs).1 := by
  rw [CyclicTimer.generate]
  have hh : ∀ a ∈ obs.filter fun a => decide (2 < a), 2 < a := by
    intro a ha
    simpa using (List.mem_filter.1 ha).2
  by_cases h0 : (obs.filter fun a => decide (0 < a ∧ a ≤ 2)).length > 0
  · obtain ⟨h1, h2⟩ := betaDraws_all hB _ hh
      (R.uniform t.state (obs.filter fun a => decide (0 < a ∧ a ≤ 2)).length).2
    simp only [h0, if_true]
    exact assemble_draws t obs _ _ (R.uniform_length _ _) h1 (hU _ _) h2
  · obtain ⟨h1, h2⟩ := betaDraws_all hB _ hh t.state
    simp only [h0, if_false]
    refine assemble_draws t obs _ _ ?_ h1 (by simp) h2
    simp only [List.length_nil]; omega

/-- the raw position (before the correction) of a timer, and the draw it comes from; the draw is not 0
in the first cycle -/
theorem outcome_target {t : CyclicTimer σ} {a : Rat} {r : Option Rat}
    (h : OutcomeOf (fun u => 0 < u ∧ u < 1) (fun b => 0 < b ∧ b ≤ 1) t a r) (ha : 0 < a)
    (hlast : t.cdf[t.cdf.length - 1]? = some 1) (hne : t.cdf ≠ []) (hlen : t.cdf.length = t.nBins) :
    ∃ (c : Nat) (v : Rat), r = some ((searchLeft t.cdf v + t.nBins * c - 1 : Nat) : Rat) ∧
      searchLeft t.cdf v < t.nBins ∧ (c = 0 → 0 < v) := by
  rcases h with ⟨h1, h2, u, ⟨hu0, hu1⟩, rfl⟩ | ⟨h1, b, ⟨hb0, hb1⟩, rfl⟩ | ⟨h1, -⟩
  · have hx0 : 0 < 2 * u / a := div_pos (by linarith) h1
    have hfl0 : 0 ≤ ⌊2 * u / a⌋ := Int.floor_nonneg.2 hx0.le
    refine ⟨⌊2 * u / a⌋.toNat, 2 * u / a - ⌊2 * u / a⌋, ?_, ?_, ?_⟩
    · rw [← correct_natCast]
      congr 2
      have : ((⌊2 * u / a⌋.toNat : Nat) : Rat) = ((⌊2 * u / a⌋ : Int) : Rat) := by
        have h : ((⌊2 * u / a⌋.toNat : Nat) : Int) = ⌊2 * u / a⌋ := by omega
        exact_mod_cast h
      push_cast
      rw [this]
      rfl
    · rw [← hlen]
      exact searchLeft_lt_length (by have := Int.lt_floor_add_one (2 * u / a); linarith) hne hlast
    · intro h0
      have : ⌊2 * u / a⌋ = 0 := by omega
      rw [this]
      simpa using hx0
  · refine ⟨0, b, ?_, ?_, fun _ => hb0⟩
    · rw [← correct_natCast, CyclicTimer.highTimer]
      simp
    · rw [← hlen]; exact searchLeft_lt_length hb1 hne hlast
  · linarith

/-- a position found in the cumulated shares has a positive weight, unless the draw is 0 -/
theorem searchLeft_weight {u : List Rat} (hnn : ∀ x ∈ u, 0 ≤ x) (hs : 0 < u.sum) {v : Rat} {i : Nat}
    (hi : searchLeft (shares u) v = i) (hlt : i < u.length) (hv : 0 < i ∨ 0 < v) :
    ∃ x, u[i]? = some x ∧ 0 < x := by
  refine ⟨u[i], List.getElem?_eq_getElem hlt, ?_⟩
  have hge : v ≤ (u.take (i + 1)).sum / u.sum := by
    apply searchLeft_ge (shares u) v
    rw [hi, shares_getElem? _ hlt]
  rw [List.take_add_one, List.sum_append, List.getElem?_eq_getElem hlt] at hge
  have hlt3 : (u.take i).sum / u.sum < v := by
    rcases Nat.eq_zero_or_pos i with h0 | hipos
    · subst h0
      simpa using hv
    · obtain ⟨y, hy1, hy2⟩ := searchLeft_lt (shares u) v (j := i - 1) (by omega)
      rw [shares_getElem? _ (by omega), show i - 1 + 1 = i by omega] at hy1
      cases hy1
      exact hy2
  have := lt_of_lt_of_le hlt3 hge
  rw [div_lt_div_iff_of_pos_right hs] at this
  simpa using this

/-- the weights of the bins are those of the dates of the grid -/
theorem binWeights_at {cfg : TimerProfile} {step init : Int} {w : List Rat} (hs : 0 < step)
    (hp : 0 < cfg.steps) (hw : IsBinWeights cfg step w) (hcyc : (cfg.profile.length * cfg.steps) % step = 0)
    (hinit : (init - cfg.start) % (cfg.profile.length * cfg.steps) = 0) (hne : 0 < w.length) (j : Nat) :
    w[j % w.length]? = some (profileWeight cfg (init + j * step)) := by
  obtain ⟨q, hq⟩ := Int.dvd_of_emod_eq_zero hcyc
  have hnb : (w.length : Int) = q := by
    have : 0 < step * q := by
      rw [hw.1, nBins] at hne
      rw [← hq]
      by_contra hc
      have := Int.ediv_nonpos_of_nonpos_of_neg (not_lt.1 hc) hs
      omega
    have hq0 : 0 < q := (mul_pos_iff_of_pos_left hs).1 this
    rw [hw.1, nBins, hq, Int.mul_ediv_cancel_left _ hs.ne']; omega
  have hdur : (cfg.profile.length : Int) * cfg.steps = w.length * step := by rw [hq, hnb, mul_comm]
  have hlt : j % w.length < w.length := Nat.mod_lt _ hne
  obtain ⟨i, h1, h2, x, h3, h4⟩ := hw.2 _ hlt
  rw [h4]
  congr 1
  have hoff : (init + j * step - cfg.start) % (cfg.profile.length * cfg.steps) =
      ((j % w.length : Nat) : Int) * step := by
    rw [show init + (j : Int) * step - cfg.start = (init - cfg.start) + j * step by ring, Int.add_emod,
      hinit, Int.zero_add, Int.emod_emod, hdur, mul_comm _ step, mul_comm _ step,
      Int.mul_emod_mul_of_pos _ _ hs, Int.natCast_emod, mul_comm]
  rw [profileWeight, hoff]
  have hdiv : ((j % w.length : Nat) : Int) * step / cfg.steps = i := by
    apply le_antisymm
    · have := Int.ediv_lt_of_lt_mul hp h2
      omega
    · exact Int.le_ediv_of_mul_le hp h1
  rw [hdiv, Int.toNat_natCast, List.getD_eq_getElem?_getD, h3]
  rfl

theorem profileWeight_same {cfg : TimerProfile} {d e : Int} (h : SamePoint cfg d e) :
    profileWeight cfg d = profileWeight cfg e := by
  have : (d - cfg.start) % (cfg.profile.length * cfg.steps) =
      (e - cfg.start) % (cfg.profile.length * cfg.steps) := by
    have := Int.emod_emod_of_dvd (d - e) (dvd_refl ((cfg.profile.length : Int) * cfg.steps))
    rw [show d - cfg.start = (d - e) + (e - cfg.start) by ring, Int.add_emod, show (d - e) % _ = 0 from h,
      Int.zero_add, Int.emod_emod]
  rw [profileWeight, this, profileWeight]

/-- the clock step targeted by a timer -/
theorem timer_target {cfg : TimerProfile} {step date : Int} {t : CyclicTimer σ} (hR : NoZeroDraw R)
    (hs : 0 < step) (hp : 0 < cfg.steps) (hw : ∀ x ∈ cfg.profile, 0 ≤ x)
    (hcyc : (cfg.profile.length * cfg.steps) % step = 0) (ht : OnTime R cfg step date t) (obs : List Rat) :
    List.Forall₂ (fun a r => (a ≤ 0 → r = none) ∧ (0 < a → ∃ n : Nat, r = some (n : Rat) ∧
        (0 < profileWeight cfg (date + (n + 1) * step) ∨ (n = 0 ∧ 0 < profileWeight cfg date) ∨
          SamePoint cfg (date + (n + 1) * step) date))) obs (t.generate R obs).1 := by
  obtain ⟨fuel, seed, date0, t0, k, h0, hrun, rfl, hgrid⟩ := ht
  obtain ⟨c1, c2, c3, c4⟩ := timer_cdf hs hp h0 hrun
  obtain ⟨init, w, m, g1, g2, g3, g4, g5, g6, g7, g8⟩ := timer_profile hs hp h0 hrun
  have hlen : 0 < w.length := by omega
  have hd : 0 < cfg.duration := by
    by_contra hd
    have : w.length = 0 := by
      rw [g2.1, nBins]
      have : (cfg.profile.length : Int) * cfg.steps ≤ 0 := not_lt.1 hd
      have := Int.ediv_nonpos_of_nonpos_of_neg this hs
      omega
    omega
  obtain ⟨⟨n0, hn0⟩, -, -⟩ := latest_date_before_spec hd g1
  have hinit : (init - cfg.start) % (cfg.profile.length * cfg.steps) = 0 := by
    rw [hn0]
    show (cfg.start + n0 * ((cfg.profile.length : Int) * cfg.steps) - cfg.start) % _ = 0
    simp
  have hdate : init + (m : Int) * step = date0 := by
    obtain ⟨q, hq⟩ := Int.dvd_of_emod_eq_zero hcyc
    obtain ⟨r, hr⟩ := Int.dvd_of_emod_eq_zero hgrid
    have hn0' : init = cfg.start + n0 * ((cfg.profile.length : Int) * cfg.steps) := hn0
    have : init + (m : Int) * step - date0 = (n0 * q + m - r) * step := by
      rw [hn0', hq, show date0 = cfg.start + step * r by omega]; ring
    have h1 : 0 ≤ (n0 * q + m - r) * step := by omega
    have h2 : (n0 * q + m - r) * step < 1 * step := by omega
    have h3 := lt_of_mul_lt_mul_right h2 hs.le
    have h4 := nonneg_of_mul_nonneg_left h1 hs
    have h5 : n0 * q + m - r = 0 := by omega
    rw [h5] at this
    omega
  have hnn : ∀ x ∈ w, 0 ≤ x := by
    intro x hx
    obtain ⟨j, hj, rfl⟩ := List.mem_iff_getElem.1 hx
    obtain ⟨i, -, -, x, hx1, hx2⟩ := g2.2 j hj
    rw [List.getElem?_eq_getElem hj] at hx2
    cases hx2
    exact hw _ (List.mem_of_getElem? hx1)
  have hsum : 0 < w.sum := lt_of_le_of_ne (List.sum_nonneg hnn) (Ne.symm g3)
  have hcdf : t.cdf = shares (w.rotate (m + k)) := by rw [CyclicTimer.cdf, g8, rotated_cdf]
  have hdur : (cfg.profile.length : Int) * cfg.steps = w.length * step := by
    obtain ⟨q, hq⟩ := Int.dvd_of_emod_eq_zero hcyc
    have hq0 : 0 < q := by
      have : 0 < step * q := by rw [← hq]; exact hd
      exact (mul_pos_iff_of_pos_left hs).1 this
    have : (w.length : Int) = q := by
      rw [g2.1, nBins, hq, Int.mul_ediv_cancel_left _ hs.ne']; omega
    rw [hq, this, mul_comm]
  refine List.Forall₂.imp ?_ (generate_draws (R := R) (U := fun u => 0 < u ∧ u < 1)
    (B := fun b => 0 < b ∧ b ≤ 1) (fun s n u hu => ⟨hR.uniform s n u hu, (R.uniform_range s n u hu).2⟩)
    (fun s a ha => ⟨hR.beta _ _ _, (R.beta_range s 1 (a - 1) (by norm_num) (by linarith)).2⟩) t obs)
  intro a r ho
  refine ⟨fun ha => ?_, fun ha => ?_⟩
  · rcases ho with ⟨h, -⟩ | ⟨h, -⟩ | ⟨-, h⟩
    · linarith
    · linarith
    · exact h
  obtain ⟨c, v, hr, hlt, hv⟩ := outcome_target ho ha c1 c2 c3
  refine ⟨_, hr, ?_⟩
  rw [g7] at hlt ⊢
  generalize hi : searchLeft t.cdf v = i at hlt
  rw [hcdf] at hi
  have hat : ∀ j : Nat, (w.rotate (m + k))[j % w.length]? =
      some (profileWeight cfg (date0 + k * step + j * step)) := by
    intro j
    rw [List.getElem?_rotate (Nat.mod_lt _ hlen)]
    have := binWeights_at hs hp g2 hcyc hinit hlen (j + (m + k))
    rw [Nat.mod_add_mod, this, ← hdate]
    congr 2
    push_cast
    ring
  by_cases hpos : 0 < i ∨ 0 < v
  · obtain ⟨x, hx1, hx2⟩ := searchLeft_weight (fun x hx => hnn x (List.mem_rotate.1 hx))
      (by rw [sum_rotate]; exact hsum) hi (by rw [List.length_rotate]; exact hlt) hpos
    have hxi := hat (i + w.length * c)
    rw [Nat.add_mul_mod_self_left, Nat.mod_eq_of_lt hlt, hx1] at hxi
    cases hxi
    rcases Nat.eq_zero_or_pos (i + w.length * c) with h0 | h0
    · rw [h0] at hx2
      exact .inr (.inl ⟨by omega, by simpa using hx2⟩)
    · refine .inl ?_
      have : ((i + w.length * c - 1 : Nat) : Int) + 1 = ((i + w.length * c : Nat) : Int) := by omega
      rw [this]
      exact hx2
  · have hi0 : i = 0 := by omega
    subst hi0
    have hc : c ≠ 0 := fun hc => hpos (.inr (hv hc))
    refine .inr (.inr ?_)
    have h1 : 0 < w.length * c := Nat.mul_pos hlen (by omega)
    have : ((0 + w.length * c - 1 : Nat) : Int) + 1 = (w.length : Int) * c := by
      have : ((0 + w.length * c - 1 : Nat) : Int) + 1 = ((w.length * c : Nat) : Int) := by omega
      rw [this]; push_cast; rfl
    rw [SamePoint, this, hdur]
    rw [show date0 + (k : Int) * step + (w.length : Int) * c * step - (date0 + k * step) =
      w.length * step * c by ring]
    exact Int.mul_emod_right _ _

theorem OnTime.increment {cfg : TimerProfile} {step date : Int} {t : CyclicTimer σ}
    (h : OnTime R cfg step date t) : OnTime R cfg step (date + step) t.increment := by
  obtain ⟨fuel, seed, date0, t0, k, h0, hrun, rfl, hgrid⟩ := h
  exact ⟨fuel, seed, date0, t0, k + 1, h0, .increment hrun, by push_cast; ring, hgrid⟩

theorem OnTime.generate {cfg : TimerProfile} {step date : Int} {t : CyclicTimer σ}
    (h : OnTime R cfg step date t) (obs : List Rat) : OnTime R cfg step date (t.generate R obs).2 := by
  obtain ⟨fuel, seed, date0, t0, k, h0, hrun, hd, hgrid⟩ := h
  exact ⟨fuel, seed, date0, t0, k, h0, .generate obs hrun, hd, hgrid⟩

end Trumania
