import Verif.Proofs.Chance
import Verif.Props.Clock
import Verif.Props.StoryStates
import Verif.Props.Generators

/-!
# Properties C86-C89 (probabilities)
-/

namespace Trumania
open Spec Story World
variable {σ γ : Type}

/-! ### C86 -/

/-- **C86** a share is an interval, inside `[0, 1]`, whose length is the normalised weight. -/
theorem C86_probability (ws : List Rat) (hnn : ∀ x ∈ ws, 0 ≤ x) (hs : 0 < ws.sum) (i : Nat) (w : Rat)
    (hi : ws[i]? = some w) :
    ∃ lo, 0 ≤ lo ∧ lo + w / ws.sum ≤ 1 ∧ ∀ u, Share ws i u ↔ lo ≤ u ∧ u < lo + w / ws.sum := by
  have hstep : (ws.take (i + 1)).sum = (ws.take i).sum + w := by
    rw [List.take_add_one, List.sum_append, hi]; simp
  refine ⟨(ws.take i).sum / ws.sum, ?_, ?_, fun u => ?_⟩
  · exact div_nonneg (List.sum_nonneg fun x hx => hnn x (List.mem_of_mem_take hx)) hs.le
  · rw [← add_div, ← hstep, div_le_one hs]
    conv_rhs => rw [← List.take_append_drop (i + 1) ws, List.sum_append]
    have := List.sum_nonneg fun x (hx : x ∈ ws.drop (i + 1)) => hnn x (List.mem_of_mem_drop hx)
    linarith
  · rw [Share, hstep, add_div]

/-- **C86** For each request in order, `select_one` picks among the relations of the from the one
in whose share falls the next number of the generator of the relationship; no number is used for a
from that has a single relation, or none. With `one_to_one`, one shuffle of the picked rows follows. -/
theorem C86_select_one (R : Rng σ) {r r' : Relationship σ} (hr : Relationship.Reachable R r)
    (env : Orders) {reqs : List (Val × Val)} {pop discard o2o : Bool} {ow : Option (Dict Val Rat)}
    {rows : List OneRow} (h : r.select_one R (some reqs) pop discard o2o ow = .ok (rows, r')) :
    ∃ base s, Picks R (r.get_relations env) discard ow r.state reqs base s ∧
      (o2o = false → rows = base ∧ r'.state = s) ∧ (∀ row ∈ rows, row ∈ base) ∧
      (o2o = true → r'.state = if base = [] then s else
        (R.perm s (base.filter fun x => !x.to_.isNone).length).2) := by
  rw [Relationship.select_one] at h
  split at h
  · cases h
  obtain ⟨⟨base, s⟩, h1, h2⟩ := bind_eq_ok.1 h
  have hp := selectResults_picks R hr.gwf env h1
  refine ⟨base, s, hp, ?_⟩
  simp only at h2
  split at h2
  · rename_i hb
    subst hb
    cases h2
    simp
  · rename_i hb
    obtain ⟨g, -, h2⟩ := bind_eq_ok.1 h2
    cases h2
    cases o2o with
    | false => simp
    | true =>
      refine ⟨by simp, ?_, fun _ => ?_⟩
      · intro row hrow
        exact mem_of_mem_oneToOne R hrow
      · rw [if_neg hb]
        show (R.perm s (((base.filter fun x => !x.to_.isNone)).map (·.label)).length).2 = _
        rw [List.length_map]

/-- the numbers 0.2, 0.3, ... are used for the requests of "a" (relations of weights 1 and 3) only -/
example :
    let rel := (Relationship.new Rng.counter 2).add_relations ⟨SetOrder.rdedup Val, ArgSort.stable⟩
      [.str "a", .str "a", .str "b"] [.str "x", .str "y", .str "z"] (.list [1, 3, 1])
    let reqs := [(.num 0, .str "a"), (.num 1, .str "b"), (.num 2, .str "c"), (.num 3, .str "a")]
    ((rel.toOption.map fun r => r.select_one Rng.counter (some reqs)).bind (·.toOption)).map
      (fun x => (x.1, x.2.state)) =
    some ([⟨.num 0, .str "a", some 0, some (.str "x")⟩, ⟨.num 1, .str "b", some 0, some (.str "z")⟩,
      ⟨.num 3, .str "a", some 1, some (.str "y")⟩], 4) := by decide +kernel

/-! ### C87 -/

theorem backConds_iff (R : Rng σ) (j : σ) (probs : List Rat) (k : Nat) (p u : Rat)
    (hk : probs[k]? = some p) (hu : (R.uniform j probs.length).1[k]? = some u) :
    (backConds R j probs).1[k]? = some (decide (u < p)) := by
  have hr := R.uniform_range j probs.length _ (List.mem_of_getElem? hu)
  rw [backConds]
  split
  · rename_i h
    rw [List.all_eq_true] at h
    have := h p (List.mem_of_getElem? hk)
    have : p = 0 := by simpa using this
    rw [List.getElem?_map, hk, this]
    simp [hr.1]
  split
  · rename_i h
    rw [List.all_eq_true] at h
    have := h p (List.mem_of_getElem? hk)
    have : p = 1 := by simpa using this
    rw [List.getElem?_map, hk, this]
    simp [hr.2]
  · simp only [List.getElem?_zipWith, hk, hu]

/-- **C87** The members that are not in `default` are given one number each, in order, of the
generator of the story: those whose number is below their probability return to `default`, the others
stay where they are. The generator does not advance when all the probabilities are 0, or all are 1. -/
theorem C87_back_to_default (R : Rng σ) (s s' : Story σ) (present : List Val)
    (h : s.maybeBackToDefault R present = .ok s') :
    ∃ us, us = (R.uniform s.judge (awayOf s present).length).1 ∧
      (∀ id st, stateOf s id = some st →
        ((∃ (k : Nat) (u : Rat) (p : StateParams), (awayOf s present)[k]? = some id ∧ us[k]? = some u ∧ paramsOf s id = some p ∧
            u < p.back) → stateOf s' id = some (.str "default")) ∧
        ((∀ (k : Nat) (u : Rat) (p : StateParams), (awayOf s present)[k]? = some id → us[k]? = some u → paramsOf s id = some p →
            p.back ≤ u) → stateOf s' id = some st)) ∧
      ((∃ c : Rat, (c = 0 ∨ c = 1) ∧ ∀ id ∈ awayOf s present, ∀ p, paramsOf s id = some p →
          p.back = c) → s'.judge = s.judge) ∧
      ((¬ ∃ c : Rat, (c = 0 ∨ c = 1) ∧ ∀ id ∈ awayOf s present, ∀ p, paramsOf s id = some p →
          p.back = c) → s'.judge = (R.uniform s.judge (awayOf s present).length).2) := by
  obtain ⟨h1, h2, h3, h4⟩ := maybeBackToDefault_ok h
  have haway : awayOf s present = s.nonDefault present := by
    rw [awayOf, nonDefault]
    apply List.filter_congr
    intro i hi
    obtain ⟨r, hr⟩ := exists_row? (h3 i hi)
    rw [stateOf_eq, hr]
    simp only [Option.map_some, ne_eq, Option.some.injEq]
    rfl
  rw [haway]
  refine ⟨_, rfl, ?_⟩
  rcases h4 with ⟨hn, rfl⟩ | ⟨ps, hne, hps, hj, hrow⟩
  · rw [hn]
    exact ⟨fun id st hst => ⟨by simp, fun _ => hst⟩, fun _ => rfl,
      fun hc => absurd ⟨0, .inl rfl, by simp⟩ hc⟩
  · have hlen : (ps.map (·.back)).length = (s.nonDefault present).length := by
      rw [List.length_map, hps.length_eq]
    have hall : ∀ c : Rat, (∀ id ∈ s.nonDefault present, ∀ p, paramsOf s id = some p → p.back = c) ↔
        (ps.map (·.back)).all (fun p => decide (p = c)) = true := by
      intro c
      rw [List.all_eq_true]
      constructor
      · intro hc x hx
        obtain ⟨p, hp, rfl⟩ := List.mem_map.1 hx
        obtain ⟨id, hid, hp⟩ := forall₂_exists_left hps hp
        simp [hc id hid p hp]
      · intro hc id hid p hp
        obtain ⟨p', hp', hid'⟩ := forall₂_exists_right hps hid
        rw [hp] at hid'
        cases hid'
        simpa using hc p.back (List.mem_map.2 ⟨p, hp', rfl⟩)
    refine ⟨fun id st hst => ?_, ?_⟩
    · rw [stateOf_eq] at hst
      obtain ⟨r, hr, hrs⟩ := Option.map_eq_some_iff.1 hst
      constructor
      · rintro ⟨k, u, p, k1, k2, k3, k4⟩
        have hkp : k < ps.length := by
          rw [← hps.length_eq]; exact (List.getElem?_eq_some_iff.1 k1).1
        have k5 := List.getElem?_eq_getElem hkp
        have k6 := Forall₂_get hps k1 k5
        rw [k3] at k6
        cases k6
        have hb := backConds_iff R s.judge (ps.map (·.back)) k _ u (by rw [List.getElem?_map, k5]; rfl)
          (by rw [hlen]; exact k2)
        rw [stateOf_eq, hrow, if_pos, hr]
        · rfl
        · rw [List.mem_map]
          refine ⟨(id, true), List.mem_filter.2 ⟨?_, rfl⟩, rfl⟩
          rw [decide_eq_true k4] at hb
          exact List.mem_iff_getElem?.2 ⟨k, List.getElem?_zip_eq_some.2 ⟨k1, hb⟩⟩
      · intro hall
        rw [stateOf_eq, hrow, if_neg, hr]
        · simp [hrs]
        · intro hm
          rw [List.mem_map] at hm
          obtain ⟨⟨id', b⟩, hx, rfl⟩ := hm
          rw [List.mem_filter] at hx
          obtain ⟨k, hk⟩ := List.mem_iff_getElem?.1 hx.1
          rw [List.getElem?_zip_eq_some] at hk
          have hkp : k < ps.length := by
            rw [← hps.length_eq]; exact (List.getElem?_eq_some_iff.1 hk.1).1
          have k5 := List.getElem?_eq_getElem hkp
          have hkl := (List.getElem?_eq_some_iff.1 hk.1).1
          have hul : k < (R.uniform s.judge (s.nonDefault present).length).1.length := by
            rw [R.uniform_length]; exact hkl
          have k6 := List.getElem?_eq_getElem hul
          have hb := backConds_iff R s.judge (ps.map (·.back)) k _ _
            (by rw [List.getElem?_map, k5]; rfl) (by rw [hlen]; exact k6)
          have hle := hall k _ _ hk.1 k6 (Forall₂_get hps hk.1 k5)
          rw [decide_eq_false (not_lt.2 hle)] at hb
          have hk2 : (backConds R s.judge (ps.map (·.back))).1[k]? = some b := hk.2
          rw [hb] at hk2
          cases hk2
          exact absurd hx.2 (by simp)
    · simp only [hall]
      rw [hj, backConds]
      constructor
      · rintro ⟨c, rfl | rfl, hc⟩
        · rw [if_pos hc]
        · rw [if_pos hc]
          split <;> rfl
      · intro hc
        rw [if_neg fun h0 => hc ⟨0, .inl rfl, h0⟩, if_neg fun h1 => hc ⟨1, .inr rfl, h1⟩]
        simp only [hlen]

/-- "b" (probability 1/2) and "a" (probability 0) are away: the number 0.4 makes "b" return, the
number 0.6 does not -/
example :
    let run := fun (j : Nat) => do
      let s ← exStory.transitToState [.str "a", .str "b"] [.str "busy", .str "busy"]
      let s' ← ({ s with judge := j } : Story Nat).maybeBackToDefault Rng.counter [.str "b", .str "a"]
      .ok (awayOf s [.str "b", .str "a"], [.str "a", .str "b"].map (stateOf s'), s'.judge)
    run 4 = (.ok ([.str "b", .str "a"], [some (.str "busy"), some (.str "default")], 6) : Py _) ∧
    run 6 = .ok ([.str "b", .str "a"], [some (.str "busy"), some (.str "busy")], 8) := by
  decide +kernel

/-! ### C88 -/

/-- **C88** numbers below the probability given by the mapper trigger, the others do not: one number
per observation, in order. -/
theorem C88_trigger (R : Rng σ) (mapper : List Rat → List Rat) (s s' : σ) (obs : List Rat)
    (out : List Bool) (h : triggerGenerate R mapper s obs = .ok (out, s')) :
    (mapper obs).length = obs.length ∧ out.length = obs.length ∧ s' = (R.uniform s obs.length).2 ∧
      ∀ (k : Nat) (u p : Rat) (b : Bool), (R.uniform s obs.length).1[k]? = some u →
        (mapper obs)[k]? = some p → out[k]? = some b → (b = true ↔ u < p) := by
  simp only [triggerGenerate] at h
  split at h
  · rename_i hl
    rw [R.uniform_length] at hl
    cases h
    refine ⟨hl, by simp [hl, R.uniform_length], rfl, fun k u p b k1 k2 k3 => ?_⟩
    rw [List.getElem?_zipWith, k1, k2] at k3
    cases k3
    rw [decide_eq_true_iff]
  · cases h

/-- **C88** a choice generator with probabilities gives, for each number in order, the value in
whose share the number falls. -/
theorem C88_choice (R : Rng σ) (s s' : σ) (a vs : List Val) (ps : List Rat) (n : Nat)
    (h : choiceGenerate R s a (some ps) n = .ok (vs, s')) :
    ps.length = a.length ∧ (∀ x ∈ ps, 0 ≤ x) ∧ 0 < ps.sum ∧ s' = (R.uniform s n).2 ∧
      vs.length = n ∧ ∀ (k : Nat) (u : Rat) (v : Val), (R.uniform s n).1[k]? = some u →
        vs[k]? = some v → ∃ i : Nat, a[i]? = some v ∧ Share ps i u := by
  rw [choiceGenerate] at h
  obtain ⟨⟨is, s1⟩, h1, h2⟩ := bind_eq_ok.1 h
  obtain ⟨vals, h3, h4⟩ := bind_eq_ok.1 h2
  cases h4
  obtain ⟨c1, c2, c3, c4, c5⟩ := choiceP_shares R h1
  rw [fancy, mapM_ok_iff] at h3
  refine ⟨c1, c2, c3, c4, ?_, fun k u v k1 k2 => ?_⟩
  · rw [← h3.length_eq, ← c5.length_eq, R.uniform_length]
  · have hk : k < is.length := by
      rw [h3.length_eq]; exact (List.getElem?_eq_some_iff.1 k2).1
    have k3 := List.getElem?_eq_getElem hk
    have e1 := Forall₂_get c5 k1 k3
    have e2 := Forall₂_get h3 k3 k2
    refine ⟨is[k], ?_, e1⟩
    cases hx : a[is[k]]? with
    | none => rw [hx] at e2; cases e2
    | some x => rw [hx] at e2; cases e2; rfl

example : choiceGenerate Rng.counter 3 [.str "x", .str "y", .str "z"] (some [1/2, 0, 1/2]) 4 =
    .ok ([.str "x", .str "x", .str "z", .str "z"], 7) ∧
    (Rng.counter.uniform 3 4).1 = [3/10, 4/10, 5/10, 6/10] := by decide +kernel

example : (triggerGenerate Rng.counter (fun l => l.map (· / 10)) 3 [0, 5, 5, 5]) =
    .ok ([false, true, false, false], 7) := by decide +kernel

/-! ### C89 -/

theorem betaDraws_numbers (R : Rng σ) (as : List Rat) (s : σ) :
    CyclicTimer.betaDraws R s as = betaNumbers R s as := by
  induction as generalizing s with
  | nil => rfl
  | cons a as ih => rw [CyclicTimer.betaDraws, betaNumbers]; simp only [ih]

/-- what `assemble` returns at each position -/
theorem assemble_get (t : CyclicTimer σ) (obs us bs : List Rat)
    (hul : us.length = obs.countP isLow) (hbl : bs.length = obs.countP isHigh)
    {i : Nat} {a : Rat} (hi : obs[i]? = some a) :
    (isLow a = true → ∃ u, us[(obs.take i).countP isLow]? = some u ∧
      (CyclicTimer.assemble t obs us bs)[i]? = some (some (CyclicTimer.correct (t.lowTimer u a)))) ∧
    (isHigh a = true → ∃ b, bs[(obs.take i).countP isHigh]? = some b ∧
      (CyclicTimer.assemble t obs us bs)[i]? = some (some (CyclicTimer.correct (t.highTimer b)))) := by
  induction obs generalizing us bs i with
  | nil => simp at hi
  | cons x obs ih =>
    rw [List.countP_cons] at hul hbl
    by_cases h1 : 0 < x ∧ x ≤ 2
    · have l1 : isLow x = true := by simpa [isLow] using h1
      have l2 : isHigh x = false := by simpa [isHigh] using h1.2
      rw [l1, if_pos rfl] at hul
      rw [l2] at hbl
      cases us with
      | nil => simp at hul
      | cons u us =>
        simp only [CyclicTimer.assemble]
        rw [if_pos h1]
        cases i with
        | zero =>
          cases hi
          refine ⟨fun _ => ⟨u, by simp, rfl⟩, fun h => ?_⟩
          rw [l2] at h
          cases h
        | succ i =>
          have := ih us bs (by simpa using hul) (by simpa using hbl) (i := i) (by simpa using hi)
          simpa [List.countP_cons, l1, l2] using this
    · have l1 : isLow x = false := by simpa [isLow] using h1
      rw [l1] at hul
      by_cases h2 : 2 < x
      · have l2 : isHigh x = true := by simpa [isHigh] using h2
        rw [l2, if_pos rfl] at hbl
        cases bs with
        | nil => simp at hbl
        | cons b bs =>
          simp only [CyclicTimer.assemble]
          rw [if_neg h1, if_pos h2]
          cases i with
          | zero =>
            cases hi
            refine ⟨fun h => ?_, fun _ => ⟨b, by simp, rfl⟩⟩
            rw [l1] at h
            cases h
          | succ i =>
            have := ih us bs (by simpa using hul) (by simpa using hbl) (i := i) (by simpa using hi)
            simpa [List.countP_cons, l1, l2] using this
      · have l2 : isHigh x = false := by simpa [isHigh] using h2
        rw [l2] at hbl
        simp only [CyclicTimer.assemble]
        rw [if_neg h1, if_neg h2]
        cases i with
        | zero =>
          cases hi
          rw [l1, l2]
          simp
        | succ i =>
          have := ih us bs (by simpa using hul) (by simpa using hbl) (i := i) (by simpa using hi)
          simpa [List.countP_cons, l1, l2] using this

theorem searchLeft_inBin {v : List Rat} (hv : v.sum ≠ 0) {x : Rat} (hx : x ≤ 1) :
    InBin v (searchLeft (shares v) x) x := by
  have hl : (shares v).length = v.length := shares_length v
  have hne : shares v ≠ [] := by
    intro h
    rw [h] at hl
    have : v = [] := by simpa using hl.symm
    rw [this] at hv
    exact hv rfl
  have hlt := searchLeft_lt_length hx hne (shares_last hv)
  rw [hl] at hlt
  refine ⟨hlt, fun hpos => ?_, searchLeft_ge (shares v) x (shares_getElem? v hlt)⟩
  obtain ⟨y, hy1, hy2⟩ := searchLeft_lt (shares v) x (j := searchLeft (shares v) x - 1) (by omega)
  rw [shares_getElem? v (by omega), show searchLeft (shares v) x - 1 + 1 = searchLeft (shares v) x by
    omega] at hy1
  cases hy1
  exact hy2

/-- **C89** Every activity up to 2 uses one uniform number `u`, in order: the waiting time is `2u/a`
cycles, that is a whole number of cycles and a bin of the cycle, chosen by the fractional part among
the bins that follow the present one; the timer is one less than the number of steps until then. Then
every activity above 2 uses one number of the beta distribution, which chooses the bin. -/
theorem C89_timers (R : Rng σ) (fuel : Nat) (cfg : TimerProfile) (seed current step : Int)
    (t0 t : CyclicTimer σ) (k : Nat) (hs : 0 < step) (hp : 0 < cfg.steps)
    (h0 : CyclicTimer.new fuel R cfg seed current step = some (some (.ok t0)))
    (h : TimerRun R t0 k t) (obs : List Rat) :
    ∃ init w m v, IsLastCycleStart cfg.start current (cfg.profile.length * cfg.steps) init ∧
      IsBinWeights cfg step w ∧ current ≤ init + (m : Nat) * step ∧
      init + m * step < current + step ∧ v = w.rotate (m + k) ∧
      (∀ i a, obs[i]? = some a → 0 < a → a ≤ 2 → ∃ (u : Rat) (c j : Nat),
        (R.uniform t.state (obs.countP isLow)).1[(obs.take i).countP isLow]? = some u ∧
        c ≤ 2 * u / a ∧ 2 * u / a < c + 1 ∧ InBin v j (2 * u / a - c) ∧
        (t.generate R obs).1[i]? = some (some ((j + v.length * c - 1 : Nat) : Rat))) ∧
      (∀ i a, obs[i]? = some a → 2 < a → ∃ (b : Rat) (j : Nat),
        (betaNumbers R (afterLows R t.state obs) (obs.filter isHigh)).1[
          (obs.take i).countP isHigh]? = some b ∧ InBin v j b ∧
        (t.generate R obs).1[i]? = some (some ((j - 1 : Nat) : Rat))) ∧
      (t.generate R obs).2 = { t with
        state := (betaNumbers R (afterLows R t.state obs) (obs.filter isHigh)).2 } := by
  obtain ⟨init, w, m, g1, g2, g3, g4, g5, g6, g7, g8⟩ := timer_profile hs hp h0 h
  have hcdf : t.cdf = shares (w.rotate (m + k)) := by rw [CyclicTimer.cdf, g8, rotated_cdf]
  have hv : (w.rotate (m + k)).sum ≠ 0 := by rwa [sum_rotate]
  have hgen : t.generate R obs = (CyclicTimer.assemble t obs
      (if obs.countP isLow = 0 then [] else (R.uniform t.state (obs.countP isLow)).1)
      (betaNumbers R (afterLows R t.state obs) (obs.filter isHigh)).1,
      { t with state := (betaNumbers R (afterLows R t.state obs) (obs.filter isHigh)).2 }) := by
    rw [CyclicTimer.generate]
    have e1 : (obs.filter fun a => decide (0 < a ∧ a ≤ 2)).length = obs.countP isLow :=
      List.countP_eq_length_filter.symm
    have e2 : (obs.filter fun a => decide (2 < a)) = obs.filter isHigh := rfl
    simp only [e1, e2, betaDraws_numbers, afterLows]
    by_cases hc : obs.countP isLow = 0
    · simp [hc]
    · simp [hc, Nat.pos_of_ne_zero hc]
  have hul : (if obs.countP isLow = 0 then [] else
      (R.uniform t.state (obs.countP isLow)).1).length = obs.countP isLow := by
    split
    · rename_i hc; rw [hc]; rfl
    · rw [R.uniform_length]
  have hbs := betaDraws_spec R (obs.filter isHigh) (by
    intro a ha; simpa [isHigh] using (List.mem_filter.1 ha).2) (afterLows R t.state obs)
  rw [betaDraws_numbers, ← List.countP_eq_length_filter] at hbs
  have hd : 0 < cfg.duration := by
    by_contra hd
    have : w.length = 0 := by
      rw [g2.1, Spec.nBins]
      have : (cfg.profile.length : Int) * cfg.steps ≤ 0 := not_lt.1 hd
      have := Int.ediv_nonpos_of_nonpos_of_neg this hs
      omega
    omega
  refine ⟨init, w, m, _, latest_date_before_spec hd g1, g2, g5, g6, rfl, ?_, ?_, by rw [hgen]⟩
  · intro i a hi ha ha2
    obtain ⟨u, hu1, hu2⟩ := (assemble_get t obs _ _ hul hbs.1 hi).1 (by simp [isLow, ha, ha2])
    have hc : obs.countP isLow ≠ 0 := by
      intro hc
      rw [if_pos hc] at hu1
      simp at hu1
    rw [if_neg hc] at hu1 hu2
    have hr := R.uniform_range _ _ u (List.mem_of_getElem? hu1)
    have hx0 : 0 ≤ 2 * u / a := div_nonneg (by linarith [hr.1]) ha.le
    have hfl0 : 0 ≤ ⌊2 * u / a⌋ := Int.floor_nonneg.2 hx0
    have hcast : ((⌊2 * u / a⌋.toNat : Nat) : Rat) = ((⌊2 * u / a⌋ : Int) : Rat) := by
      have h : ((⌊2 * u / a⌋.toNat : Nat) : Int) = ⌊2 * u / a⌋ := by omega
      exact_mod_cast h
    refine ⟨u, ⌊2 * u / a⌋.toNat, searchLeft t.cdf (2 * u / a - ⌊2 * u / a⌋.toNat), hu1, ?_, ?_, ?_,
      ?_⟩
    · rw [hcast]; exact Int.floor_le _
    · rw [hcast]; exact Int.lt_floor_add_one _
    · rw [hcdf]
      apply searchLeft_inBin hv
      rw [hcast]
      linarith [Int.lt_floor_add_one (2 * u / a)]
    · rw [hgen, if_neg hc, hu2, ← correct_natCast, List.length_rotate, CyclicTimer.lowTimer, hcast, g7]
      push_cast
      rw [hcast]
      rfl
  · intro i a hi ha
    obtain ⟨b, hb1, hb2⟩ := (assemble_get t obs _ _ hul hbs.1 hi).2 (by simp [isHigh, ha])
    have hr := hbs.2 b (List.mem_of_getElem? hb1)
    refine ⟨b, searchLeft t.cdf b, hb1, ?_, ?_⟩
    · rw [hcdf]; exact searchLeft_inBin hv hr.2
    · rw [hgen, hb2, ← correct_natCast]; rfl

/-- **C89** The numbers that lead to a given bin `j >= 1` of the `c`-th cycle to come are those of an
interval of length (a/2) times the share of the bin, up to its right end. -/
theorem C89_probability (v : List Rat) (hnn : ∀ x ∈ v, 0 ≤ x) (hv : 0 < v.sum) (a : Rat) (ha : 0 < a)
    (c j : Nat) (x : Rat) (hj : 0 < j) (hx : v[j]? = some x) :
    ∃ lo, a / 2 * c ≤ lo ∧ lo + a / 2 * (x / v.sum) ≤ a / 2 * (c + 1) ∧ ∀ u,
      (c ≤ 2 * u / a ∧ 2 * u / a < c + 1 ∧ InBin v j (2 * u / a - c)) ↔
        lo < u ∧ u ≤ lo + a / 2 * (x / v.sum) ∧ u < a / 2 * (c + 1) := by
  have hjl := (List.getElem?_eq_some_iff.1 hx).1
  have hstep : (v.take (j + 1)).sum = (v.take j).sum + x := by
    rw [List.take_add_one, List.sum_append, hx]; simp
  have hlo : 0 ≤ (v.take j).sum / v.sum :=
    div_nonneg (List.sum_nonneg fun x hx => hnn x (List.mem_of_mem_take hx)) hv.le
  have hhi : (v.take j).sum / v.sum + x / v.sum ≤ 1 := by
    rw [← add_div, ← hstep, div_le_one hv]
    conv_rhs => rw [← List.take_append_drop (j + 1) v, List.sum_append]
    have := List.sum_nonneg fun x (hx : x ∈ v.drop (j + 1)) => hnn x (List.mem_of_mem_drop hx)
    linarith
  have ha2 : 0 < a / 2 := by linarith
  refine ⟨a / 2 * (c + (v.take j).sum / v.sum), ?_, ?_, fun u => ?_⟩
  · apply mul_le_mul_of_nonneg_left _ ha2.le; linarith
  · rw [← mul_add]
    apply mul_le_mul_of_nonneg_left _ ha2.le; linarith
  · rw [InBin, hstep, add_div]
    have hu : 2 * u / a = u / (a / 2) := by field_simp
    rw [hu, ← mul_add, le_div_iff₀ ha2, div_lt_iff₀ ha2, lt_sub_iff_add_lt, lt_div_iff₀ ha2,
      sub_le_iff_le_add, div_le_iff₀ ha2]
    have hcomm : ∀ q : Rat, q * (a / 2) = a / 2 * q := fun q => mul_comm _ _
    rw [hcomm, hcomm, hcomm, hcomm]
    constructor
    · rintro ⟨k1, k2, -, k3, k4⟩
      refine ⟨by linarith [k3 hj], ?_, k2⟩
      linarith
    · rintro ⟨k1, k2, k3⟩
      refine ⟨?_, k3, hjl, fun _ => ?_, ?_⟩
      · have : a / 2 * (c : Rat) ≤ a / 2 * (c + (v.take j).sum / v.sum) := by
          apply mul_le_mul_of_nonneg_left _ ha2.le; linarith
        linarith
      · linarith
      · linarith

/-- weights 1, 1, 3, 3 for the four half hours of the cycle, rotated by one: the number 0.1 gives
the activity 1 a wait of 0.2 cycles (second of the bins 1, 3, 3, 1), the activity 2/5 uses 0.2 for a
wait of one cycle exactly; the beta number of the activity 3 is 0.3 -/
example :
    let cfg : TimerProfile := { start := 0, profile := [1, 3], steps := 3600 * nsPerSec }
    ((CyclicTimer.new 10 Rng.counter cfg 1 (1800 * nsPerSec) (1800 * nsPerSec)).map (·.map (·.map
      fun t => ((t.generate Rng.counter [1, 3, 2/5]).1, (t.generate Rng.counter [1, 3, 2/5]).2.state,
        t.cdf)))) =
    some (some (.ok ([some 0, some 0, some 3], 4, [1/8, 4/8, 7/8, 1]))) := by decide +kernel

end Trumania
