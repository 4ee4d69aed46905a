import Verif.Spec.Streams
import Verif.Props.GeneratorSizes

/-!
The values of the generators do not depend on how the calls are cut (C107).
-/

namespace Trumania
namespace AnyGen
variable {σ : Type} {R : Rng σ}

theorem num_natCast_toNat (n : Nat) : ((n : Nat) : Rat).num.toNat = n := by
  rw [Rat.num_natCast]; simp

theorem whole_natCast (n : Nat) : ((n : Nat) : Rat).den = 1 ∧ (0 : Rat) ≤ (n : Nat) :=
  ⟨Rat.den_natCast n, by exact_mod_cast Nat.zero_le n⟩

theorem mapM_py_append {α β : Type} (f : α → Py β) (xs ys : List α) :
    (xs ++ ys).mapM f = (do
      let a ← xs.mapM f
      let b ← ys.mapM f
      .ok (a ++ b) : Py (List β)) := by
  rw [List.mapM_append]; rfl

theorem arange_append (n m : Nat) (c : Int) :
    arange c ((n + m : Nat) : Int) = arange c n ++ arange (c + n) m := by
  simp only [arange, Int.toNat_natCast]
  rw [List.range_add, List.map_append, List.map_map]
  congr 1
  apply List.map_congr_left
  intro i _
  simp only [Function.comp]
  push_cast
  ring

theorem fancy_append_ok {α : Type} {xs : List α} {i j : List Nat} {v : List α} :
    fancy xs (i ++ j) = .ok v ↔ ∃ v1 v2, fancy xs i = .ok v1 ∧ fancy xs j = .ok v2 ∧ v = v1 ++ v2 := by
  simp only [fancy, mapM_py_append, bind_eq_ok]
  constructor
  · rintro ⟨a, ha, b, hb, h⟩
    cases h
    exact ⟨a, b, ha, hb, rfl⟩
  · rintro ⟨a, b, ha, hb, rfl⟩
    exact ⟨a, ha, b, hb, rfl⟩

/-- the indices drawn by `choice`, with or without weights -/
def picks (R : Rng σ) (s : σ) (k n : Nat) : Option (List Rat) → Py (List Nat × σ)
  | none => R.choice s k n
  | some p => R.choiceP s k n p

theorem choiceGenerate_ok {s s' : σ} {a : List Val} {p : Option (List Rat)} {n : Nat} {v : List Val} :
    choiceGenerate R s a p n = .ok (v, s') ↔
      ∃ i, picks R s a.length n p = .ok (i, s') ∧ fancy a i = .ok v := by
  cases p <;> simp only [choiceGenerate, picks, bind_eq_ok] <;> constructor
  · rintro ⟨⟨i, t⟩, h1, b, h2, h3⟩
    cases h3
    exact ⟨i, h1, h2⟩
  · rintro ⟨i, h1, h2⟩
    exact ⟨(i, s'), h1, v, h2, rfl⟩
  · rintro ⟨⟨i, t⟩, h1, b, h2, h3⟩
    cases h3
    exact ⟨i, h1, h2⟩
  · rintro ⟨i, h1, h2⟩
    exact ⟨(i, s'), h1, v, h2, rfl⟩

/-- what numpy asks of weights -/
def okWeights (k : Nat) (p : List Rat) : Prop :=
  p.length = k ∧ ¬ (p.any (fun x => decide (x < 0)) = true) ∧
    ¬ (p.sum - 1 > Rng.pTol ∨ 1 - p.sum > Rng.pTol)

theorem choice_ok {s : σ} {k n : Nat} {r : List Nat × σ} :
    R.choice s k n = .ok r ↔ ¬ (k = 0 ∧ n ≠ 0) ∧ R.randint s k n = r := by
  rw [Rng.choice]
  split
  · rename_i h; simp [h]
  · rename_i h; simp [h]

theorem choiceP_ok {s : σ} {k n : Nat} {p : List Rat} {r : List Nat × σ} :
    R.choiceP s k n p = .ok r ↔ ¬ (k = 0 ∧ n ≠ 0) ∧ okWeights k p ∧
      ((R.uniform s n).1.map (searchRight ((cumsum 0 p).map (· / p.sum))), (R.uniform s n).2) = r := by
  rw [Rng.choiceP, okWeights]
  split
  · rename_i h; simp [h]
  rename_i h1
  split
  · rename_i h; simp [h]
  rename_i h2
  split
  · rename_i h; simp only [h, not_true_eq_false, false_and, and_false, reduceCtorEq]
  rename_i h3
  split
  · rename_i h; simp only [h, not_true_eq_false, false_and, and_false, reduceCtorEq]
  rename_i h4
  constructor
  · intro h
    cases h
    exact ⟨h1, ⟨not_not.1 h2, h3, h4⟩, rfl⟩
  · rintro ⟨-, -, rfl⟩
    rfl

theorem picks_append (hS : Spec.Streams R) {s s2 : σ} {k n m : Nat} {p : Option (List Rat)}
    {i : List Nat} : picks R s k (n + m) p = .ok (i, s2) ↔
      ∃ i1 s1 i2, picks R s k n p = .ok (i1, s1) ∧ picks R s1 k m p = .ok (i2, s2) ∧ i = i1 ++ i2 := by
  cases p with
  | none =>
    simp only [picks, choice_ok]
    have hr : R.randint s k (n + m) = _ := hS.randint k s n m
    constructor
    · rintro ⟨h1, h2⟩
      rw [hr] at h2
      cases h2
      exact ⟨_, _, _, ⟨by omega, rfl⟩, ⟨by omega, rfl⟩, rfl⟩
    · rintro ⟨i1, s1, i2, ⟨h1, h2⟩, ⟨h3, h4⟩, rfl⟩
      refine ⟨by omega, ?_⟩
      rw [hr]
      simp only [h2, h4]
  | some p =>
    simp only [picks, choiceP_ok]
    have hr := hS.uniform s n m
    constructor
    · rintro ⟨h1, h2, h3⟩
      rw [hr] at h3
      cases h3
      refine ⟨_, _, _, ⟨by omega, h2, rfl⟩, ⟨by omega, h2, rfl⟩, ?_⟩
      simp
    · rintro ⟨i1, s1, i2, ⟨h1, h2, h3⟩, ⟨h4, -, h5⟩, rfl⟩
      refine ⟨by omega, h2, ?_⟩
      cases h3
      cases h5
      rw [hr]
      simp

theorem choiceGenerate_append (hS : Spec.Streams R) {s s2 : σ} {a : List Val} {p : Option (List Rat)}
    {n m : Nat} {v : List Val} : choiceGenerate R s a p (n + m) = .ok (v, s2) ↔
      ∃ v1 s1 v2, choiceGenerate R s a p n = .ok (v1, s1) ∧
        choiceGenerate R s1 a p m = .ok (v2, s2) ∧ v = v1 ++ v2 := by
  simp only [choiceGenerate_ok, picks_append hS]
  constructor
  · rintro ⟨i, ⟨i1, s1, i2, h1, h2, rfl⟩, h3⟩
    obtain ⟨v1, v2, h4, h5, rfl⟩ := fancy_append_ok.1 h3
    exact ⟨v1, s1, v2, ⟨i1, h1, h4⟩, ⟨i2, h2, h5⟩, rfl⟩
  · rintro ⟨v1, s1, v2, ⟨i1, h1, h4⟩, ⟨i2, h2, h5⟩, rfl⟩
    exact ⟨i1 ++ i2, ⟨i1, s1, i2, h1, h2, rfl⟩, fancy_append_ok.2 ⟨v1, v2, h4, h5, rfl⟩⟩

theorem gen_constant (c : Cell) (n : Nat) :
    generate R (.constant c) (n : Rat) = .ok (List.replicate n c, .constant c) := by
  rw [generate, if_pos (Rat.den_natCast n), constantGenerate, num_natCast_toNat]

theorem gen_seq (g : SeqGen) (n : Nat) : generate R (.seq g) (n : Rat) =
    .ok ((build_ids n g.counter g.pre g.maxLength).map Cell.str,
      .seq { g with counter := g.counter + n }) := by
  rw [generate]
  simp only [SeqGen.generate, pyInt_natCast]

theorem gen_uniform (lo hi : Rat) (s : σ) (n : Nat) : generate R (.uniform lo hi s) (n : Rat) =
    .ok ((R.uniform s n).1.map (fun u => Cell.num (lo + (hi - lo) * u)),
      .uniform lo hi (R.uniform s n).2) := by
  rw [generate, if_pos (whole_natCast n), num_natCast_toNat]

theorem gen_pareto (x : Rat) (f : Bool) (s : σ) (n : Nat) : generate R (.pareto x f s) (n : Rat) =
    .ok ((R.pareto s n).1.map (fun u => Cell.num (if f then (pyInt ((u + 1) * x) : Rat) else (u + 1) * x)),
      .pareto x f (R.pareto s n).2) := by
  rw [generate, if_pos (whole_natCast n), num_natCast_toNat]
  cases f <;> simp [paretoGenerate]

theorem gen_choice (a : List Val) (p : Option (List Rat)) (s : σ) (n : Nat) (v : List Cell)
    (g : AnyGen σ) : generate R (.choice a p s) (n : Rat) = .ok (v, g) ↔
      ∃ vs s', choiceGenerate R s a p n = .ok (vs, s') ∧ v = vs.map Cell.scalar ∧
        g = .choice a p s' := by
  rw [generate, if_pos (whole_natCast n), num_natCast_toNat, bind_eq_ok]
  constructor
  · rintro ⟨⟨vs, s'⟩, h1, h2⟩
    cases h2
    exact ⟨vs, s', h1, rfl, rfl⟩
  · rintro ⟨vs, s', h1, rfl, rfl⟩
    exact ⟨(vs, s'), h1, rfl⟩

/-- **C107** one call for `n + m` values is a call for `n` followed by a call for `m`: same values, and
the generator is left in the same state. -/
theorem C107_two_calls (hS : Spec.Streams R) {g g2 : AnyGen σ} (hg : Spec.streamed g = true) (n m : Nat)
    {v : List Cell} : generate R g ((n + m : Nat) : Rat) = .ok (v, g2) ↔
      ∃ v1 g1 v2, generate R g (n : Rat) = .ok (v1, g1) ∧ generate R g1 (m : Rat) = .ok (v2, g2) ∧
        v = v1 ++ v2 := by
  cases g with
  | constant c =>
    simp only [gen_constant, Except.ok.injEq, Prod.mk.injEq]
    constructor
    · rintro ⟨rfl, rfl⟩
      exact ⟨_, _, _, ⟨rfl, rfl⟩, gen_constant c m, (List.replicate_append_replicate ..).symm⟩
    · rintro ⟨v1, g1, v2, ⟨rfl, rfl⟩, h, rfl⟩
      rw [gen_constant] at h
      cases h
      exact ⟨(List.replicate_append_replicate ..).symm, rfl⟩
  | seq g =>
    have hb : build_ids ((n + m : Nat) : Int) g.counter g.pre g.maxLength =
        build_ids n g.counter g.pre g.maxLength ++ build_ids m (g.counter + n) g.pre g.maxLength := by
      rw [build_ids, build_ids, build_ids, arange_append, List.map_append]
    simp only [gen_seq, Except.ok.injEq, Prod.mk.injEq]
    constructor
    · rintro ⟨rfl, rfl⟩
      refine ⟨_, _, (build_ids m (g.counter + n) g.pre g.maxLength).map Cell.str, ⟨rfl, rfl⟩, ?_, ?_⟩
      · rw [gen_seq]
        push_cast
        rw [Int.add_assoc]
      · rw [hb, List.map_append]
    · rintro ⟨v1, g1, v2, ⟨rfl, rfl⟩, h, rfl⟩
      rw [gen_seq] at h
      cases h
      refine ⟨by rw [hb, List.map_append], ?_⟩
      push_cast
      rw [Int.add_assoc]
  | uniform lo hi s =>
    simp only [gen_uniform, Except.ok.injEq, Prod.mk.injEq]
    rw [hS.uniform]
    constructor
    · rintro ⟨rfl, rfl⟩
      exact ⟨_, _, _, ⟨rfl, rfl⟩, gen_uniform .., List.map_append ..⟩
    · rintro ⟨v1, g1, v2, ⟨rfl, rfl⟩, h, rfl⟩
      rw [gen_uniform] at h
      cases h
      exact ⟨List.map_append .., rfl⟩
  | choice a p s =>
    simp only [gen_choice, choiceGenerate_append hS]
    constructor
    · rintro ⟨vs, s2, ⟨v1, s1, v2, h1, h2, rfl⟩, rfl, rfl⟩
      exact ⟨_, _, _, ⟨v1, s1, h1, rfl, rfl⟩, (gen_choice ..).2 ⟨v2, s2, h2, rfl, rfl⟩,
        List.map_append ..⟩
    · rintro ⟨v1, g1, v2, ⟨w1, s1, h1, rfl, rfl⟩, h, rfl⟩
      obtain ⟨w2, s2, h2, rfl, rfl⟩ := (gen_choice ..).1 h
      exact ⟨w1 ++ w2, s2, ⟨w1, s1, w2, h1, h2, rfl⟩, (List.map_append ..).symm, rfl⟩
  | pareto x f s =>
    simp only [gen_pareto, Except.ok.injEq, Prod.mk.injEq]
    rw [hS.pareto]
    constructor
    · rintro ⟨rfl, rfl⟩
      exact ⟨_, _, _, ⟨rfl, rfl⟩, gen_pareto .., List.map_append ..⟩
    · rintro ⟨v1, g1, v2, ⟨rfl, rfl⟩, h, rfl⟩
      rw [gen_pareto] at h
      cases h
      exact ⟨List.map_append .., rfl⟩
  | fixed l => simp [Spec.streamed] at hg
  | msisdn g s => simp [Spec.streamed] at hg
  | cyclic t => simp [Spec.streamed] at hg
  | trigger m s => simp [Spec.streamed] at hg
  | bulk g => simp [Spec.streamed] at hg

/-- such a generator stays of the same kind -/
theorem streamed_kept {g g1 : AnyGen σ} (hg : Spec.streamed g = true) {n : Nat} {v : List Cell}
    (h : generate R g (n : Rat) = .ok (v, g1)) : Spec.streamed g1 = true := by
  cases g with
  | constant c => rw [gen_constant] at h; cases h; rfl
  | seq g => rw [gen_seq] at h; cases h; rfl
  | uniform lo hi s => rw [gen_uniform] at h; cases h; rfl
  | choice a p s =>
    obtain ⟨_, _, -, -, rfl⟩ := (gen_choice ..).1 h
    rfl
  | pareto x f s => rw [gen_pareto] at h; cases h; rfl
  | fixed l => simp [Spec.streamed] at hg
  | msisdn g s => simp [Spec.streamed] at hg
  | cyclic t => simp [Spec.streamed] at hg
  | trigger m s => simp [Spec.streamed] at hg
  | bulk g => simp [Spec.streamed] at hg

/-- **C107** any cutting of a request gives the same values, in the same order, and the same final
state, as one call for the total. -/
theorem C107_batches (hS : Spec.Streams R) {g g2 : AnyGen σ} (hg : Spec.streamed g = true) {ns : List Nat}
    (hne : ns ≠ []) {v : List Cell} : Spec.inBatches R g ns = .ok (v, g2) ↔
      generate R g ((ns.sum : Nat) : Rat) = .ok (v, g2) := by
  induction ns generalizing g v with
  | nil => exact absurd rfl hne
  | cons n ns ih =>
    rw [Spec.inBatches, bind_eq_ok]
    by_cases hns : ns = []
    · subst hns
      simp only [List.sum_cons, List.sum_nil, Nat.add_zero]
      constructor
      · rintro ⟨⟨v1, g1⟩, h1, h2⟩
        rw [bind_eq_ok] at h2
        obtain ⟨⟨v2, g2'⟩, h3, h4⟩ := h2
        rw [Spec.inBatches] at h3
        cases h3
        cases h4
        rwa [List.append_nil]
      · intro h
        refine ⟨(v, g2), h, ?_⟩
        rw [bind_eq_ok]
        exact ⟨([], g2), rfl, by rw [List.append_nil]⟩
    · rw [List.sum_cons, C107_two_calls hS hg]
      constructor
      · rintro ⟨⟨v1, g1⟩, h1, h2⟩
        rw [bind_eq_ok] at h2
        obtain ⟨⟨v2, g2'⟩, h3, h4⟩ := h2
        cases h4
        exact ⟨v1, g1, v2, h1, (ih (streamed_kept hg h1) hns).1 h3, rfl⟩
      · rintro ⟨v1, g1, v2, h1, h2, rfl⟩
        refine ⟨(v1, g1), h1, ?_⟩
        rw [bind_eq_ok]
        exact ⟨(v2, g2), (ih (streamed_kept hg h1) hns).2 h2, rfl⟩

/-! ### Observations -/

theorem mapM_append_ok {α β : Type} {f : α → Py β} {xs ys : List α} {v : List β} :
    (xs ++ ys).mapM f = .ok v ↔ ∃ v1 v2, xs.mapM f = .ok v1 ∧ ys.mapM f = .ok v2 ∧ v = v1 ++ v2 := by
  simp only [mapM_py_append, bind_eq_ok]
  constructor
  · rintro ⟨a, ha, b, hb, h⟩
    cases h
    exact ⟨a, b, ha, hb, rfl⟩
  · rintro ⟨a, b, ha, hb, rfl⟩
    exact ⟨a, ha, b, hb, rfl⟩

theorem bulkCells_append {g g2 : AnyGen σ} {o1 o2 v : List Cell} :
    bulkCells R g (o1 ++ o2) = .ok (v, g2) ↔ ∃ v1 g1 v2, bulkCells R g o1 = .ok (v1, g1) ∧
      bulkCells R g1 o2 = .ok (v2, g2) ∧ v = v1 ++ v2 := by
  induction o1 generalizing g v with
  | nil =>
    rw [List.nil_append]
    constructor
    · intro h
      exact ⟨[], g, v, rfl, h, rfl⟩
    · rintro ⟨v1, g1, v2, h1, h2, rfl⟩
      rw [bulkCells] at h1
      cases h1
      exact h2
  | cons c cs ih =>
    rw [List.cons_append]
    simp only [bulkCells, bind_eq_ok]
    constructor
    · rintro ⟨n, h1, ⟨w, ga⟩, h2, vals, h3, ⟨rest, gb⟩, h4, h5⟩
      cases h5
      obtain ⟨v1, g1, v2, h6, h7, rfl⟩ := ih.1 h4
      exact ⟨_, g1, v2, ⟨n, h1, (w, ga), h2, vals, h3, (v1, g1), h6, rfl⟩, h7, rfl⟩
    · rintro ⟨v1, g1, v2, ⟨n, h1, ⟨w, ga⟩, h2, vals, h3, ⟨rest, gb⟩, h4, h5⟩, h6, rfl⟩
      cases h5
      exact ⟨n, h1, (w, ga), h2, vals, h3, (rest ++ v2, g2), ih.2 ⟨rest, _, v2, h4, h6, rfl⟩, rfl⟩

theorem trigger_append (hS : Spec.Streams R) (f : Rat → Rat) (s : σ) (a b : List Rat) :
    triggerGenerate R (List.map f) s a = .ok
      (List.zipWith (fun d p => decide (d < p)) (R.uniform s a.length).1 (a.map f),
        (R.uniform s a.length).2) ∧
    triggerGenerate R (List.map f) s (a ++ b) = .ok
      (List.zipWith (fun d p => decide (d < p)) (R.uniform s a.length).1 (a.map f) ++
        List.zipWith (fun d p => decide (d < p)) (R.uniform (R.uniform s a.length).2 b.length).1 (b.map f),
        (R.uniform (R.uniform s a.length).2 b.length).2) := by
  have one : ∀ (s : σ) (a : List Rat), triggerGenerate R (List.map f) s a = .ok
      (List.zipWith (fun d p => decide (d < p)) (R.uniform s a.length).1 (a.map f),
        (R.uniform s a.length).2) := by
    intro s a
    simp only [triggerGenerate]
    rw [if_pos (by rw [List.length_map]; exact (R.uniform_length s a.length).symm)]
  refine ⟨one s a, ?_⟩
  rw [one, List.length_append, hS.uniform, List.map_append, List.zipWith_append]
  rw [List.length_map, R.uniform_length]

theorem assemble_state (t : CyclicTimer σ) (s : σ) (obs us bs : List Rat) :
    CyclicTimer.assemble { t with state := s } obs us bs = CyclicTimer.assemble t obs us bs := by
  induction obs generalizing us bs with
  | nil => rw [CyclicTimer.assemble.eq_def, CyclicTimer.assemble.eq_def]
  | cons a obs ih =>
    rw [CyclicTimer.assemble.eq_def, CyclicTimer.assemble.eq_def t]
    dsimp only
    split
    · cases us <;> simp only [ih] <;> rfl
    · split
      · cases bs <;> simp only [ih] <;> rfl
      · rw [ih]

/-- the low activities -/
def lows (obs : List Rat) : List Rat := obs.filter fun a => decide (0 < a ∧ a ≤ 2)

theorem assemble_append (t : CyclicTimer σ) (a b us vs bs : List Rat) (ha : ∀ x ∈ a, x ≤ 2)
    (hu : us.length = (lows a).length) :
    CyclicTimer.assemble t (a ++ b) (us ++ vs) bs =
      CyclicTimer.assemble t a us [] ++ CyclicTimer.assemble t b vs bs := by
  induction a generalizing us with
  | nil =>
    have : us = [] := List.length_eq_zero_iff.1 hu
    subst this
    rw [CyclicTimer.assemble.eq_def t []]
    rfl
  | cons x a ih =>
    have hx := ha x (by simp)
    have ha' : ∀ y ∈ a, y ≤ 2 := fun y hy => ha y (by simp [hy])
    rw [List.cons_append, CyclicTimer.assemble.eq_def, CyclicTimer.assemble.eq_def t (x :: a)]
    dsimp only
    by_cases hp : 0 < x
    · rw [if_pos ⟨hp, hx⟩, if_pos ⟨hp, hx⟩]
      rw [lows, List.filter_cons_of_pos (by simp [hp, hx])] at hu
      cases us with
      | nil => simp at hu
      | cons u us =>
        simp only [List.cons_append, List.cons.injEq, true_and]
        exact ih us ha' (by simpa [lows] using hu)
    · rw [if_neg (fun h => hp h.1), if_neg (not_lt.2 hx), if_neg (fun h => hp h.1), if_neg (not_lt.2 hx)]
      rw [lows, List.filter_cons_of_neg (by simp [hp])] at hu
      rw [List.cons_append, ih us ha' hu]

/-- the uniform numbers taken for `k` low activities (none are drawn when there is none,
clock.py:221) -/
def lowDraws (R : Rng σ) (s : σ) (k : Nat) : List Rat × σ := if k > 0 then R.uniform s k else ([], s)

theorem lowDraws_append (hS : Spec.Streams R) (s : σ) (n m : Nat) : lowDraws R s (n + m) =
    ((lowDraws R s n).1 ++ (lowDraws R (lowDraws R s n).2 m).1, (lowDraws R (lowDraws R s n).2 m).2) := by
  unfold lowDraws
  rcases Nat.eq_zero_or_pos n with rfl | hn
  · simp
  · rcases Nat.eq_zero_or_pos m with rfl | hm
    · simp
    · rw [if_pos (by omega), if_pos hn, if_pos hm, hS.uniform]

theorem lowDraws_length (s : σ) (k : Nat) : (lowDraws R s k).1.length = k := by
  unfold lowDraws
  split
  · exact R.uniform_length s k
  · simp only [List.length_nil]; omega

theorem cyclic_generate (t : CyclicTimer σ) (obs : List Rat) : t.generate R obs =
    (t.assemble obs (lowDraws R t.state (lows obs).length).1
      (CyclicTimer.betaDraws R (lowDraws R t.state (lows obs).length).2
        (obs.filter fun a => decide (2 < a))).1,
      { t with state := (CyclicTimer.betaDraws R (lowDraws R t.state (lows obs).length).2
        (obs.filter fun a => decide (2 < a))).2 }) := rfl

theorem cyclic_append (hS : Spec.Streams R) (t : CyclicTimer σ) (a b : List Rat)
    (ha : ∀ x ∈ a, x ≤ 2) : t.generate R (a ++ b) =
      ((t.generate R a).1 ++ ((t.generate R a).2.generate R b).1, ((t.generate R a).2.generate R b).2) := by
  have hh : a.filter (fun x => decide (2 < x)) = [] := by
    rw [List.filter_eq_nil_iff]
    intro x hx
    simpa using ha x hx
  have hl : lows (a ++ b) = lows a ++ lows b := List.filter_append ..
  simp only [cyclic_generate, hl, List.length_append, List.filter_append, hh, List.nil_append]
  rw [lowDraws_append hS]
  simp only [CyclicTimer.betaDraws, assemble_state]
  rw [assemble_append t a b _ _ _ ha (lowDraws_length ..)]

/-- **C107** observing two batches of observations one after the other gives the values of the whole. -/
theorem C107_two_observations (hS : Spec.Streams R) {g g2 : AnyGen σ} {o1 : List Cell}
    (hg : Spec.streamedObs o1 g) (o2 : List Cell) {v : List Cell} :
    observe R g (o1 ++ o2) = .ok (v, g2) ↔
      ∃ v1 g1 v2, observe R g o1 = .ok (v1, g1) ∧ observe R g1 o2 = .ok (v2, g2) ∧ v = v1 ++ v2 := by
  cases g with
  | constant c =>
    simp only [observe, Except.ok.injEq, Prod.mk.injEq]
    constructor
    · rintro ⟨rfl, rfl⟩
      exact ⟨_, _, _, ⟨rfl, rfl⟩, rfl, List.map_append ..⟩
    · rintro ⟨v1, g1, v2, ⟨rfl, rfl⟩, h, rfl⟩
      cases h
      exact ⟨List.map_append .., rfl⟩
  | bulk g =>
    simp only [observe, bind_eq_ok]
    constructor
    · rintro ⟨⟨w, g'⟩, h1, h2⟩
      cases h2
      obtain ⟨v1, g1, v2, h3, h4, rfl⟩ := bulkCells_append.1 h1
      exact ⟨v1, .bulk g1, v2, ⟨(v1, g1), h3, rfl⟩, bind_eq_ok.2 ⟨(v2, g'), h4, rfl⟩, rfl⟩
    · rintro ⟨v1, g1, v2, ⟨⟨w, g'⟩, h1, h2⟩, h3, rfl⟩
      cases h2
      obtain ⟨⟨w2, g3⟩, h4, h5⟩ := bind_eq_ok.1 h3
      cases h5
      exact ⟨(w ++ w2, g3), bulkCells_append.2 ⟨w, g', w2, h1, h4, rfl⟩, rfl⟩
  | trigger m s =>
    obtain ⟨f, rfl⟩ := hg
    simp only [observe, bind_eq_ok]
    constructor
    · rintro ⟨vals, h1, ⟨bs, s'⟩, h2, h3⟩
      cases h3
      obtain ⟨a, b, ha, hb, rfl⟩ := mapM_append_ok.1 h1
      rw [(trigger_append hS f s a b).2] at h2
      cases h2
      refine ⟨_, _, _, ⟨a, ha, _, (trigger_append hS f s a b).1, rfl⟩,
        bind_eq_ok.2 ⟨b, hb, bind_eq_ok.2 ⟨_, (trigger_append hS f _ b []).1, rfl⟩⟩,
        List.map_append ..⟩
    · rintro ⟨v1, g1, v2, ⟨a, ha, ⟨bs, s'⟩, h2, h3⟩, h4, rfl⟩
      rw [(trigger_append hS f s a []).1] at h2
      cases h2
      cases h3
      obtain ⟨b, hb, h5⟩ := bind_eq_ok.1 h4
      obtain ⟨⟨bs2, s2⟩, h6, h7⟩ := bind_eq_ok.1 h5
      rw [(trigger_append hS f _ b []).1] at h6
      cases h6
      cases h7
      exact ⟨a ++ b, mapM_append_ok.2 ⟨a, b, ha, hb, rfl⟩, _, (trigger_append hS f s a b).2,
        by rw [List.map_append]⟩
  | cyclic t =>
    have low : ∀ a, o1.mapM Cell.asNum = .ok a → ∀ x ∈ a, x ≤ 2 := by
      intro a ha x hx
      rw [mapM_ok_iff] at ha
      obtain ⟨i, hi, rfl⟩ := List.mem_iff_getElem.1 hx
      have hi' : i < o1.length := by rw [ha.length_eq]; exact hi
      exact hg _ (List.getElem_mem hi') _ (ha.get hi' hi)
    simp only [observe, bind_eq_ok]
    constructor
    · rintro ⟨acts, h1, h2⟩
      obtain ⟨a, b, ha, hb, rfl⟩ := mapM_append_ok.1 h1
      rw [cyclic_append hS t a b (low a ha)] at h2
      cases h2
      exact ⟨_, _, _, ⟨a, ha, rfl⟩, bind_eq_ok.2 ⟨b, hb, rfl⟩, List.map_append ..⟩
    · rintro ⟨v1, g1, v2, ⟨a, ha, h2⟩, h3, rfl⟩
      cases h2
      obtain ⟨b, hb, h4⟩ := bind_eq_ok.1 h3
      cases h4
      refine ⟨a ++ b, mapM_append_ok.2 ⟨a, b, ha, hb, rfl⟩, ?_⟩
      rw [cyclic_append hS t a b (low a ha), List.map_append]
  | fixed l => exact absurd hg (by simp [Spec.streamedObs])
  | msisdn g s => exact absurd hg (by simp [Spec.streamedObs])
  | seq g => exact absurd hg (by simp [Spec.streamedObs])
  | uniform lo hi s => exact absurd hg (by simp [Spec.streamedObs])
  | choice a p s => exact absurd hg (by simp [Spec.streamedObs])
  | pareto x f s => exact absurd hg (by simp [Spec.streamedObs])

/-! ### Where it fails -/

/-- the draws of the concrete generator form streams -/
theorem counter_streams : Spec.Streams Rng.counter where
  uniform s n m := by
    simp only [Rng.counter, List.range_add, List.map_append, List.map_map, Prod.mk.injEq,
      List.append_cancel_left_eq, Nat.add_assoc, and_true]
    rfl
  randint k s n m := by
    simp only [Rng.counter, List.range_add, List.map_append, List.map_map, Prod.mk.injEq,
      List.append_cancel_left_eq, Nat.add_assoc, and_true]
    rfl
  pareto s n m := by
    simp only [Rng.counter, List.range_add, List.map_append, List.map_map, Prod.mk.injEq,
      List.append_cancel_left_eq, Nat.add_assoc, and_true]
    rfl

/-- streams, and permutations that are reversed when of even length -/
def exRng : Rng Nat :=
  { Rng.counter with
    perm := fun s n => (if n % 2 = 0 then (List.range n).reverse else List.range n, s + 1)
    perm_perm := by
      intro s n
      dsimp only
      split
      · exact List.reverse_perm _
      · exact List.Perm.refl _ }

theorem exRng_streams : Spec.Streams exRng :=
  ⟨counter_streams.uniform, counter_streams.randint, counter_streams.pareto⟩

/-- **C107** each call of a `MSISDNGenerator` builds a numpy generator from the same seed
(random_generators.py:378-379): the numbers of successive calls are those of successive draws without replacement,
each from the state that this seed gives. -/
theorem C107_msisdn {g : MsisdnGen} {seed : Int} {ns : List Nat} {v : List Cell} {g2 : AnyGen σ} :
    Spec.inBatches R (.msisdn g seed) ns = .ok (v, g2) ↔
      ∃ vs g', MsisdnGen.generates R g (ns.map fun n => (R.seed seed, n)) = .ok (vs, g') ∧
        v = vs.flatten.map Cell.str ∧ g2 = .msisdn g' seed := by
  induction ns generalizing g v with
  | nil =>
    constructor
    · intro h
      cases h
      exact ⟨[], g, rfl, rfl, rfl⟩
    · rintro ⟨vs, g', h, rfl, rfl⟩
      cases h
      rfl
  | cons n ns ih =>
    have hc : (((n : Nat) : Rat).den = 1 ∧ (0 : Rat) ≤ ((n : Nat) : Rat)) := ⟨Rat.den_natCast _, Nat.cast_nonneg _⟩
    rw [Spec.inBatches, generate, if_pos hc, num_natCast_toNat, List.map_cons, MsisdnGen.generates]
    simp only [bind_eq_ok]
    constructor
    · rintro ⟨⟨v1, g1⟩, ⟨⟨x, g0⟩, h1, h2⟩, ⟨v2, g3⟩, h3, h4⟩
      cases h2
      cases h4
      obtain ⟨vs, g', h5, rfl, rfl⟩ := ih.1 h3
      exact ⟨x :: vs, g', ⟨(x, g0), h1, (vs, g'), h5, rfl⟩, by simp, rfl⟩
    · rintro ⟨vs, g', ⟨⟨x, g0⟩, h1, ⟨ys, g1⟩, h2, h3⟩, rfl, rfl⟩
      cases h3
      exact ⟨_, ⟨(x, g0), h1, rfl⟩, _, ih.2 ⟨ys, _, h2, rfl, rfl⟩, by simp⟩

/-- **C107** the numbers of `MSISDNGenerator` do depend on it: a numpy generator is built at each call,
and permutes what remains (random_generators.py:378-381). -/
theorem C107_msisdn_counterexample :
    (generate exRng (.msisdn (.new "0" ["1"] 1) 0) 2).toOption.map Prod.fst =
      some [.str "010", .str "011"] ∧
    (Spec.inBatches exRng (.msisdn (.new "0" ["1"] 1) 0) [1, 1]).toOption.map Prod.fst =
      some [.str "010", .str "018"] := by decide +kernel

/-- **C107** so do cyclic timers with activities above 2: the uniform numbers of the low activities of a
call are drawn before the beta numbers of its high ones. -/
theorem C107_cyclic_counterexample :
    (observe Rng.counter (.cyclic ⟨4, 4, [(0, 1/10), (1, 2/10), (2, 9/20), (3, 1)]⟩)
      [.num 4, .num 2]).toOption.map Prod.fst = some [.num 2, .num 1] ∧
    (Spec.observeInBatches Rng.counter (.cyclic ⟨4, 4, [(0, 1/10), (1, 2/10), (2, 9/20), (3, 1)]⟩)
      [[.num 4], [.num 2]]).toOption.map Prod.fst = some [.num 1, .num 2] := by decide +kernel

/-- **C107** a bulk generator hands out the values of one call for the total number, cut in pieces. -/
theorem C107_bulk (hS : Spec.Streams R) {g g2 : AnyGen σ} (hg : Spec.streamed g = true) {ns : List Nat}
    (hne : ns ≠ []) {v : List Cell}
    (h : observe R (.bulk g) (ns.map fun (n : Nat) => Cell.num (n : Rat)) = .ok (v, .bulk g2)) :
    ∃ lists : List (List Val), v = lists.map Cell.list ∧ lists.map List.length = ns ∧
      generate R g ((ns.sum : Nat) : Rat) = .ok (lists.flatten.map Cell.scalar, g2) := by
  have key : ∀ (ns : List Nat) (g : AnyGen σ) (v : List Cell),
      bulkCells R g (ns.map fun (n : Nat) => Cell.num (n : Rat)) = .ok (v, g2) →
      ∃ lists : List (List Val), v = lists.map Cell.list ∧ lists.map List.length = ns ∧
        Spec.inBatches R g ns = .ok (lists.flatten.map Cell.scalar, g2) := by
    intro ns
    induction ns with
    | nil =>
      intro g v h
      rw [List.map_nil, bulkCells] at h
      cases h
      exact ⟨[], rfl, rfl, rfl⟩
    | cons n ns ih =>
      intro g v h
      rw [List.map_cons, bulkCells, bind_eq_ok] at h
      obtain ⟨m, h1, h⟩ := h
      cases h1
      rw [bind_eq_ok] at h
      obtain ⟨⟨w, ga⟩, h2, h⟩ := h
      rw [bind_eq_ok] at h
      obtain ⟨vals, h3, h⟩ := h
      rw [bind_eq_ok] at h
      obtain ⟨⟨rest, gb⟩, h4, h⟩ := h
      cases h
      obtain ⟨lists, rfl, e1, e2⟩ := ih _ _ h4
      rw [mapM_ok_iff] at h3
      have hw : w = vals.map Cell.scalar := by
        clear h2
        induction h3 with
        | nil => rfl
        | @cons c x _ _ hc _ ih =>
          cases c with
          | scalar y => cases hc; simp [ih]
          | list l => cases hc
      subst hw
      refine ⟨vals :: lists, rfl, ?_, ?_⟩
      · have := C74_as_many_as_asked h2
        rw [List.map_cons, e1, ← this, List.length_map]
      · rw [Spec.inBatches, bind_eq_ok]
        refine ⟨(vals.map Cell.scalar, ga), h2, ?_⟩
        rw [bind_eq_ok]
        exact ⟨(_, g2), e2, by simp⟩
  rw [observe, bind_eq_ok] at h
  obtain ⟨⟨w, g'⟩, h1, h2⟩ := h
  cases h2
  obtain ⟨lists, e1, e2, e3⟩ := key ns g v h1
  exact ⟨lists, e1, e2, (C107_batches hS hg hne).1 e3⟩

/-! ### Non-vacuity -/

example : Spec.streamed (σ := Nat) (.choice [.str "a", .str "b", .str "c"] (some [1/2, 1/4, 1/4]) 3) = true ∧
    (Spec.inBatches Rng.counter (.choice [.str "a", .str "b", .str "c"] (some [1/2, 1/4, 1/4]) 3)
      [2, 0, 3]).toOption.map Prod.fst =
      some [.str "a", .str "a", .str "b", .str "b", .str "b"] ∧
    (generate Rng.counter (.choice [.str "a", .str "b", .str "c"] (some [1/2, 1/4, 1/4]) 3)
      5).toOption.map Prod.fst = some [.str "a", .str "a", .str "b", .str "b", .str "b"] := by
  decide +kernel

example : Spec.streamedObs [.num 2, .num 0] (σ := Nat)
      (.cyclic ⟨4, 4, [(0, 1/10), (1, 2/10), (2, 9/20), (3, 1)]⟩) ∧
    (Spec.observeInBatches Rng.counter (.cyclic ⟨4, 4, [(0, 1/10), (1, 2/10), (2, 9/20), (3, 1)]⟩)
      [[.num 2, .num 0], [.num 5, .num 1]]).toOption.map Prod.fst =
      some [.num 1, .na, .num 2, .num 3] := by
  refine ⟨?_, by decide +kernel⟩
  intro c hc
  simp only [List.mem_cons, List.not_mem_nil, or_false] at hc
  rcases hc with rfl | rfl <;> intro q hq <;> cases hq <;> norm_num

end AnyGen

namespace World
variable {σ : Type} {env : Env σ (AnyGen σ)}

/-- generators of a circus whose values do not depend on how the calls are cut: those above, and their
images by `map` -/
inductive StreamedRef (w : World σ (AnyGen σ)) : GenRef → Prop where
  | constant (v : Cell) : StreamedRef w (.constant v)
  | ref {i : Nat} {g : AnyGen σ} (h : w.gens[i]? = some g) (hg : Spec.streamed g = true) :
      StreamedRef w (.ref i)
  | mapped {g : GenRef} (f : Cell → Py Cell) (h : StreamedRef w g) : StreamedRef w (.mapped g f)

theorem generate_ref_ok {i : Nat} {n : Rat} {v : List Cell} {w w' : World σ (AnyGen σ)} :
    generate env (.ref i) n w = .ok v w' ↔ ∃ g g', w.gens[i]? = some g ∧
      env.sem.generate g n = .ok (v, g') ∧
      w' = { w with clock := { w.clock with listeners := w.clock.listeners.set i g' } } := by
  simp only [generate, call, Act.bind_eq_ok, getGen_eq_ok, Act.ofPy_eq_ok, setGen_eq_ok, Act.pure_eq_ok]
  constructor
  · rintro ⟨g, w1, ⟨h1, rfl⟩, ⟨v', g'⟩, w2, ⟨h2, rfl⟩, u, w3, rfl, rfl, rfl⟩
    exact ⟨g, g', h1, h2, rfl⟩
  · rintro ⟨g, g', h1, h2, rfl⟩
    exact ⟨g, w, ⟨h1, rfl⟩, (v, g'), w, ⟨h2, rfl⟩, (), _, rfl, rfl, rfl⟩

theorem generate_mapped_ok {g : GenRef} {f : Cell → Py Cell} {n : Rat} {v : List Cell}
    {w w' : World σ (AnyGen σ)} : generate env (.mapped g f) n w = .ok v w' ↔
      ∃ u, generate env g n w = .ok u w' ∧ u.mapM f = .ok v := by
  simp only [generate, call, Act.bind_eq_ok, Act.ofPy_eq_ok]
  constructor
  · rintro ⟨u, w1, h1, h2, rfl⟩
    exact ⟨u, h1, h2⟩
  · rintro ⟨u, h1, h2⟩
    exact ⟨u, w', h1, h2, rfl⟩

/-- **C107** the same holds of the generators of a circus: after `n`, then `m` values, all objects are as
after one call for `n + m`. -/
theorem C107_in_circus (hsem : env.sem = AnyGen.sem env.R) (hS : Spec.Streams env.R)
    {w w2 : World σ (AnyGen σ)} {g : GenRef} (hg : StreamedRef w g) (n m : Nat) {v : List Cell} :
    generate env g ((n + m : Nat) : Rat) w = .ok v w2 ↔
      ∃ v1 w1 v2, generate env g (n : Rat) w = .ok v1 w1 ∧ generate env g (m : Rat) w1 = .ok v2 w2 ∧
        v = v1 ++ v2 := by
  induction hg generalizing v with
  | constant c =>
    simp only [generate, call, Act.pure_eq_ok, AnyGen.pyInt_natCast, Int.toNat_natCast]
    constructor
    · rintro ⟨rfl, rfl⟩
      exact ⟨_, _, _, ⟨rfl, rfl⟩, ⟨rfl, rfl⟩, (List.replicate_append_replicate ..).symm⟩
    · rintro ⟨v1, w1, v2, ⟨rfl, rfl⟩, ⟨rfl, rfl⟩, rfl⟩
      exact ⟨(List.replicate_append_replicate ..).symm, rfl⟩
  | @ref i g0 h0 hs =>
    have hgen : env.sem.generate = AnyGen.generate env.R := by rw [hsem]; rfl
    simp only [generate_ref_ok, hgen]
    have hi : i < w.clock.listeners.length := by
      have := (List.getElem?_eq_some_iff.1 h0).1
      exact this
    constructor
    · rintro ⟨g, g', h1, h2, rfl⟩
      rw [h0] at h1
      cases h1
      obtain ⟨v1, g1, v2, h3, h4, rfl⟩ := (AnyGen.C107_two_calls hS hs n m).1 h2
      refine ⟨v1, _, v2, ⟨g0, g1, h0, h3, rfl⟩, ⟨g1, g', ?_, h4, ?_⟩, rfl⟩
      · show (w.clock.listeners.set i g1)[i]? = _
        rw [List.getElem?_set_self hi]
      · simp
    · rintro ⟨v1, w1, v2, ⟨g, g1, h1, h2, rfl⟩, ⟨g', g2, h3, h4, rfl⟩, rfl⟩
      rw [h0] at h1
      cases h1
      have h5 : (w.clock.listeners.set i g1)[i]? = some g' := h3
      rw [List.getElem?_set_self hi] at h5
      cases h5
      exact ⟨g0, g2, h0, (AnyGen.C107_two_calls hS hs n m).2 ⟨v1, g1, v2, h2, h4, rfl⟩, by simp⟩
  | mapped f _ ih =>
    simp only [generate_mapped_ok, ih]
    constructor
    · rintro ⟨u, ⟨u1, w1, u2, h1, h2, rfl⟩, h3⟩
      obtain ⟨v1, v2, h4, h5, rfl⟩ := AnyGen.mapM_append_ok.1 h3
      exact ⟨v1, w1, v2, ⟨u1, h1, h4⟩, ⟨u2, h2, h5⟩, rfl⟩
    · rintro ⟨v1, w1, v2, ⟨u1, h1, h4⟩, ⟨u2, h2, h5⟩, rfl⟩
      exact ⟨u1 ++ u2, ⟨u1, w1, u2, h1, h2, rfl⟩, AnyGen.mapM_append_ok.2 ⟨v1, v2, h4, h5, rfl⟩⟩

end World
end Trumania
