import Verif.Model.AnyGen
import Verif.Proofs.Msisdn
import Verif.Proofs.Relationship
import Verif.Proofs.Choice
import Verif.Proofs.Gen
import Verif.Spec.Gen
import Verif.Props.Networks

/-!
Properties of all generators: as many values as asked (C74), one value per observation (C75); random
assignments (C76) and proportions (C77).
-/

namespace Trumania
namespace AnyGen
variable {σ : Type} {R : Rng σ}

theorem pyInt_natCast (n : Nat) : pyInt (n : Rat) = n := by
  rw [pyInt, if_pos (by exact_mod_cast Nat.zero_le n)]
  exact Rat.floor_intCast n

theorem choiceGenerate_length {s s' : σ} {a : List Val} {p : Option (List Rat)} {n : Nat}
    {v : List Val} (h : choiceGenerate R s a p n = .ok (v, s')) : v.length = n := by
  have key : ∃ idx s1, fancy a idx = .ok v ∧ (R.choice s a.length n = .ok (idx, s1) ∨
      ∃ p, R.choiceP s a.length n p = .ok (idx, s1)) := by
    cases p with
    | none =>
      simp only [choiceGenerate, bind_eq_ok] at h
      obtain ⟨⟨idx, s1⟩, h1, v', h2, h3⟩ := h
      cases h3
      exact ⟨idx, _, h2, .inl h1⟩
    | some p =>
      simp only [choiceGenerate, bind_eq_ok] at h
      obtain ⟨⟨idx, s1⟩, h1, v', h2, h3⟩ := h
      cases h3
      exact ⟨idx, _, h2, .inr ⟨p, h1⟩⟩
  obtain ⟨idx, s1, h2, h1⟩ := key
  have hl : idx.length = n := by
    rcases h1 with h1 | ⟨p, h1⟩
    · simp only [Rng.choice] at h1
      split at h1
      · cases h1
      · have := R.randint_length s a.length n
        simp only [Except.ok.injEq] at h1
        rw [h1] at this
        exact this
    · simp only [Rng.choiceP] at h1
      split at h1
      · cases h1
      split at h1
      · cases h1
      split at h1
      · cases h1
      split at h1
      · cases h1
      · have := R.uniform_length s n
        cases h1
        simpa using this
  rw [fancy, mapM_ok_iff] at h2
  rw [← hl]
  exact h2.length_eq.symm

theorem msisdn_length {s : σ} {g g' : MsisdnGen} {n : Nat} {v : List String}
    (h : MsisdnGen.generate R s g n = .ok (v, g')) : v.length = n := by
  simp only [MsisdnGen.generate, bind_eq_ok] at h
  obtain ⟨⟨idx, s'⟩, hc, ms, hm, rest, hr, hfin⟩ := h
  cases hfin
  obtain ⟨-, hlen, -, -⟩ := R.choiceNoReplace_ok hc
  rw [mapM_ok_iff] at hm
  rw [← hlen]
  exact hm.length_eq.symm

/-- **C74** every generator that answers a request for `n` values gives exactly `n` values. -/
theorem C74_as_many_as_asked {g g' : AnyGen σ} {n : Nat} {v : List Cell}
    (h : generate R g (n : Rat) = .ok (v, g')) : v.length = n := by
  have hd : ((n : Nat) : Rat).den = 1 := Rat.den_natCast n
  have hz : ((n : Nat) : Rat).num.toNat = n := by rw [Rat.num_natCast]; simp
  cases g with
  | constant c =>
    rw [generate, if_pos hd] at h
    cases h
    simp [constantGenerate]
  | fixed l =>
    rw [generate, if_pos hd, bind_eq_ok] at h
    obtain ⟨v', h1, h2⟩ := h
    cases h2
    rw [fixedValuesGenerate] at h1
    split at h1
    · rename_i hl
      cases h1
      rw [Rat.num_natCast] at hl
      exact_mod_cast hl
    · cases h1
  | seq g =>
    rw [generate] at h
    cases h
    simp [SeqGen.generate, build_ids, arange, pyInt_natCast]
  | uniform lo hi s =>
    rw [generate] at h
    split at h
    · cases h
      simp [R.uniform_length]
    · cases h
  | choice a p s =>
    rw [generate] at h
    split at h
    · rw [bind_eq_ok] at h
      obtain ⟨⟨v', s'⟩, h1, h2⟩ := h
      cases h2
      rw [hz] at h1
      simpa using choiceGenerate_length h1
    · cases h
  | pareto xmin f s =>
    rw [generate] at h
    split at h
    · cases h
      have := R.pareto_length s n
      rw [List.length_map, hz, paretoGenerate]
      cases f <;> simp [this]
    · cases h
  | msisdn g seed =>
    rw [generate] at h
    split at h
    · rw [bind_eq_ok] at h
      obtain ⟨⟨v', s'⟩, h1, h2⟩ := h
      cases h2
      rw [hz] at h1
      simpa using msisdn_length h1
    · cases h
  | cyclic t => rw [generate] at h; cases h
  | trigger m s => rw [generate] at h; cases h
  | bulk g => rw [generate] at h; cases h

theorem assemble_length (t : CyclicTimer σ) (obs us bs : List Rat) :
    (CyclicTimer.assemble t obs us bs).length = obs.length := by
  induction obs generalizing us bs with
  | nil => rw [CyclicTimer.assemble.eq_def]; rfl
  | cons a obs ih =>
    rw [CyclicTimer.assemble.eq_def]
    dsimp only
    split
    · cases us <;> simp [ih]
    · split
      · cases bs <;> simp [ih]
      · simp [ih]

theorem bulkCells_length {g g' : AnyGen σ} {obs v : List Cell}
    (h : bulkCells R g obs = .ok (v, g')) : v.length = obs.length := by
  induction obs generalizing g g' v with
  | nil => rw [bulkCells] at h; cases h; rfl
  | cons c cs ih =>
    rw [bulkCells, bind_eq_ok] at h
    obtain ⟨n, -, h⟩ := h
    rw [bind_eq_ok] at h
    obtain ⟨⟨v1, g1⟩, -, h⟩ := h
    rw [bind_eq_ok] at h
    obtain ⟨vals, -, h⟩ := h
    rw [bind_eq_ok] at h
    obtain ⟨⟨rest, g2⟩, h4, h⟩ := h
    cases h
    simp [ih h4]

/-- **C75** every dependent generator that answers gives exactly one value per observation. -/
theorem C75_one_per_observation {g g' : AnyGen σ} {obs v : List Cell}
    (h : observe R g obs = .ok (v, g')) : v.length = obs.length := by
  cases g with
  | constant c => rw [observe] at h; cases h; simp
  | cyclic t =>
    rw [observe, bind_eq_ok] at h
    obtain ⟨acts, h1, h2⟩ := h
    cases h2
    rw [mapM_ok_iff] at h1
    rw [List.length_map, CyclicTimer.generate, assemble_length]
    exact h1.length_eq.symm
  | trigger m s =>
    rw [observe, bind_eq_ok] at h
    obtain ⟨vals, h1, h⟩ := h
    rw [bind_eq_ok] at h
    obtain ⟨⟨bs, s'⟩, h2, h3⟩ := h
    cases h3
    rw [mapM_ok_iff] at h1
    have hu := R.uniform_length s vals.length
    simp only [triggerGenerate] at h2
    split at h2
    · rename_i hl
      simp only [Except.ok.injEq, Prod.mk.injEq] at h2
      obtain ⟨rfl, -⟩ := h2
      rw [List.length_map, List.length_zipWith, hl, Nat.min_self, hu]
      exact h1.length_eq.symm
    · cases h2
  | bulk g =>
    rw [observe, bind_eq_ok] at h
    obtain ⟨⟨v', g1⟩, h1, h2⟩ := h
    cases h2
    exact bulkCells_length h1
  | fixed l => simp [observe] at h
  | seq g => simp [observe] at h
  | uniform lo hi s => simp [observe] at h
  | choice a p s => simp [observe] at h
  | pareto x f s => simp [observe] at h
  | msisdn g seed => simp [observe] at h

/-! every kind of generator answers some request -/

example : (generate Rng.counter (.choice [.str "a", .str "b"] (some [1/4, 3/4]) 7) 3).toOption.map
    (fun x => x.1) = some [.str "b", .str "b", .str "b"] := by decide +kernel

example : (observe Rng.counter (.bulk (.seq ⟨0, "i", 1⟩)) [.num 2, .num 0, .num 1]).toOption.map
    (fun x => x.1) = some [.list [.str "i0", .str "i1"], .list [], .list [.str "i2"]] := by
  decide +kernel

end AnyGen

theorem World.bulkLoop_length {σ γ : Type} {f : Rat → Act (World σ γ) (List Cell)} {obs : List Cell}
    {w w' : World σ γ} {cells : List Cell} (h : World.bulkLoop f obs w = .ok cells w') :
    cells.length = obs.length := by
  induction obs generalizing w w' cells with
  | nil =>
    obtain ⟨rfl, -⟩ := Act.pure_eq_ok.1 h
    rfl
  | cons c obs ih =>
    rw [World.bulkLoop] at h
    obtain ⟨n, w1, -, h⟩ := Act.bind_eq_ok.1 h
    obtain ⟨v, w2, -, h⟩ := Act.bind_eq_ok.1 h
    obtain ⟨vals, w3, -, h⟩ := Act.bind_eq_ok.1 h
    obtain ⟨rest, w4, h4, h⟩ := Act.bind_eq_ok.1 h
    obtain ⟨rfl, -⟩ := Act.pure_eq_ok.1 h
    rw [List.length_cons, List.length_cons, ih h4]

/-- the number of values a request asks for -/
def Spec.Request.Asks : World.Request → Nat → Prop
  | .size n, k => n = k
  | .series obs, k => obs.length = k
  | .samples _ obs, k => obs.length = k

theorem World.call_length {σ : Type} {env : Env σ (AnyGen σ)} {R : Rng σ}
    (hs : env.sem = AnyGen.sem R) {g : GenRef} (hg : Spec.KeepsLengths g) {q : World.Request} {n : Nat}
    (hq : Spec.Request.Asks q n) {w w' : World σ (AnyGen σ)} {cells : List Cell}
    (h : World.call env g q w = .ok cells w') : cells.length = n := by
  induction g generalizing q n w w' cells with
  | constant v =>
    cases q with
    | size m =>
      obtain ⟨rfl, -⟩ := Act.pure_eq_ok.1 h
      obtain rfl : m = n := hq
      rw [List.length_replicate, AnyGen.pyInt_natCast, Int.toNat_natCast]
    | series obs =>
      obtain ⟨rfl, -⟩ := Act.pure_eq_ok.1 h
      rw [List.length_map]
      exact hq
    | samples array obs => exact absurd h throw_ne_ok
  | ref i =>
    cases q with
    | size m =>
      obtain ⟨a, w1, h1, h⟩ := Act.bind_eq_ok.1 h
      obtain ⟨⟨v, a'⟩, w2, h2, h⟩ := Act.bind_eq_ok.1 h
      obtain ⟨g2, rfl⟩ := Act.ofPy_eq_ok.1 h2
      obtain ⟨_, w3, h3, h⟩ := Act.bind_eq_ok.1 h
      obtain ⟨rfl, -⟩ := Act.pure_eq_ok.1 h
      obtain rfl : m = n := hq
      rw [hs] at g2
      exact AnyGen.C74_as_many_as_asked g2
    | series obs =>
      obtain ⟨a, w1, h1, h⟩ := Act.bind_eq_ok.1 h
      obtain ⟨⟨v, a'⟩, w2, h2, h⟩ := Act.bind_eq_ok.1 h
      obtain ⟨g2, rfl⟩ := Act.ofPy_eq_ok.1 h2
      obtain ⟨_, w3, h3, h⟩ := Act.bind_eq_ok.1 h
      obtain ⟨rfl, -⟩ := Act.pure_eq_ok.1 h
      rw [hs] at g2
      exact (AnyGen.C75_one_per_observation g2).trans hq
    | samples array obs =>
      obtain ⟨a, w1, h1, h⟩ := Act.bind_eq_ok.1 h
      obtain ⟨_, w0, h0, h⟩ := Act.bind_eq_ok.1 h
      obtain ⟨⟨v, a'⟩, w2, h2, h⟩ := Act.bind_eq_ok.1 h
      obtain ⟨g2, rfl⟩ := Act.ofPy_eq_ok.1 h2
      obtain ⟨_, w3, h3, h⟩ := Act.bind_eq_ok.1 h
      obtain ⟨rfl, -⟩ := Act.pure_eq_ok.1 h
      rw [hs] at g2
      exact (AnyGen.C75_one_per_observation g2).trans hq
  | mapped g f ih =>
    cases q with
    | size m =>
      obtain ⟨v, w1, h1, h⟩ := Act.bind_eq_ok.1 h
      obtain ⟨hv, rfl⟩ := Act.ofPy_eq_ok.1 h
      rw [mapM_ok_iff] at hv
      rw [← hv.length_eq]
      exact ih hg hq h1
    | series obs => exact absurd h throw_ne_ok
    | samples array obs => exact absurd h throw_ne_ok
  | mappedVect g f ih =>
    cases q with
    | size m =>
      obtain ⟨v, w1, h1, h⟩ := Act.bind_eq_ok.1 h
      obtain ⟨hv, rfl⟩ := Act.ofPy_eq_ok.1 h
      rw [hg.2 _ _ hv]
      exact ih hg.1 hq h1
    | series obs => exact absurd h throw_ne_ok
    | samples array obs => exact absurd h throw_ne_ok
  | flatmapped g dep ih1 ih2 =>
    cases q with
    | size m =>
      obtain ⟨v, w1, h1, h⟩ := Act.bind_eq_ok.1 h
      obtain ⟨b, w2, h2, h3⟩ := Act.bind_eq_ok.1 h
      exact ih2 hg.2 (q := .samples b v) (ih1 hg.1 hq h1) h3
    | series obs => exact absurd h throw_ne_ok
    | samples array obs => exact absurd h throw_ne_ok
  | bulk g ih =>
    cases q with
    | size m => exact absurd h throw_ne_ok
    | series obs => exact (World.bulkLoop_length h).trans hq
    | samples array obs => exact (World.bulkLoop_length h).trans hq

/-- **C79** Generators made with `map` and `flatmap`, and bulk generators, keep the counts: as many values
as asked, one value per observation, for all the generators of the library, however shared. -/
theorem C79_derived_counts {σ : Type} {env : Env σ (AnyGen σ)} {R : Rng σ}
    (hs : env.sem = AnyGen.sem R) {g : GenRef} (hg : Spec.KeepsLengths g) {w w' : World σ (AnyGen σ)}
    {cells : List Cell} :
    (∀ n : Nat, World.generate env g (n : Rat) w = .ok cells w' → cells.length = n) ∧
    (∀ obs, World.observe env g obs w = .ok cells w' → cells.length = obs.length) :=
  ⟨fun _ h => World.call_length hs hg (q := .size _) rfl h,
    fun _ h => World.call_length hs hg (q := .series _) rfl h⟩

/-- **C71** with a generator of the library, a stock of `n` items per member holds exactly `n * size`
relations. -/
theorem C71_count_library {σ : Type} {env : Env σ (AnyGen σ)} {R : Rng σ}
    (hs : env.sem = AnyGen.sem R) {w w' : World σ (AnyGen σ)} {pop n : Nat} {name : String}
    {gen : GenRef} (hgen : Spec.KeepsLengths gen) {u : Unit} {p : Population} (hp : w.pops[pop]? = some p)
    (h : Circus.createStock env pop name gen n w = .ok u w') :
    ∃ r, Spec.NewRelationship w w' pop name p r ∧
      ∀ o, (r.get_relations o).length = n * p.size := by
  obtain ⟨r, h1, h2⟩ := C71_count hp (fun cells w1 hg => by
    have : ((((n : Nat) : Int) * p.size : Int) : Rat) = ((n * p.size : Nat) : Rat) := by
      push_cast; rfl
    rw [this] at hg
    rw [(C79_derived_counts hs hgen).1 _ hg]
    push_cast; rfl) h
  exact ⟨r, h1, fun o => by exact_mod_cast h2 o⟩

/-! ### C76 -/

/-- **C76** `make_random_assign` gives each member of the first set, in order, one member of the second
set; it only fails when there is something to assign and nobody to assign it to. -/
theorem C76_random_assign {α β σ : Type} (R : Rng σ) (seed : Int) (set1 : List α) (set2 : List β) :
    (∀ l, make_random_assign R seed set1 set2 = .ok l →
      l.map Prod.fst = set1 ∧ ∀ x ∈ l, x.2 ∈ set2) ∧
    ((∃ l, make_random_assign R seed set1 set2 = .ok l) ↔ set2 ≠ [] ∨ set1 = []) := by
  refine ⟨fun l h => ?_, ?_, Circus.make_random_assign_total R seed set1 set2⟩
  · obtain ⟨h1, h2⟩ := Circus.make_random_assign_ok h
    exact ⟨h1, fun x hx => h2 _ (List.mem_map_of_mem hx)⟩
  · rintro ⟨l, h⟩
    obtain ⟨h1, h2⟩ := Circus.make_random_assign_ok h
    cases l with
    | nil => exact .inr h1.symm
    | cons x l =>
      left
      have := h2 x.2 (by simp)
      rintro rfl
      cases this

example : (make_random_assign Rng.counter 1 ["x", "y", "z"] [10, 20]).toOption =
    some [("x", 20), ("y", 10), ("z", 20)] := by decide +kernel

/-! ### C77 -/

/-- the numbers drawn for the `i`-th member of the first group -/
def Spec.drawnFor {β : Type} (group2 : List β) (draws : List Rat) (i : Nat) : List Rat :=
  (draws.drop (i * group2.length)).take group2.length

/-- what the `i`-th member of the first group should get: nothing if all its numbers are 0, and
otherwise one non-negative share for each member of the second group, the shares summing to 1 -/
def Spec.Shares {α β : Type} (group2 : List β) (draws : List Rat) (a : α × Nat)
    (lines : List (α × β × Rat)) : Prop :=
  if ∀ x ∈ Spec.drawnFor group2 draws a.2, x = 0 then lines = []
  else lines.map (fun x => (x.1, x.2.1)) = group2.map (fun b => (a.1, b)) ∧
    (lines.map fun x => x.2.2).sum = 1 ∧ ∀ x ∈ lines, 0 ≤ x.2.2

theorem sum_nonneg_list {l : List Rat} (h : ∀ x ∈ l, 0 ≤ x) : 0 ≤ l.sum := by
  induction l with
  | nil => simp
  | cons a l ih =>
    rw [List.sum_cons]
    have := h a (by simp)
    have := ih fun x hx => h x (by simp [hx])
    linarith

theorem sum_zero_list {l : List Rat} (h : ∀ x ∈ l, 0 ≤ x) : l.sum = 0 ↔ ∀ x ∈ l, x = 0 := by
  induction l with
  | nil => simp
  | cons a l ih =>
    have h1 := h a (by simp)
    have h2 := sum_nonneg_list fun x hx => h x (List.mem_cons_of_mem a hx)
    rw [List.sum_cons, List.forall_mem_cons, ← ih fun x hx => h x (List.mem_cons_of_mem a hx)]
    constructor
    · intro h3
      exact ⟨by linarith, by linarith⟩
    · rintro ⟨h3, h4⟩
      linarith

theorem sum_div_list (l : List Rat) (q : Rat) : (l.map (· / q)).sum = l.sum / q := by
  induction l with
  | nil => simp
  | cons a l ih => simp [ih, add_div]

theorem proportionRows_shares {α β : Type} (a : α) (group2 : List β) {row : List Rat}
    (hl : row.length = group2.length) (hr : ∀ x ∈ row, 0 ≤ x) :
    if ∀ x ∈ row, x = 0 then proportionRows a group2 row = []
    else (proportionRows a group2 row).map (fun x => (x.1, x.2.1)) = group2.map (fun b => (a, b)) ∧
      ((proportionRows a group2 row).map fun x => x.2.2).sum = 1 ∧
      ∀ x ∈ proportionRows a group2 row, 0 ≤ x.2.2 := by
  split
  · rename_i h
    rw [proportionRows, if_pos ((sum_zero_list hr).2 h)]
  · rename_i h
    have h0 : row.sum ≠ 0 := fun h0 => h ((sum_zero_list hr).1 h0)
    have hpos := sum_nonneg_list hr
    rw [proportionRows, if_neg h0]
    refine ⟨?_, ?_, ?_⟩
    · rw [List.map_map]
      have : ((fun x : α × β × Rat => (x.1, x.2.1)) ∘ fun y : β × Rat => (a, y.1, y.2 / row.sum)) =
        (fun b => (a, b)) ∘ Prod.fst := rfl
      rw [this, ← List.map_map, List.map_fst_zip (by omega)]
    · rw [List.map_map]
      have : ((fun x : α × β × Rat => x.2.2) ∘ fun y : β × Rat => (a, y.1, y.2 / row.sum)) =
        (· / row.sum) ∘ Prod.snd := rfl
      rw [this, ← List.map_map, List.map_snd_zip (by omega), sum_div_list, div_self h0]
    · intro x hx
      obtain ⟨y, hy, rfl⟩ := List.mem_map.1 hx
      exact div_nonneg (hr _ (List.of_mem_zip hy).2) hpos

theorem proportions_shares {α β : Type} (group2 : List β) (all : List Rat) (hr : ∀ x ∈ all, 0 ≤ x)
    (group1 : List α) (k : Nat) (hl : all.length = (k + group1.length) * group2.length) :
    ∃ parts, proportions group2 group1 (all.drop (k * group2.length)) = parts.flatten ∧
      List.Forall₂ (Spec.Shares group2 all) (group1.zipIdx k) parts := by
  induction group1 generalizing k with
  | nil => exact ⟨[], rfl, .nil⟩
  | cons a group1 ih =>
    obtain ⟨parts, h1, h2⟩ := ih (k + 1) (by rw [hl, List.length_cons]; congr 1; omega)
    refine ⟨proportionRows a group2 ((all.drop (k * group2.length)).take group2.length) :: parts,
      ?_, .cons ?_ h2⟩
    · rw [proportions, List.flatten_cons, ← h1, List.drop_drop, Nat.succ_mul]
    · refine proportionRows_shares a group2 ?_ fun x hx =>
        hr x (List.mem_of_mem_drop (List.mem_of_mem_take hx))
      rw [Spec.drawnFor, List.length_take, List.length_drop, hl, List.length_cons]
      have : (k + (group1.length + 1)) * group2.length =
        k * group2.length + group1.length * group2.length + group2.length := by ring
      rw [this]
      show min group2.length (_ - k * group2.length) = group2.length
      omega

/-- **C77** `assign_random_proportions` lists the members of the first group in order, each with one
non-negative weight per member of the second group, of sum 1; a member is left out exactly if all the
numbers drawn for it are 0. -/
theorem C77_proportions {α β σ : Type} (R : Rng σ) (group1 : List α) (group2 : List β) (seed : Int) :
    ∃ parts, assign_random_proportions R group1 group2 seed = parts.flatten ∧
      List.Forall₂ (Spec.Shares group2
        (R.uniform (R.seed seed) (group1.length * group2.length)).1) group1.zipIdx parts := by
  have := proportions_shares group2 (R.uniform (R.seed seed) (group1.length * group2.length)).1
    (fun x hx => (R.uniform_range _ _ x hx).1) group1 0 (by rw [R.uniform_length, Nat.zero_add])
  rwa [Nat.zero_mul, List.drop_zero] at this

example : assign_random_proportions Rng.counter ["x", "y"] [10, 20] 1 =
    [("x", 10, 1/3), ("x", 20, 2/3), ("y", 10, 3/7), ("y", 20, 4/7)] := by decide +kernel

end Trumania
