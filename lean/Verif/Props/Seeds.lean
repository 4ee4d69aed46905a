import Verif.Proofs.Networks
import Verif.Props.Generators
import Verif.Spec.ExampleWorld

/-!
# Property C68 in circuses: the seeds of its objects
-/

namespace Trumania
open Spec Circus
variable {σ γ : Type} {env : Env σ γ}

namespace Spec

/-- `f` is the sequence of seeds yielded from the state `s` -/
def YieldsSeeds (R : Rng σ) (s : σ) (f : Nat → Int) : Prop :=
  ∀ n, seeds R s n = .ok ((List.range n).map f)

/-- The seeds used by the objects created in a circus, in order. Seeds are taken for the generators of the
scenario, and for the relationships created without seed (or with seed 0); all the rest leaves the seeder
alone. -/
inductive SeedsUsed (env : Env σ γ) : World σ γ → List Int → World σ γ → Prop
  | nil (w : World σ γ) : SeedsUsed env w [] w
  | draw {w w1 w' : World σ γ} {x : Int} {l : List Int} (h : drawSeed env w = .ok x w1)
      (rest : SeedsUsed env w1 l w') : SeedsUsed env w (x :: l) w'
  | relationship {w w1 w' : World σ γ} {pop i : Nat} {name : String} {seed : Option Int}
      {r : Relationship σ} {l : List Int} (hs : seed = none ∨ seed = some 0)
      (h : createRelationship env pop name seed w = .ok i w1) (hr : w1.rels[i]? = some r)
      (rest : SeedsUsed env w1 l w') : SeedsUsed env w (r.seed :: l) w'
  | given {w w1 w' : World σ γ} {pop i : Nat} {name : String} {s : Int} {l : List Int} (hs : s ≠ 0)
      (h : createRelationship env pop name (some s) w = .ok i w1)
      (rest : SeedsUsed env w1 l w') : SeedsUsed env w l w'
  | other {w w1 w' : World σ γ} {l : List Int} (h : w1.seeder = w.seeder)
      (rest : SeedsUsed env w1 l w') : SeedsUsed env w l w'

end Spec

theorem yields_next {R : Rng σ} {s s' : σ} {x : Int} {f : Nat → Int} (hf : YieldsSeeds R s f)
    (h : nextSeed R s = .ok (x, s')) : x = f 0 ∧ YieldsSeeds R s' fun i => f (i + 1) := by
  have key : ∀ n, ∃ l, seeds R s' n = .ok l ∧ x :: l = (List.range (n + 1)).map f := by
    intro n
    have := hf (n + 1)
    rw [seeds, h, bind_ok] at this
    simp only at this
    obtain ⟨l, h1, h2⟩ := bind_eq_ok.1 this
    simp only [Except.ok.injEq] at h2
    exact ⟨l, h1, h2⟩
  constructor
  · obtain ⟨l, -, h2⟩ := key 0
    simpa using congrArg List.head? h2
  · intro n
    obtain ⟨l, h1, h2⟩ := key n
    rw [h1, List.range_succ_eq_map, List.map_cons, List.map_map] at *
    simp only [List.cons.injEq] at h2
    rw [h2.2]
    rfl

theorem createRelationship_seed {w w1 : World σ γ} {pop i : Nat} {name : String} {seed : Option Int}
    (h : createRelationship env pop name seed w = .ok i w1) :
    ∃ x, w1.rels[i]? = some (Relationship.new env.R x) ∧
      ((seed = none ∨ seed = some 0) → ∃ s, nextSeed env.R w.seeder = .ok (x, s) ∧ w1.seeder = s) ∧
      ∀ s, seed = some s → s ≠ 0 → x = s ∧ w1.seeder = w.seeder := by
  have tail : ∀ (x : Int) (wa : World σ γ), (do
      let i ← appendRel (Relationship.new env.R x)
      let p ← World.getPop pop
      World.setPop pop { p with relationships := p.relationships.set name i }
      pure i : Act (World σ γ) Nat) wa = .ok i w1 →
      w1.rels[i]? = some (Relationship.new env.R x) ∧ w1.seeder = wa.seeder := by
    intro x wa h2
    obtain ⟨j, wb, h3, h4⟩ := Act.bind_eq_ok.1 h2
    cases h3
    obtain ⟨p, wc, h5, h6⟩ := Act.bind_eq_ok.1 h4
    obtain ⟨hp, rfl⟩ := World.getPop_eq_ok.1 h5
    obtain ⟨_, wd, h7, h8⟩ := Act.bind_eq_ok.1 h6
    cases h7
    cases h8
    exact ⟨by simp, rfl⟩
  have drawn : (seed = none ∨ seed = some 0) → ∃ x wa, drawSeed env w = .ok x wa ∧
      w1.rels[i]? = some (Relationship.new env.R x) ∧ w1.seeder = wa.seeder := by
    intro hs
    unfold createRelationship at h
    rcases hs with rfl | rfl
    · obtain ⟨x, wa, h1, h2⟩ := Act.bind_eq_ok.1 h
      exact ⟨x, wa, h1, tail x wa h2⟩
    · simp only [if_true] at h
      obtain ⟨x, wa, h1, h2⟩ := Act.bind_eq_ok.1 h
      exact ⟨x, wa, h1, tail x wa h2⟩
  by_cases hs : seed = none ∨ seed = some 0
  · obtain ⟨x, wa, h1, h2, h3⟩ := drawn hs
    obtain ⟨s, k1, rfl⟩ := drawSeed_eq_ok h1
    refine ⟨x, h2, fun _ => ⟨s, k1, h3⟩, ?_⟩
    rintro s rfl h0
    rcases hs with hs | hs
    · cases hs
    · cases hs; exact absurd rfl h0
  · cases seed with
    | none => exact absurd (.inl rfl) hs
    | some s =>
      have h0 : s ≠ 0 := fun h0 => hs (.inr (by rw [h0]))
      unfold createRelationship at h
      simp only [h0, if_false] at h
      obtain ⟨x, wa, h1, h2⟩ := Act.bind_eq_ok.1 h
      cases h1
      obtain ⟨k1, k2⟩ := tail _ _ h2
      refine ⟨_, k1, fun h => absurd h hs, ?_⟩
      rintro s' hs' -
      cases hs'
      exact ⟨rfl, k2⟩

/-- **C68** The objects of a circus take the seeds of the sequence one after the other: however many are
created, in whatever order, and whatever happens in between, the `k`-th seed used is the `k`-th one of the
sequence, never one of the other ones. -/
theorem C68_used_in_order {w w' : World σ γ} {l : List Int} (h : SeedsUsed env w l w') {f : Nat → Int}
    (hf : YieldsSeeds env.R w.seeder f) :
    l = (List.range l.length).map f ∧ YieldsSeeds env.R w'.seeder fun i => f (l.length + i) := by
  have step : ∀ {x : Int} {s s' : σ} {l : List Int} {f : Nat → Int} {w' : World σ γ},
      nextSeed env.R s = .ok (x, s') → YieldsSeeds env.R s f →
      (∀ {f : Nat → Int}, YieldsSeeds env.R s' f →
        l = (List.range l.length).map f ∧ YieldsSeeds env.R w'.seeder fun i => f (l.length + i)) →
      x :: l = (List.range (x :: l).length).map f ∧
        YieldsSeeds env.R w'.seeder fun i => f ((x :: l).length + i) := by
    intro x s s' l f w' h1 hf ih
    obtain ⟨e1, e2⟩ := yields_next hf h1
    obtain ⟨e3, e4⟩ := ih e2
    constructor
    · rw [List.length_cons, List.range_succ_eq_map, List.map_cons, List.map_map, ← e1]
      congr 1
    · have : (fun i => f ((x :: l).length + i)) = fun i => f (l.length + i + 1) := by
        funext i; congr 1; simp only [List.length_cons]; omega
      rw [this]; exact e4
  induction h generalizing f with
  | nil w => exact ⟨rfl, by simpa using hf⟩
  | draw h rest ih =>
    obtain ⟨s, h1, rfl⟩ := drawSeed_eq_ok h
    exact step h1 hf ih
  | @relationship w w1 w' pop i name seed r l hs h hr rest ih =>
    obtain ⟨x, k1, k2, -⟩ := createRelationship_seed h
    obtain ⟨s, k3, rfl⟩ := k2 hs
    rw [hr] at k1
    cases k1
    exact step k3 hf ih
  | given hs h rest ih =>
    obtain ⟨x, -, -, k⟩ := createRelationship_seed h
    have := (k _ rfl hs).2
    exact ih (by rw [this]; exact hf)
  | other h rest ih => exact ih (by rw [h]; exact hf)

/-- **C68** A new circus takes the first seed of the sequence of its master seed for its clock; the objects
created in it take the next ones. -/
theorem C68_circus {name : String} {master start step : Int} {c : Circus σ γ} {f : Nat → Int}
    (hf : YieldsSeeds env.R (env.R.seed master) f) (hnew : Circus.new env.R name master start step = .ok c)
    {l : List Int} {w' : World σ γ} (h : SeedsUsed env c.world l w') :
    c.world.clock.state = env.R.seed (f 0) ∧ l = (List.range l.length).map fun i => f (i + 1) := by
  rw [Circus.new, bind_eq_ok] at hnew
  obtain ⟨⟨x, s⟩, h1, h2⟩ := hnew
  cases h2
  obtain ⟨rfl, e2⟩ := yields_next hf h1
  exact ⟨rfl, (C68_used_in_order h e2).1⟩

/-- **C68** A relationship created with a seed of its own (which is not 0) uses it. -/
theorem C68_own_seed {w w1 : World σ γ} {pop i : Nat} {name : String} {s : Int} (hs : s ≠ 0)
    (h : createRelationship env pop name (some s) w = .ok i w1) :
    ∃ r, w1.rels[i]? = some r ∧ r.seed = s ∧ r.state = env.R.seed s := by
  obtain ⟨x, k1, -, k⟩ := createRelationship_seed h
  obtain ⟨rfl, -⟩ := k s rfl hs
  exact ⟨_, k1, rfl, rfl⟩

/-- a circus of master seed 5 whose seeds are 6, 7, 8, ...: 6 for the clock, 7 for a generator, 8 for a
relationship, while another one has the seed 3 -/
example : ∃ c w, Circus.new exEnv.R "c" 5 0 1 = .ok (c : Circus Nat (AnyGen Nat)) ∧
    SeedsUsed exEnv c.world [7, 8] w ∧ c.world.clock.state = 6 := by
  refine ⟨_, _, rfl, .draw rfl (.other (w1 := { exWorld with seeder := 7 }) rfl
    (.given (pop := 0) (name := "a") (s := 3) (by decide) rfl
      (.relationship (pop := 0) (name := "b") (r := Relationship.new exEnv.R 8) (.inl rfl) rfl rfl (.nil _)))), rfl⟩

end Trumania
