import Verif.Proofs.HashRun
import Verif.Proofs.HashCreate
import Verif.Props.Run
import Verif.Props.Operations

/-!
# C84, C85: the iteration order of sets

`merge_2_dicts` iterates on a set of keys, `add_relations` groups relations with it, chains merge their
logs with it. For strings that order changes with each Python process, unless `PYTHONHASHSEED` is set.
-/

namespace Trumania
open Spec
variable {σ γ : Type} {env1 env2 : Env σ γ} {fmt : Cell → Text} {folder : Path}

/-- C84. An operation, built-in or made of built-in ones, run in two processes on the same circus:
the same table, the same logs, the same circus afterwards; or the same exception. -/
theorem C84_operation (he : SameButSets env1 env2) (op : Env σ γ → Op (World σ γ)) (hop : Written op)
    (data : Frame) :
    SameRun SameWorld (fun x y => x.1 = y.1 ∧ SameLogs x.2 y.2) (op env1 data) (op env2 data) :=
  written_same he hop data

/-- C84. The same for one execution of a story. -/
theorem C84_execute (he : SameButSets env1 env2) (ops : List (Env σ γ → Op (World σ γ)))
    (h : ∀ op ∈ ops, Written op) (i : Nat) :
    SameRun SameWorld SameLogs (World.execute env1 (ops.map (· env1)) i)
      (World.execute env2 (ops.map (· env2)) i) :=
  World.same_execute he h i

/-- C84. A sequence of executions and clock increments can be replayed in another process, with the same
logs at the same dates, and leaves the same circus. -/
theorem C84_played (he : SameButSets env1 env2) (chains : List (List (Env σ γ → Op (World σ γ))))
    (h : ∀ ops ∈ chains, ∀ op ∈ ops, Written op) (w1 w2 v1 : World σ γ)
    (events : List (Int × Event)) (hs : SameWorld w1 w2)
    (hp : Played env1 (inEnv chains env1) w1 events v1) :
    ∃ events' v2, Played env2 (inEnv chains env2) w2 events' v2 ∧
      List.Forall₂ SameEvent events events' ∧ SameWorld v1 v2 := by
  generalize hc : inEnv chains env1 = cs at hp
  induction hp generalizing w2 with
  | nil w => exact ⟨[], w2, .nil w2, .nil, hs⟩
  | @exec w w1' w' l i ops logs hi hx rest ih =>
    subst hc
    rw [inEnv, List.getElem?_map] at hi
    obtain ⟨wr, hwr, rfl⟩ := Option.map_eq_some_iff.1 hi
    obtain ⟨logs', u2, e1, e2, e3⟩ := World.sameRun_ok
      (World.same_execute he (h wr (List.mem_of_getElem? hwr)) i) hs hx
    obtain ⟨ev, v2, g1, g2, g3⟩ := ih u2 e3
    refine ⟨_, v2, .exec (i := i) (logs := logs') (ops := wr.map (· env2)) ?_ e1 g1, .cons ⟨?_, rfl, e2⟩ g2, g3⟩
    · rw [inEnv, List.getElem?_map, hwr]; rfl
    · rw [hs.clock]
  | @tick w w' l rest ih =>
    subst hc
    obtain ⟨ev, v2, g1, g2, g3⟩ := ih _ (World.same_tickClock he hs)
    refine ⟨_, v2, .tick g1, .cons ⟨?_, rfl, sameLogs_nil⟩ g2, g3⟩
    rw [hs.clock]

/-- C84. Two runs of the same circus on the same files, in processes with different orders of sets and
different orders of the directory listings: either both succeed, with the same files, contents
included, and the same circus afterwards; or both raise the same exception, again with the same
files. -/
theorem C84_run (he : SameButSets env1 env2) (so1 so2 : SetOrder String) (fuel d : Nat)
    (chains : List (List (Env σ γ → Op (World σ γ)))) (h : ∀ ops ∈ chains, ∀ op ∈ ops, Written op)
    (duration : Int) (delete : Bool) (s1 s2 : Sys σ γ) (hf : s1.fs = s2.fs)
    (hc : SameCircus s1.circus s2.circus) (ht : Tree s1.fs) (hd : DepthBelow s1.fs folder d)
    (hfuel : d < fuel) :
    match Sys.run env1 fmt folder so1 fuel (inEnv chains env1) duration delete s1,
      Sys.run env2 fmt folder so2 fuel (inEnv chains env2) duration delete s2 with
    | .ok _ t1, .ok _ t2 => SameCircus t1.circus t2.circus ∧ SameFiles t1.fs t2.fs
    | .error e t1, .error e' t2 =>
      e = e' ∧ SameCircus t1.circus t2.circus ∧ SameFiles t1.fs t2.fs
    | _, _ => False := by
  obtain ⟨c1, fs⟩ := s1
  obtain ⟨c2, fs'⟩ := s2
  simp only at hf hc ht hd
  subst hf
  have hclock := hc.world.clock
  have hsame : SameFiles fs fs := fun _ _ => Iff.rfl
  cases hn : c1.world.clock.nIterations duration with
  | error e =>
    have hn2 : c2.world.clock.nIterations duration = .error e := by rw [← hclock, hn]
    rw [Sys.run, Sys.run, Act.bind_ok (FS.get_ok _), Act.bind_ok (FS.get_ok _)]
    rw [hn, hn2, Act.bind_err (Act.ofPy_error rfl _), Act.bind_err (Act.ofPy_error rfl _)]
    exact ⟨rfl, hc, hsame⟩
  | ok n =>
    have hn2 : c2.world.clock.nIterations duration = .ok n := by rw [← hclock, hn]
    by_cases hdel : delete = true ∨ Absent fs folder
    · rw [Sys.run_eq (s := ⟨c1, fs⟩) hn ht (fun r m hm => Nat.lt_of_le_of_lt (hd r m hm) hfuel)
          (by omega) hdel,
        Sys.run_eq (s := ⟨c2, fs⟩) hn2 ht (fun r m hm => Nat.lt_of_le_of_lt (hd r m hm) hfuel)
          (by omega) hdel]
      have hab : Absent (FS.without fs folder) folder :=
        fun m hm => (FS.mem_without.1 hm).2 ⟨[], by simp⟩
      have := Sys.twin_runSteps (fmt := fmt) he (FS.without_tree ht folder) hab h n.toNat
        ⟨c1, FS.without fs folder⟩ ⟨c2, FS.without fs folder⟩ ⟨hc.rest, hc.world, .start⟩
      revert this
      split
      · rename_i h1 h2
        rw [h1, h2]
        exact fun h => ⟨⟨h.circus, h.world⟩, h.files.files⟩
      · rename_i h1 h2
        rw [h1, h2]
        exact fun h => ⟨h.1, ⟨h.2.1, h.2.2.1⟩, h.2.2.2⟩
      · exact False.elim
    · rw [not_or, Bool.not_eq_true] at hdel
      obtain ⟨rfl, hx⟩ := hdel
      have hex : FS.pathExists fs folder = true := by
        rw [FS.pathExists_iff ht.unique]
        by_contra hc
        exact hx fun m hm => hc ⟨m, hm⟩
      rw [Sys.run_refused so1 fuel duration ⟨c1, fs⟩ hex,
        Sys.run_refused so2 fuel duration ⟨c2, fs⟩ hex]
      simp only [hn, hn2]
      exact ⟨trivial, hc, hsame⟩

/-- C85. The creation of a story has the same effects in two processes. Missing: the case of a generator
used for several states of the story, for which this is false (`C85_counterexample_shared`). -/
theorem C85_create_story_partial (he : SameButSets env1 env2) (cfg : World.StoryConfig)
    (hg : OwnGenerators cfg) (hn : ((cfg.states.getD []).map Prod.fst).Nodup)
    (w1 w2 v1 : World σ γ) (n : Nat) (hs : SameWorld w1 w2)
    (h : World.createStory env1 cfg w1 = .ok n v1) :
    ∃ v2, World.createStory env2 cfg w2 = .ok n v2 ∧ SameWorld v1 v2 :=
  World.same_createStory he hg hn hs h

/-- C85. A creation that raises in a process raises in the others. Missing: as above; the exceptions
are not compared. -/
theorem C85_refused_partial (he : SameButSets env1 env2) (cfg : World.StoryConfig)
    (hg : OwnGenerators cfg) (hn : ((cfg.states.getD []).map Prod.fst).Nodup)
    (w1 w2 v1 : World σ γ) (e : Err) (hs : SameWorld w1 w2)
    (h : World.createStory env1 cfg w1 = .error e v1) :
    ∃ e' v2, World.createStory env2 cfg w2 = .error e' v2 := by
  cases h2 : World.createStory env2 cfg w2 with
  | error e' v2 => exact ⟨e', v2, rfl⟩
  | ok n v2 =>
    obtain ⟨v, h3, -⟩ := World.same_createStory ⟨he.rng.symm, he.sem.symm, he.sort.symm⟩ hg hn
      (sameWorld_symm hs) h2
    rw [h] at h3
    cases h3

/-! ### Two processes -/

/-- the environment of the other examples in another process -/
def exEnv' : Env Nat (AnyGen Nat) :=
  ⟨Rng.counter, ⟨SetOrder.rdedup Val, ArgSort.stable⟩, SetOrder.rdedup String,
    AnyGen.sem Rng.counter⟩

example : SameButSets exEnv exEnv' := ⟨rfl, rfl, rfl⟩

/-- the relations of `exRels`, grouped in another order -/
def exRels' : World Nat (AnyGen Nat) := { exWorld with
  rels := [⟨7, 5, [(.str "y", ⟨[.str "2", .str "2"], [1, 3]⟩), (.str "x", ⟨[.str "1"], [1]⟩)]⟩] }

theorem exStory_sameStory (s : Story Nat) : SameStory s s :=
  ⟨rfl, rfl, rfl, rfl, rfl, rfl, rfl, rfl, .refl _, rfl, fun _ _ => rfl⟩

theorem exRels_sameWorld : SameWorld exRels exRels' := by
  have hst : List.Forall₂ SameStory [exStory, exStory2] [exStory, exStory2] :=
    .cons (exStory_sameStory _) (.cons (exStory_sameStory _) .nil)
  refine ⟨rfl, rfl, rfl, hst,
    List.Forall₂.cons ⟨rfl, rfl, fun f => ?_, by decide +kernel, by decide +kernel, fun f rs h => ?_⟩ .nil⟩
  · simp only [Dict.get?_cons, Dict.get?_nil]
    by_cases h1 : (Val.str "x") = f
    · subst h1; decide +kernel
    · simp [h1]
  · simp only [Dict.get?_cons, Dict.get?_nil] at h
    split at h
    · cases h; rfl
    · split at h
      · cases h; rfl
      · cases h

/-- new relations are grouped in different orders, and then selected alike -/
def exAdding : List (Env Nat (AnyGen Nat) → Op (World Nat (AnyGen Nat))) :=
  [fun env => Ops.relAdd env 0 "CALLER" "CALLER", fun env => Ops.selectAll env 0 "CALLER" "TOS",
    fun _ => Ops.fieldLogger "calls" ["CALLER"] []]

example : ∀ op ∈ exAdding, Written op := by
  intro op hop
  simp only [exAdding, List.mem_cons, List.not_mem_nil, or_false] at hop
  rcases hop with rfl | rfl | rfl
  · exact .relAdd _ _ _
  · exact .selectAll _ _ _
  · exact .fieldLogger _ _ _

/-- the froms end up in different orders -/
example :
    ((World.execute exEnv (exAdding.map (· exEnv)) 0).world? exRels).map
      (fun w => w.rels.map fun r => r.grouped.map Prod.fst) =
      some [[.str "x", .str "y", .str "a"]] ∧
    ((World.execute exEnv' (exAdding.map (· exEnv')) 0).world? exRels').map
      (fun w => w.rels.map fun r => r.grouped.map Prod.fst) =
      some [[.str "a", .str "x", .str "y"]] := by decide +kernel

/-- a story with two more states -/
def exStates : World.StoryConfig :=
  { name := "visits", population := 0, idField := "ID", activity := .ref 0
    states := some [(.str "busy", ⟨.ref 1, .constant (.num 1)⟩),
      (.str "lazy", ⟨.ref 2, .constant (.num 1)⟩)]
    timerGen := .ref 3, autoReset := false }

example : OwnGenerators exStates ∧ ((exStates.states.getD []).map Prod.fst).Nodup := by
  constructor
  · unfold OwnGenerators
    decide +kernel
  · decide +kernel

/-- a circus with generators for the states -/
def exDraws : World Nat (AnyGen Nat) := { exWorld with
  clock := ⟨0, 3600 * nsPerSec, 0, [.uniform 0 10 1, .uniform 0 10 2, .uniform 0 10 3, .constant (.num 3)]⟩ }

/-- the activity of a member in the states of the last story -/
def activityOf (w : World Nat (AnyGen Nat)) (id : Val) (states : List Val) : List (Option Rat) :=
  states.map fun st => (w.stories.getLast?.bind fun s =>
    (s.params.get? id).bind (·.get? st)).map (·.activity)

/-- C85, counterexample: both states draw their activities from the generator 0. The order of the draws
is the one of a set, and "a" is not as active in one process as in the other. -/
theorem C85_counterexample_shared :
    let cfg : World.StoryConfig := { exStates with
      activity := .constant (.num 1)
      states := some [(.str "busy", ⟨.ref 0, .constant (.num 1)⟩),
        (.str "lazy", ⟨.ref 0, .constant (.num 1)⟩)] }
    SameButSets exEnv exEnv' ∧ ((cfg.states.getD []).map Prod.fst).Nodup ∧
    ∃ v1 v2, World.createStory exEnv cfg exDraws = .ok 2 v1 ∧
      World.createStory exEnv' cfg exDraws = .ok 2 v2 ∧
      activityOf v1 (.str "a") [.str "busy", .str "lazy"] ≠
        activityOf v2 (.str "a") [.str "busy", .str "lazy"] := by
  refine ⟨⟨rfl, rfl, rfl⟩, by decide +kernel, _, _, rfl, rfl, ?_⟩
  decide +kernel

end Trumania
