import Verif.Proofs.Circus
import Verif.Spec.ExampleWorld

/-!
# C58: names are not silently overwritten
-/

namespace Trumania
open Spec
variable {σ γ : Type} {env : Env σ γ}

/-- C58. Creating a population under a name in use raises and leaves the whole circus as it was. -/
theorem C58_population_refused (c : Circus σ γ) (name : String) (init : PopInit) (i : Nat)
    (h : PopNamed c name i) :
    Circus.createPopulation env name init c = .error .valueError c := by
  rcases Circus.createPopulation_cases (env := env) name init c with ⟨-, h1⟩ | ⟨h1, -⟩
  · exact h1
  · rw [Dict.contains, h] at h1
    cases h1

/-- C58. Creating a story under a name in use raises and leaves the whole circus as it was. -/
theorem C58_story_refused (c : Circus σ γ) (cfg : World.StoryConfig) (i : Nat)
    (h : StoryNamed c cfg.name i) :
    Circus.createStory env cfg c = .error .valueError c := by
  obtain ⟨s, hs, hn⟩ := h
  have : World.createStory env cfg c.world = .error .valueError c.world := by
    rw [World.createStory, Act.bind_ok (FS.get_ok c.world)]
    cases hf : c.world.findStory cfg.name with
    | some _ => rfl
    | none =>
      rw [World.findStory, List.findIdx?_eq_none_iff] at hf
      have := hf s (List.mem_of_getElem? hs)
      simp [hn] at this
  rw [Circus.createStory, Circus.onWorld_error this]

/-- C58. Attaching a generator under a name in use raises and leaves the whole circus as it was. -/
theorem C58_generator_refused (c : Circus σ γ) (name : String) (g i : Nat)
    (h : GenNamed c name i) :
    Circus.attachGenerator name g c = .error .valueError c := by
  rcases Circus.attachGenerator_cases name g c with ⟨-, h1⟩ | ⟨h1, -⟩
  · exact h1
  · rw [Dict.contains, h] at h1
    cases h1

/-- C58. A created population is found under its name; the populations of the circus, their names and
the other objects are as before. -/
theorem C58_population_created (c c' : Circus σ γ) (name : String) (init : PopInit) (i : Nat)
    (h : Circus.createPopulation env name init c = .ok i c') :
    PopNamed c' name i ∧ (∀ n j, n ≠ name → (PopNamed c' n j ↔ PopNamed c n j)) ∧
      (∃ p, c'.world.pops = c.world.pops ++ [p] ∧ i = c.world.pops.length) ∧
      c'.world.rels = c.world.rels ∧ c'.world.stories = c.world.stories ∧
      c'.generators = c.generators := by
  rcases Circus.createPopulation_cases (env := env) name init c with
    ⟨-, h1⟩ | ⟨hn, ⟨e, w, -, -, h1⟩ | ⟨p, w, -, hw, h1⟩⟩
  · rw [h1] at h; cases h
  · rw [h1] at h; cases h
  · rw [h1] at h
    cases h
    simp only [World.objects, Prod.mk.injEq] at hw
    refine ⟨?_, ?_, ⟨p, by simp only [hw], rfl⟩, hw.1, hw.2.2, rfl⟩
    · simp only [PopNamed, Dict.get?_set, if_true]
    · intro n j hne
      simp only [PopNamed, Dict.get?_set, if_neg (Ne.symm hne)]

/-- One attempt of creation, or anything else that touches no name: what the names stand for stays. -/
private theorem building_step {c c1 c2 : Circus σ γ}
    (hp : ∀ n i, PopNamed c n i → PopNamed c1 n i) (hg : ∀ n i, GenNamed c n i → GenNamed c1 n i)
    (hs : ∀ n i, StoryNamed c n i → StoryNamed c1 n i)
    (hp2 : ∀ n i, PopNamed c1 n i → PopNamed c2 n i) (hg2 : ∀ n i, GenNamed c1 n i → GenNamed c2 n i)
    (hs2 : ∀ n i, StoryNamed c1 n i → StoryNamed c2 n i) :
    (∀ n i, PopNamed c n i → PopNamed c2 n i) ∧ (∀ n i, GenNamed c n i → GenNamed c2 n i) ∧
      (∀ n i, StoryNamed c n i → StoryNamed c2 n i) :=
  ⟨fun n i h => hp2 n i (hp n i h), fun n i h => hg2 n i (hg n i h), fun n i h => hs2 n i (hs n i h)⟩

/-- C58. Along any history of attempted creations, each name of a population, a generator or a story
keeps standing for the same object, and no two stories have the same name. Missing: relationships,
which are replaced silently (`C58_relationship_counterexample`). -/
theorem C58_names_kept_partial (c c' : Circus σ γ) (h : Building env c c') :
    (∀ n i, PopNamed c n i → PopNamed c' n i) ∧ (∀ n i, GenNamed c n i → GenNamed c' n i) ∧
      (∀ n i, StoryNamed c n i → StoryNamed c' n i) ∧
      ((c.world.stories.map (·.name)).Nodup → (c'.world.stories.map (·.name)).Nodup) := by
  suffices H : ((∀ n i, PopNamed c n i → PopNamed c' n i) ∧ (∀ n i, GenNamed c n i → GenNamed c' n i) ∧
      (∀ n i, StoryNamed c n i → StoryNamed c' n i)) ∧
      ((c.world.stories.map (·.name)).Nodup → (c'.world.stories.map (·.name)).Nodup) from
    ⟨H.1.1, H.1.2.1, H.1.2.2, H.2⟩
  induction h with
  | refl => exact ⟨⟨fun _ _ h => h, fun _ _ h => h, fun _ _ h => h⟩, id⟩
  | @population c1 name init h ih =>
    obtain ⟨⟨ip, ig, is⟩, iu⟩ := ih
    rcases Circus.createPopulation_cases (env := env) name init c1 with
      ⟨-, h1⟩ | ⟨hn, ⟨e, w, -, hw, h1⟩ | ⟨p, w, -, hw, h1⟩⟩
    · rw [Act.after_error h1]
      exact ⟨⟨ip, ig, is⟩, iu⟩
    · rw [Act.after_error h1]
      simp only [World.objects, Prod.mk.injEq] at hw
      refine ⟨building_step ip ig is (fun _ _ h => h) (fun _ _ h => h) ?_, ?_⟩
      · simp only [StoryNamed, hw]; exact fun _ _ h => h
      · simpa only [hw] using iu
    · rw [Act.after_ok h1]
      simp only [World.objects, Prod.mk.injEq] at hw
      refine ⟨building_step ip ig is ?_ (fun _ _ h => h) ?_, ?_⟩
      · intro n i h
        have : name ≠ n := by
          rintro rfl
          rw [Dict.contains, h] at hn
          cases hn
        simpa only [PopNamed, Dict.get?_set, if_neg this] using h
      · simp only [StoryNamed, hw]; exact fun _ _ h => h
      · simpa only [hw] using iu
  | @generator c1 name g h ih =>
    obtain ⟨⟨ip, ig, is⟩, iu⟩ := ih
    rcases Circus.attachGenerator_cases name g c1 with ⟨-, h1⟩ | ⟨hn, h1⟩
    · rw [Act.after_error h1]
      exact ⟨⟨ip, ig, is⟩, iu⟩
    · rw [Act.after_ok h1]
      refine ⟨building_step ip ig is (fun _ _ h => h) ?_ (fun _ _ h => h), iu⟩
      intro n i h
      have : name ≠ n := by
        rintro rfl
        rw [Dict.contains, h] at hn
        cases hn
      simpa only [GenNamed, Dict.get?_set, if_neg this] using h
  | @story c1 cfg h ih =>
    obtain ⟨⟨ip, ig, is⟩, iu⟩ := ih
    rw [Circus.createStory, Circus.onWorld_after]
    rcases World.createStory_after (env := env) cfg c1.world with hw | ⟨hn, s, hs, hw⟩
    · simp only [World.objects, Prod.mk.injEq] at hw
      refine ⟨building_step ip ig is (fun _ _ h => h) (fun _ _ h => h) ?_, ?_⟩
      · simp only [StoryNamed, hw]; exact fun _ _ h => h
      · simpa only [hw] using iu
    · simp only [World.objects, Prod.mk.injEq] at hw
      refine ⟨building_step ip ig is (fun _ _ h => h) (fun _ _ h => h) ?_, ?_⟩
      · rintro n i ⟨t, ht, hname⟩
        refine ⟨t, ?_, hname⟩
        simp only [hw]
        rw [List.getElem?_append_left (List.getElem?_eq_some_iff.1 ht).1]
        exact ht
      · intro hu
        simp only [hw, List.map_append, List.map_cons, List.map_nil]
        rw [List.nodup_append]
        refine ⟨iu hu, by simp, ?_⟩
        intro a ha b hb hab
        simp only [List.mem_singleton] at hb
        obtain ⟨t, ht, rfl⟩ := List.mem_map.1 ha
        exact hn t ht (hab.trans (hb.trans hs))
  | @other c1 c2 h h2 ih =>
    obtain ⟨⟨ip, ig, is⟩, iu⟩ := ih
    refine ⟨building_step ip ig is ?_ ?_ ?_, ?_⟩
    · simp only [PopNamed, h2.populations]; exact fun _ _ h => h
    · simp only [GenNamed, h2.generators]; exact fun _ _ h => h
    · rintro n i ⟨t, ht, hname⟩
      have h3 : (c2.world.stories.map (·.name))[i]? = some n := by
        rw [h2.stories, List.getElem?_map, ht, Option.map_some, hname]
      rw [List.getElem?_map, Option.map_eq_some_iff] at h3
      exact h3
    · rw [h2.stories]
      exact iu

/-- C58, counterexample: creating a relationship under a name in use succeeds and replaces it. -/
theorem C58_relationship_counterexample (w : World σ γ) (p : Population) (pop i : Nat) (name : String)
    (seed : Int) (hs : seed ≠ 0) (hp : w.pops[pop]? = some p)
    (_hi : Dict.get? p.relationships name = some i) (hlt : i < w.rels.length) :
    ∃ w' p' i', Circus.createRelationship env pop name (some seed) w = .ok i' w' ∧
      w'.pops[pop]? = some p' ∧ Dict.get? p'.relationships name = some i' ∧ i' ≠ i := by
  refine ⟨{ w with
      rels := w.rels ++ [Relationship.new env.R seed]
      pops := w.pops.set pop { p with relationships := p.relationships.set name w.rels.length } },
    { p with relationships := p.relationships.set name w.rels.length }, w.rels.length, ?_, ?_, ?_, ?_⟩
  · simp only [Circus.createRelationship, if_neg hs]
    have ha : Circus.appendRel (Relationship.new env.R seed) w = .ok w.rels.length
      { w with rels := w.rels ++ [Relationship.new env.R seed] } := rfl
    rw [Act.bind_ok (Act.pure_apply _ _), Act.bind_ok ha]
    have hg : World.getPop pop { w with rels := w.rels ++ [Relationship.new env.R seed] } = .ok p
      { w with rels := w.rels ++ [Relationship.new env.R seed] } := World.getPop_eq_ok.2 ⟨hp, rfl⟩
    rw [Act.bind_ok hg]
    rfl
  · rw [List.getElem?_set_self (List.getElem?_eq_some_iff.1 hp).1]
  · rw [Dict.get?_set, if_pos rfl]
  · omega

/-- a circus with a population, a story and a generator -/
def exCircus : Circus Nat (AnyGen Nat) where
  name := "test"
  masterSeed := 1
  start := 0
  step := 3600 * nsPerSec
  world := exWorld
  populations := [("people", 0)]
  generators := [("ids", 0)]

example : PopNamed exCircus "people" 0 ∧ GenNamed exCircus "ids" 0 ∧ StoryNamed exCircus "calls" 0 ∧
    (exCircus.world.stories.map (·.name)).Nodup :=
  ⟨rfl, rfl, ⟨exStory, rfl, rfl⟩, by decide⟩

/-- a second population can be created, not under the same name -/
example : (Circus.createPopulation exEnv "shops" (.generated (.ref 0) 2)).value? exCircus = some 1 ∧
    (Circus.createPopulation exEnv "people" (.generated (.ref 0) 2)).raised? exCircus =
      some .valueError ∧
    (Circus.createStory exEnv { name := "visits", population := 0, idField := "ID" }).value? exCircus =
      some 2 := by
  decide +kernel

example : ∃ w : World Nat (AnyGen Nat), ∃ p, w.pops[0]? = some p ∧
    Dict.get? p.relationships "friends" = some 0 ∧ 0 < w.rels.length :=
  ⟨{ exWorld with
      rels := [Relationship.new Rng.counter 5]
      pops := [{ exPop with relationships := [("friends", 0)] }] }, _, rfl, rfl, by decide⟩

end Trumania
