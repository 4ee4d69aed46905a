import Verif.Spec.Circus
import Verif.Proofs.NewStory
import Verif.Proofs.FileSystem

/-! Helper lemmas: creation of objects. -/

namespace Trumania
open Spec

/-- `x` never changes `f` of the state, even when it raises -/
def Act.Fixes {W α β : Type} (f : W → β) (x : Act W α) : Prop := ∀ w, f (x.after w) = f w

namespace Act
variable {W α β δ : Type} {f : W → δ}

theorem after_ok {x : Act W α} {w w' : W} {a : α} (h : x w = .ok a w') : x.after w = w' := by
  rw [after, h]

theorem after_error {x : Act W α} {w w' : W} {e : Err} (h : x w = .error e w') : x.after w = w' := by
  rw [after, h]

theorem Fixes.bind {x : Act W α} {k : α → Act W β} (hx : Fixes f x) (hk : ∀ a, Fixes f (k a)) :
    Fixes f (x >>= k) := by
  intro w
  have h1 := hx w
  cases h : x w with
  | ok a w' =>
    rw [after_ok h] at h1
    rw [after, bind_ok h]
    exact (hk a w').trans h1
  | error e w' =>
    rw [after_error h] at h1
    rw [after, bind_err h]
    exact h1

theorem Fixes.pure (a : α) : Fixes f (pure a : Act W α) := fun _ => rfl
theorem Fixes.throw (e : Err) : Fixes f (throw e : Act W α) := fun _ => rfl
theorem Fixes.get : Fixes f (get : Act W W) := fun _ => rfl

theorem Fixes.ofPy (x : Py α) : Fixes f (ofPy x : Act W α) := by
  intro w
  cases x <;> rfl

theorem Fixes.modify {g : W → W} (h : ∀ w, f (g w) = f w) : Fixes f (modify g : Act W PUnit) :=
  fun w => h w

theorem Fixes.ite {c : Prop} [Decidable c] {x y : Act W α} (hx : Fixes f x) (hy : Fixes f y) :
    Fixes f (if c then x else y) := by
  split
  · exact hx
  · exact hy

end Act

namespace World
open Act
variable {σ γ : Type} {env : Env σ γ}

/-- everything but the clock and the seeds -/
def objects (w : World σ γ) : List (Relationship σ) × List Population × List (Story σ) :=
  (w.rels, w.pops, w.stories)

theorem fetch_fixes {α δ : Type} {f : World σ γ → δ} (l : World σ γ → List α) (i : Nat) :
    Fixes f (fetch l i) := by
  intro w
  rw [after, fetch]
  cases (l w)[i]? <;> rfl

theorem getPop_fixes (i : Nat) : Fixes objects (getPop i : Act (World σ γ) Population) :=
  fetch_fixes _ i

theorem setGen_fixes (i : Nat) (g : γ) : Fixes objects (setGen i g : Act (World σ γ) Unit) :=
  Fixes.modify fun _ => rfl

theorem bulkLoop_fixes {δ : Type} {h : World σ γ → δ} {f : Rat → Act (World σ γ) (List Cell)}
    (hf : ∀ n, Fixes h (f n)) (obs : List Cell) : Fixes h (bulkLoop f obs) := by
  induction obs with
  | nil => exact Fixes.pure _
  | cons c obs ih =>
    exact (Fixes.ofPy _).bind fun n => (hf n).bind fun v => (Fixes.ofPy _).bind fun _ =>
      ih.bind fun _ => Fixes.pure _

theorem isArray_fixes {δ : Type} {h : World σ γ → δ} (g : GenRef) : Fixes h (isArray env g) := by
  cases g with
  | ref i => exact (fetch_fixes _ _).bind fun g => Fixes.pure _
  | _ => exact Fixes.pure _

theorem call_fixes {δ : Type} {h : World σ γ → δ} (hs : ∀ i g, Fixes h (setGen i g : Act (World σ γ) Unit))
    (g : GenRef) (q : Request) : Fixes h (call env g q) := by
  induction g generalizing q with
  | constant v =>
    cases q with
    | size n => exact Fixes.pure _
    | series obs => exact Fixes.pure _
    | samples array obs => exact Fixes.throw _
  | ref i =>
    cases q with
    | size n =>
      exact (fetch_fixes _ _).bind fun g => (Fixes.ofPy _).bind fun x => (hs _ _).bind fun _ => Fixes.pure _
    | series obs =>
      exact (fetch_fixes _ _).bind fun g => (Fixes.ofPy _).bind fun x => (hs _ _).bind fun _ => Fixes.pure _
    | samples array obs =>
      exact (fetch_fixes _ _).bind fun g => (Fixes.ofPy _).bind fun _ => (Fixes.ofPy _).bind fun x =>
        (hs _ _).bind fun _ => Fixes.pure _
  | mapped g f ih =>
    cases q with
    | size n => exact (ih _).bind fun v => Fixes.ofPy _
    | series obs => exact Fixes.throw _
    | samples array obs => exact Fixes.throw _
  | mappedVect g f ih =>
    cases q with
    | size n => exact (ih _).bind fun v => Fixes.ofPy _
    | series obs => exact Fixes.throw _
    | samples array obs => exact Fixes.throw _
  | flatmapped g dep ih1 ih2 =>
    cases q with
    | size n => exact (ih1 _).bind fun v => (isArray_fixes g).bind fun b => ih2 _
    | series obs => exact Fixes.throw _
    | samples array obs => exact Fixes.throw _
  | bulk g ih =>
    cases q with
    | size n => exact Fixes.throw _
    | series obs => exact bulkLoop_fixes (fun n => ih _) _
    | samples array obs => exact bulkLoop_fixes (fun n => ih _) _

theorem generate_fixes (g : GenRef) (n : Rat) : Fixes objects (generate env g n) :=
  call_fixes setGen_fixes _ _

theorem resetStory_fixes (s : Story σ) (ids : Option (List Val)) :
    Fixes objects (resetStory env s ids) := by
  rw [resetStory.eq_def]
  split
  · exact (Fixes.ofPy _).bind fun x => Fixes.pure _
  · exact (fetch_fixes _ _).bind fun g => (Fixes.ofPy _).bind fun x =>
      (setGen_fixes _ _).bind fun _ => Fixes.pure _
  · exact (Fixes.ofPy _).bind fun x => Fixes.pure _

theorem storyParams_fixes (ids : List Val) (size : Nat) (l : List (Val × StateGens)) :
    ∀ params, Fixes objects (storyParams env ids size l params) := by
  induction l with
  | nil => intro params; exact Fixes.pure _
  | cons x l ih =>
    intro params
    exact (generate_fixes _ _).bind fun _ => (generate_fixes _ _).bind fun _ =>
      (Fixes.ofPy _).bind fun _ => (Fixes.ofPy _).bind fun _ => (Fixes.ofPy _).bind fun _ => ih _

theorem newStory_fixes (cfg : StoryConfig) (p : Population) :
    Fixes objects (newStory env cfg p) := by
  refine (Fixes.ofPy _).bind fun _ => (storyParams_fixes _ _ _ _).bind fun _ => ?_
  rw [initialReset]
  exact Fixes.ite (resetStory_fixes _ _) (Fixes.pure _)

/-- a creation of a story leaves all the objects, and adds at most the story -/
theorem createStory_after (cfg : StoryConfig) (w : World σ γ) :
    ((createStory env cfg).after w).objects = w.objects ∨
    (∀ s ∈ w.stories, s.name ≠ cfg.name) ∧ ∃ s, s.name = cfg.name ∧
      ((createStory env cfg).after w).objects = (w.rels, w.pops, w.stories ++ [s]) := by
  cases h : createStory env cfg w with
  | ok n w' =>
    right
    rw [after_ok h]
    obtain ⟨h1, p, s, w1, h2, h3, rfl, rfl⟩ := createStory_ok h
    have h4 := newStory_fixes (env := env) cfg p w
    rw [after_ok h3] at h4
    obtain ⟨st, s0, w2, -, -, -, -, -, hn, -, -, -, -, -, -, -, -, h5⟩ := newStory_ok h3
    have hname : s.name = cfg.name := by
      rcases h5 with ⟨-, rfl, -⟩ | ⟨-, h5⟩
      · exact hn
      · rw [← hn]
        obtain ⟨-, -, h6, -⟩ := resetStory_ok h5
        rw [h6]
    simp only [objects, Prod.mk.injEq] at h4
    refine ⟨?_, s, hname, by simp only [objects, h4]⟩
    intro t ht hc
    rw [findStory, List.findIdx?_eq_none_iff] at h1
    simpa [hc] using h1 t ht
  | error e w' =>
    left
    rw [after_error h]
    rw [createStory] at h
    cases hf : w.findStory cfg.name with
    | some i =>
      rw [Act.bind_ok (FS.get_ok w), hf] at h
      cases h
      rfl
    | none =>
      rw [Act.bind_ok (FS.get_ok w), hf] at h
      simp only at h
      cases hp : (getPop cfg.population : Act (World σ γ) Population) w with
      | error e1 w1 =>
        rw [Act.bind_err hp] at h
        cases h
        have := getPop_fixes (σ := σ) (γ := γ) cfg.population w
        rwa [after_error hp] at this
      | ok p w1 =>
        rw [Act.bind_ok hp] at h
        have h1 := getPop_fixes (σ := σ) (γ := γ) cfg.population w
        rw [after_ok hp] at h1
        cases hs : newStory env cfg p w1 with
        | error e2 w2 =>
          rw [Act.bind_err hs] at h
          cases h
          have := newStory_fixes (env := env) cfg p w1
          rw [after_error hs] at this
          exact this.trans h1
        | ok s w2 =>
          rw [Act.bind_ok hs] at h
          cases h

end World

namespace Circus
open Act World
variable {σ γ : Type} {env : Env σ γ}

theorem onWorld_after {α : Type} (a : Act (World σ γ) α) (c : Circus σ γ) :
    (onWorld a).after c = { c with world := a.after c.world } := by
  rw [Act.after, Act.after, onWorld]
  cases a c.world <;> rfl

theorem onWorld_ok {α : Type} {a : Act (World σ γ) α} {c : Circus σ γ} {r : α} {w : World σ γ}
    (h : a c.world = .ok r w) : onWorld a c = .ok r { c with world := w } := by
  rw [onWorld, h]

theorem onWorld_error {α : Type} {a : Act (World σ γ) α} {c : Circus σ γ} {e : Err} {w : World σ γ}
    (h : a c.world = .error e w) : onWorld a c = .error e { c with world := w } := by
  rw [onWorld, h]

theorem newPopulation_fixes (init : PopInit) :
    Fixes World.objects (newPopulation env init) := by
  cases init with
  | ids l => exact Fixes.ofPy _
  | both => rw [newPopulation]; exact Fixes.ofPy _
  | neither => rw [newPopulation]; exact Fixes.ofPy _
  | generated g size =>
    exact Fixes.ite (Fixes.ofPy _) ((generate_fixes _ _).bind fun _ => (Fixes.ofPy _).bind fun _ =>
      Fixes.ofPy _)

/-- outcomes of a creation of a population -/
theorem createPopulation_cases (name : String) (init : PopInit) (c : Circus σ γ) :
    (c.populations.contains name = true ∧ createPopulation env name init c = .error .valueError c) ∨
    c.populations.contains name = false ∧
    ((∃ e w, newPopulation env init c.world = .error e w ∧ w.objects = c.world.objects ∧
        createPopulation env name init c = .error e { c with world := w }) ∨
     (∃ p w, newPopulation env init c.world = .ok p w ∧ w.objects = c.world.objects ∧
        createPopulation env name init c = .ok c.world.pops.length
          { c with
            world := { w with pops := w.pops ++ [p] }
            populations := c.populations.set name c.world.pops.length })) := by
  rw [createPopulation, Act.bind_ok (FS.get_ok c)]
  cases hc : c.populations.contains name with
  | true =>
    left
    rw [if_pos rfl]
    exact ⟨rfl, rfl⟩
  | false =>
    right
    refine ⟨rfl, ?_⟩
    rw [if_neg (by simp)]
    have hf := newPopulation_fixes (env := env) init c.world
    cases hp : newPopulation env init c.world with
    | error e w =>
      left
      rw [Act.after_error hp] at hf
      rw [Act.bind_err (onWorld_error hp)]
      exact ⟨e, w, rfl, hf, rfl⟩
    | ok p w =>
      right
      rw [Act.after_ok hp] at hf
      refine ⟨p, w, rfl, hf, ?_⟩
      have hl : w.pops = c.world.pops := congrArg (fun x => x.2.1) hf
      rw [Act.bind_ok (onWorld_ok hp), ← hl]
      rfl

theorem attachGenerator_cases (name : String) (g : Nat) (c : Circus σ γ) :
    (c.generators.contains name = true ∧ attachGenerator name g c = .error .valueError c) ∨
    (c.generators.contains name = false ∧
      attachGenerator name g c = .ok () { c with generators := c.generators.set name g }) := by
  rw [attachGenerator, Act.bind_ok (FS.get_ok c)]
  cases hc : c.generators.contains name with
  | true =>
    left
    rw [if_pos rfl]
    exact ⟨rfl, rfl⟩
  | false =>
    right
    rw [if_neg (by simp)]
    exact ⟨rfl, rfl⟩

end Circus
end Trumania
