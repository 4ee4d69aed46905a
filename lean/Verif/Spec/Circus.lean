import Verif.Model.Circus

/-!
# Vocabulary of the properties on names of a circus
-/

namespace Trumania

/-- the state after an action, whether it succeeded or raised -/
def Act.after {W α : Type} (x : Act W α) (w : W) : W :=
  match x w with
  | .ok _ w' => w'
  | .error _ w' => w'

namespace Spec
variable {σ γ : Type}

/-- the population, generator or story a name stands for in a circus -/
def PopNamed (c : Circus σ γ) (name : String) (i : Nat) : Prop := Dict.get? c.populations name = some i
def GenNamed (c : Circus σ γ) (name : String) (i : Nat) : Prop := Dict.get? c.generators name = some i
def StoryNamed (c : Circus σ γ) (name : String) (i : Nat) : Prop :=
  ∃ s, c.world.stories[i]? = some s ∧ s.name = name

/-- anything that attaches, renames or removes nothing: runs, methods of the objects, ... -/
structure KeepsNames (c c' : Circus σ γ) : Prop where
  populations : c'.populations = c.populations
  generators : c'.generators = c.generators
  stories : c'.world.stories.map (·.name) = c.world.stories.map (·.name)

/-- A history of a circus: attempts of creation, successful or not, and anything else that does not
touch the names. -/
inductive Building (env : Env σ γ) : Circus σ γ → Circus σ γ → Prop
  | refl (c : Circus σ γ) : Building env c c
  | population {c c1 : Circus σ γ} (name : String) (init : PopInit) (h : Building env c c1) :
      Building env c ((Circus.createPopulation env name init).after c1)
  | story {c c1 : Circus σ γ} (cfg : World.StoryConfig) (h : Building env c c1) :
      Building env c ((Circus.createStory env cfg).after c1)
  | generator {c c1 : Circus σ γ} (name : String) (g : Nat) (h : Building env c c1) :
      Building env c ((Circus.attachGenerator name g).after c1)
  | other {c c1 c2 : Circus σ γ} (h : Building env c c1) (h2 : KeepsNames c1 c2) :
      Building env c c2

end Spec
end Trumania
