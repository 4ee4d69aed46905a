import Verif.Spec.Story
import Verif.Model.Ops
import Mathlib.Logic.Relation

/-!
# Histories of a circus

What user code, built-in operations and executions of stories can do to the stories of a circus, as
relations between worlds. Operations are arbitrary functions; those allowed in a history are the
ones which change stories only through the methods of the class `Story` (`Respects`).
-/

namespace Trumania
namespace Spec
variable {σ γ : Type}

/-- no assumption on the generators -/
def anyGens : List γ → Prop := fun _ => True

/-- `G` is kept by the generators of a circus between two increments of the clock: drawing from a
generator preserves it -/
structure GenKept (env : Env σ γ) (G : List γ → Prop) : Prop where
  generate : ∀ gens (j : Nat) g n v g', G gens → gens[j]? = some g →
    env.sem.generate g n = .ok (v, g') → G (gens.set j g')
  observe : ∀ gens (j : Nat) g obs v g', G gens → gens[j]? = some g →
    env.sem.observe g obs = .ok (v, g') → G (gens.set j g')

/-- `G` is an invariant of the generators of a circus: incrementing the clock preserves it too -/
structure GenInv (env : Env σ γ) (G : List γ → Prop) : Prop extends GenKept env G where
  tick : ∀ gens, G gens → G (gens.map env.sem.tick)

/-- One call: of a method of a story, or of anything that leaves the stories alone. `F j id` tells
who may be forced in story `j`, `Z j id` whose timer may be reset in story `j`, `G` what remains true
of the generators. -/
inductive Api (env : Env σ γ) (F Z : Nat → Val → Prop) (G : List γ → Prop) :
    World σ γ → World σ γ → Prop
  /-- anything that does not touch the stories -/
  | rest {w w' : World σ γ} (h : w'.stories = w.stories) (hG : G w.gens → G w'.gens) :
      Api env F Z G w w'
  /-- `force_act_next` -/
  | force {w : World σ γ} {j : Nat} {l : List Val} {s s' : Story σ}
      (hs : w.stories[j]? = some s) (hF : ∀ id ∈ l, F j id) (h : s.forceActNext l = .ok s') :
      Api env F Z G w { w with stories := w.stories.set j s' }
  /-- `reset_timers` -/
  | reset {w w' : World σ γ} {j : Nat} {l : Option (List Val)} {s : Story σ}
      (hs : w.stories[j]? = some s) (hZ : ∀ id ∈ l.getD s.ids, Z j id)
      (h : World.resetTimers env j l w = .ok () w') : Api env F Z G w w'
  /-- `transit_to_state` -/
  | transit {w : World σ γ} {j : Nat} {l st : List Val} {s s' : Story σ}
      (hs : w.stories[j]? = some s) (h : s.transitToState l st = .ok s') :
      Api env F Z G w { w with stories := w.stories.set j s' }
  /-- the return to the default state -/
  | back {w : World σ γ} {j : Nat} {l : List Val} {s s' : Story σ}
      (hs : w.stories[j]? = some s) (h : s.maybeBackToDefault env.R l = .ok s') :
      Api env F Z G w { w with stories := w.stories.set j s' }

/-- any number of calls -/
def Apis (env : Env σ γ) (F Z : Nat → Val → Prop) (G : List γ → Prop) :
    World σ γ → World σ γ → Prop :=
  Relation.ReflTransGen (Api env F Z G)

/-- an operation that acts on stories through their methods only -/
def Respects (env : Env σ γ) (F Z : Nat → Val → Prop) (G : List γ → Prop) (op : Op (World σ γ)) :
    Prop :=
  ∀ data w out w', op data w = .ok out w' → Apis env F Z G w w'

/-- A history of a circus: user code, creations of stories, increments of the clock, and executions
of the stories `j` such that `E j`, the operations of which may reset `Z w j` when executed in `w`. -/
inductive History (env : Env σ γ) (F : Nat → Val → Prop)
    (Z : World σ γ → Nat → Nat → Val → Prop) (E : Nat → Prop) (G : List γ → Prop) :
    World σ γ → World σ γ → Prop
  | refl (w : World σ γ) : History env F Z E G w w
  | api {w w1 w2 : World σ γ} (h : History env F Z E G w w1)
      (h2 : Api env F (fun _ _ => True) G w1 w2) : History env F Z E G w w2
  | create {w w1 w2 : World σ γ} {s : Story σ} (h : History env F Z E G w w1)
      (h2 : w2.stories = w1.stories ++ [s]) (hG : G w1.gens → G w2.gens) : History env F Z E G w w2
  | tick {w w1 : World σ γ} (h : History env F Z E G w w1) :
      History env F Z E G w (nextStep env w1)
  | exec {w w1 w2 : World σ γ} {j : Nat} {ops : List (Op (World σ γ))} {logs : Logs}
      (h : History env F Z E G w w1) (hj : E j)
      (hops : ∀ op ∈ ops, Respects env F (Z w1 j) G op)
      (h2 : World.execute env ops j w1 = .ok logs w2) : History env F Z E G w w2

/-- the story `i` of `w` -/
def storyAt (w : World σ γ) (i : Nat) : Option (Story σ) := w.stories[i]?

/-- `k` executions of the story `i`, none of which touches the timer of `id`, and any number of other
changes of the world that do not touch it either -/
inductive Unattended (env : Env σ γ) (i : Nat) (id : Val) : World σ γ → Nat → World σ γ → Prop
  | refl (w : World σ γ) : Unattended env i id w 0 w
  | other {w w1 w2 : World σ γ} {k : Nat} {s1 s2 : Story σ} (h : Unattended env i id w k w1)
      (h1 : w1.stories[i]? = some s1) (h2 : w2.stories[i]? = some s2) (hids : s2.ids = s1.ids)
      (ht : timerOf s2 id = timerOf s1 id) : Unattended env i id w k w2
  | exec {w w1 wo w2 : World σ γ} {k : Nat} {s1 so : Story σ} {ops : List (Op (World σ γ))}
      {logs : Logs} (h : Unattended env i id w k w1)
      (h2 : World.execute env ops i w1 = .ok logs w2)
      (h1 : w1.stories[i]? = some s1) (hafter : AfterOps env ops i w1 logs wo)
      (ho : wo.stories[i]? = some so) (hids : so.ids = s1.ids)
      (ht : timerOf so id = timerOf s1 id) (hf : id ∉ so.forced) :
      Unattended env i id w (k + 1) w2

end Spec
end Trumania
