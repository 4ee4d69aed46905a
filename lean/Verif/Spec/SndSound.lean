import Verif.Model.Snd
import Verif.Model.AnyGen
import Verif.Spec.Typed
import Verif.Spec.Begins

/-!
# What the generators of the SND scenario must give
-/

namespace Trumania
namespace Snd
open Spec
variable {σ : Type}

/-- the timers of the scenario never raise -/
abbrev TimersOk (env : Env σ (AnyGen σ)) (g : Parts (AnyGen σ)) : Prop :=
  ∀ seed, AlwaysAnswers env (g.timer seed) (fun c => ∃ q, c = .scalar (.num q)) IsAmount

/-- What the generator objects of the scenario must do for nothing to raise: the ids of SIMs and of reviews are always
given, and the texts of reviews; the timers are always drawn; the weights of the dealers are not negative; the sizes of
bulk purchases are whole numbers. -/
structure Sound (env : Env σ (AnyGen σ)) (g : Parts (AnyGen σ)) : Prop where
  sims : AlwaysGives env g.simIds (IdIn fun _ => True)
  timers : TimersOk env g
  weights : ∀ x, Descends env g.agentWeights x → ∀ n cells x', env.sem.generate x n = .ok (cells, x') →
    ∀ c ∈ cells, ∀ v, c.asNum = .ok v → 0 ≤ v
  sizes : ∀ seed x, Descends env (g.bulkSizes seed) x → ∀ n cells x', env.sem.generate x n = .ok (cells, x') →
    ∀ c ∈ cells, IsWhole c
  reviews : AlwaysGives env g.reviewIds (IdIn fun _ => True)
  texts : ∀ seed, AlwaysGives env (g.reviewTexts seed) fun _ => True

end Snd
end Trumania
