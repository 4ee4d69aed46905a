import Verif.Spec.Story
import Verif.Spec.Object

/-!
# Stories that begin, and generators that always answer
-/

namespace Trumania
namespace Spec
variable {σ γ : Type}

/-- A story that begins: its members are `ids`, all in the default state, and they have parameters for that state and for
the others that the story has. -/
structure Begins (s : Story σ) (ids : List Val) (others : Val → Prop) : Prop where
  members : s.ids = ids
  default : ∀ i ∈ ids, stateOf s i = some (.str "default")
  params : ∀ i ∈ ids, ∀ st, st = .str "default" ∨ others st →
    ∃ ps y, s.params.get? i = some ps ∧ ps.get? st = some y

/-- Asked for any number of values, now or later, the generator gives as many values, of the kind `P`. -/
def AlwaysGives (env : Env σ γ) (g : γ) (P : Cell → Prop) : Prop :=
  ∀ x, Descends env g x → ∀ n : Nat, ∃ cells x', env.sem.generate x (n : Rat) = .ok (cells, x') ∧ cells.length = n ∧
    ∀ c ∈ cells, P c

/-- Given observations of the kind `A`, now or later, the generator gives as many values, of the kind `P`. -/
def AlwaysAnswers (env : Env σ γ) (g : γ) (A P : Cell → Prop) : Prop :=
  ∀ x, Descends env g x → ∀ obs, (∀ c ∈ obs, A c) → ∃ cells x', env.sem.observe x obs = .ok (cells, x') ∧
    cells.length = obs.length ∧ ∀ c ∈ cells, P c

end Spec
end Trumania
