import Verif.Spec.Slides

/-!
# Where the names, the ages and the quotes of the examples come from
-/

namespace Trumania
namespace Firsts
open Spec Cdr
open Slides (MayGive)
variable {σ γ : Type}

/-- The names and the ages of the persons were given by the generators of names and of ages, and the quotes, in the scripts
that have some, by the generator of sentences. -/
structure Given (env : Env σ γ) (g : Blog.Parts γ) (age : String) (quoted : Prop) (w : World σ γ) : Prop where
  names : ∀ i v, ValueOf w 0 "NAME" i v → ∃ seed, MayGive env (g.names seed) v
  ages : ∀ i v, ValueOf w 0 age i v → ∃ seed, MayGive env (g.ages seed) v
  quotes : quoted → ∀ o, ∀ x ∈ Blog.relationsAt o w 0, ∃ seed, MayGive env (g.quotes seed) (.scalar x.2.1)

end Firsts
end Trumania
