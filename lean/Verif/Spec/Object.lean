import Verif.Spec.Api

/-!
# Generator objects and what they answer
-/

namespace Trumania
namespace Spec
variable {σ γ : Type}

/-- what the object `g` may have become: it generated values, or the clock was incremented -/
inductive Descends (env : Env σ γ) (g : γ) : γ → Prop
  | refl : Descends env g g
  | generate {x x' : γ} {n : Rat} {v : List Cell} (h : Descends env g x) (e : env.sem.generate x n = .ok (v, x')) :
      Descends env g x'
  | observe {x x' : γ} {obs v : List Cell} (h : Descends env g x) (e : env.sem.observe x obs = .ok (v, x')) :
      Descends env g x'
  | tick {x : γ} (h : Descends env g x) : Descends env g (env.sem.tick x)

/-- the reference `r` is, in `w`, to an object that was `g` -/
def Began (env : Env σ γ) (w : World σ γ) (r : GenRef) (g : γ) : Prop :=
  ∃ j x, r = .ref j ∧ w.gens[j]? = some x ∧ Descends env g x

/-- the object that was `g`, given some observations among which `h`, may answer `v` to it -/
def Replies (env : Env σ γ) (g : γ) (h v : Cell) : Prop :=
  ∃ x x' obs vals, Descends env g x ∧ env.sem.observe x obs = .ok (vals, x') ∧ (h, v) ∈ obs.zip vals

/-- the object that was `g` may draw `v` -/
def CanDraw (env : Env σ γ) (g : γ) (v : Cell) : Prop :=
  ∃ x x' n vals, Descends env g x ∧ env.sem.generate x n = .ok (vals, x') ∧ v ∈ vals

end Spec
end Trumania
