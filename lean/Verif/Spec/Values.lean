import Verif.Spec.Fields
import Verif.Model.AnyGen

/-!
# What the generators can give
-/

namespace Trumania
namespace Spec

/-- the values a generator can give, from its parameters only -/
def gives {σ : Type} : AnyGen σ → Cell → Prop
  | .constant v, c => c = v
  | .fixed l, c => c ∈ l
  | .seq g, c => ∃ k : Int, c = Cell.str (buildId g.pre g.maxLength k)
  | .uniform lo hi _, c => ∃ u : Rat, 0 ≤ u ∧ u < 1 ∧ c = Cell.num (lo + (hi - lo) * u)
  -- one of the values, of positive probability
  | .choice a p _, c => ∃ (k : Nat) (x : Val), a[k]? = some x ∧ c = .scalar x ∧
      ∀ ps, p = some ps → ∃ y, ps[k]? = some y ∧ 0 < y
  | .pareto xmin false _, c => ∃ x : Rat, 1 ≤ x ∧ c = Cell.num (x * xmin)
  | .pareto xmin true _, c => ∃ x : Rat, 1 ≤ x ∧ c = Cell.num (pyInt (x * xmin) : Int)
  -- one of the numbers left
  | .msisdn g _, c => ∃ e ∈ g.available, ∃ p : String, g.pref[e.2]? = some p ∧
      c = Cell.str (g.cc ++ p ++ String.ofList (zfill (pyStr e.1) g.length))
  -- a number of steps to wait, or never
  | .cyclic _, c => c = Cell.na ∨ ∃ k : Nat, c = Cell.num k
  | .trigger _ _, c => ∃ b : Bool, c = Cell.bool b
  | .bulk g, c => ∃ l : List Val, c = .list l ∧ ∀ x ∈ l, gives g (.scalar x)

/-- the values a generator of a circus can give, when its generator objects are `gens` -/
def givesRef {σ : Type} (gens : List (AnyGen σ)) : GenRef → Cell → Prop
  | .constant v, c => c = v
  | .ref i, c => ∃ g, gens[i]? = some g ∧ gives g c
  | .mapped g f, c => ∃ u, givesRef gens g u ∧ f u = .ok c
  -- the function maps the whole column
  | .mappedVect _ f, c => ∃ us vs, f us = .ok vs ∧ c ∈ vs
  | .flatmapped _ dep, c => givesRef gens dep c
  | .bulk g, c => ∃ l : List Val, c = .list l ∧ ∀ x ∈ l, givesRef gens g (.scalar x)

/-- a story that draws a field from a generator and logs it -/
def Draws {σ : Type} (env : Env σ (AnyGen σ)) (F Z : Nat → Prop) (g : GenRef) (name logId : String)
    (ops : List (Op (World σ (AnyGen σ)))) : Prop :=
  ∃ pre mid post cols put, name ∈ cols ∧
    (put = Ops.randomValues env g name none ∨ ∃ observed, put = Ops.randomValuesFromField env g name observed) ∧
    ops = pre ++ put :: (mid ++ Ops.fieldLogger logId cols [] :: post) ∧
    (∀ op ∈ pre ++ mid, OpWithin env F Z (Clear name) (fun _ => True) (· ≠ logId) op) ∧
    ∀ op ∈ post, OpWithin env F Z (fun _ => True) (fun _ => True) (· ≠ logId) op

/-- a story that does not log under this id -/
def SilentOn {σ : Type} (env : Env σ (AnyGen σ)) (F Z : Nat → Prop) (logId : String)
    (ops : List (Op (World σ (AnyGen σ)))) : Prop :=
  ∀ op ∈ ops, OpWithin env F Z (fun _ => True) (fun _ => True) (· ≠ logId) op

end Spec
end Trumania
