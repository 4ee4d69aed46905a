import Verif.Model.AnyGen

/-!
# Generators that read one stream

What it means that the numbers of a numpy generator, and the values of the generators of a circus,
form one stream which successive calls cut in pieces.
-/

namespace Trumania
namespace Spec

/-- drawing `n + m` numbers is drawing `n`, then `m` from where the generator then is -/
def OneStream {α σ : Type} (draw : σ → Nat → List α × σ) : Prop :=
  ∀ s n m, draw s (n + m) = ((draw s n).1 ++ (draw (draw s n).2 m).1, (draw (draw s n).2 m).2)

/-- the draws of a numpy generator are the successive elements of a stream (numpy fills its arrays
one element after the other) -/
structure Streams {σ : Type} (R : Rng σ) : Prop where
  uniform : OneStream R.uniform
  randint : ∀ n, OneStream (fun s k => R.randint s n k)
  pareto : OneStream R.pareto

/-- successive calls `generator.generate(size=n)`, and all the values obtained -/
def inBatches {σ : Type} (R : Rng σ) : AnyGen σ → List Nat → Py (List Cell × AnyGen σ)
  | g, [] => .ok ([], g)
  | g, n :: ns => do
    let (v, g) ← AnyGen.generate R g n
    let (vs, g) ← inBatches R g ns
    .ok (v ++ vs, g)

/-- successive calls `generator.generate(observations=obs)`, and all the values obtained -/
def observeInBatches {σ : Type} (R : Rng σ) : AnyGen σ → List (List Cell) → Py (List Cell × AnyGen σ)
  | g, [] => .ok ([], g)
  | g, o :: os => do
    let (v, g) ← AnyGen.observe R g o
    let (vs, g) ← observeInBatches R g os
    .ok (v ++ vs, g)

/-- the generators whose values do not depend on how the calls are cut -/
def streamed {σ : Type} : AnyGen σ → Bool
  | .constant _ => true
  | .seq _ => true
  | .uniform _ _ _ => true
  | .choice _ _ _ => true
  | .pareto _ _ _ => true
  | _ => false

/-- an activity which is not above 2: its timer takes one uniform number at most -/
def notHigh (c : Cell) : Prop := ∀ q, c.asNum = .ok q → q ≤ 2

/-- the dependent generators whose values do not depend on how the observations are cut: triggers
must map observations one by one, and cyclic timers see no high activity -/
def streamedObs {σ : Type} (obs : List Cell) : AnyGen σ → Prop
  | .constant _ => True
  | .bulk _ => True
  | .trigger m _ => ∃ f, m = List.map f
  | .cyclic _ => ∀ c ∈ obs, notHigh c
  | _ => False

end Spec
end Trumania
