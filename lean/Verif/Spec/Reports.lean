import Verif.Spec.Periodic

/-!
# The steps of examples/tutorial/example2.py, and when their points of sale report
-/

namespace Trumania
namespace Shop
open Spec
variable {σ γ : Type}

/-- the six scenarios of the example (examples/tutorial/example2.py:407-483) -/
inductive Step
  | one | two | three | threeBis | four | five

/-- what each of them builds -/
def Step.build (env : Env σ γ) (p : Params) (g : Parts γ) (day time : Int → Cell) :
    Step → Act (Circus σ γ) (List (List (Op (World σ γ))))
  | .one => step1 env p g day
  | .two => step2 env p g day
  | .three => step3 env p g day
  | .threeBis => step3bis env p g day
  | .four => step4 env p g day
  | .five => step5 env p g day time

/-- The dates of the reports in a run of `total` steps from `start` on, if the points of sale report every `n` steps:
those of the steps `n`, `2n`, and so on, counted from 1. -/
def reportDates (start step : Int) (n total : Nat) : List Int :=
  (List.range (total / n)).map fun r => start + (((r + 1) * n - 1 : Nat) : Int) * step

/-- The story `i` is that of the reports of the points of sale `ids`, which report every `n` executions. -/
structure Reporting (env : Env σ γ) (chains : List (List (Op (World σ γ)))) (w : World σ γ) (i n : Nat) (ids : List Val)
    (day : Int → Cell) : Prop where
  report : ∃ items, chains[i]? = some (reportOps env day i items)
  others : ∀ (j : Nat) ops, j ≠ i → chains[j]? = some ops → Silent env (· ≠ i) (· ≠ i) "report" ops
  field : ∀ s, w.stories[i]? = some s → s.idField = "POS_ID"
  beats : ∃ k, n = k + 1 ∧ Beats w i k ids ∧ AllWait w i k

end Shop
end Trumania
