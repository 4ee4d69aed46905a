import Verif.Spec.Object
import Verif.Spec.CdrTrigger

/-! Specification: when the buyers of a supply network come back. -/

namespace Trumania
namespace Spec
variable {σ γ : Type}

/-- The member `id` of the story `k` gets a new timer between `w` and `w'`: the one that the generator of the story
answers to the activity that the member then has, or -1 if this activity is zero. -/
def Retimed (env : Env σ γ) (w w' : World σ γ) (k : Nat) (id : Val) : Prop :=
  ∃ s s' p, w.stories[k]? = some s ∧ w'.stories[k]? = some s' ∧ paramsOf s' id = some p ∧
    (p.activity = 0 → timerOf s' id = some (some (-1))) ∧
    (p.activity ≠ 0 → ∃ v, (∀ g, Began env w s.timerGen g → Replies env g (.num p.activity) v) ∧
      ((∃ q, v = .num q ∧ timerOf s' id = some (some q)) ∨ (v = .na ∧ timerOf s' id = some none)))

/-- some row of the tables logged under `log` is that of `id` and tells that its purchase failed -/
def FailedIn (log : String) (logs : Logs) (id : Val) : Prop :=
  ∃ t ∈ tablesOf log logs, ∃ r ∈ t.rows, cell t r "AGENT" = .scalar id ∧ cell t r "FAILED_SALE" = .bool true

end Spec
end Trumania
