import Verif.Spec.Journal
import Verif.Spec.Cdr
import Verif.Model.Shop

/-!
# Stories whose timer is a constant: who acts at which execution, and what a log of them tells
-/

namespace Trumania
namespace Spec
variable {σ γ : Type}

/-- the dates at which a story is executed, in order -/
def execDates (i : Nat) (evs : List (Int × Event)) : List Int :=
  evs.filterMap fun e => if e.2.story = some i then some e.1 else none

/-- the elements of a list whose position, counted from `k + 1`, is a multiple of `n` -/
def everyFrom {α : Type} (n k : Nat) : List α → List α
  | [] => []
  | x :: l => if n ∣ k + 1 then x :: everyFrom n (k + 1) l else everyFrom n (k + 1) l

/-- every `n`-th element of a list: the `n`-th, the `2n`-th, and so on -/
def every {α : Type} (n : Nat) (l : List α) : List α := everyFrom n 0 l

/-- The story `i` of `w` draws the timer `c` for any of its members, and resets the timer of those that act; no member
is of activity 0. -/
structure Beats (w : World σ γ) (i c : Nat) (ids : List Val) : Prop where
  story : ∃ s, w.stories[i]? = some s ∧ s.ids = ids ∧ s.timerGen = .constant (.num c) ∧ s.autoReset = true ∧
    s.states.length = 1 ∧ ∀ id ∈ s.ids, ∀ b p, s.params.get? id = some b →
      b.get? (.str "default") = some p → p.activity ≠ 0
  nodup : ids.Nodup

/-- all the members of the story `i` have the timer `q` -/
def AllWait (w : World σ γ) (i : Nat) (q : Rat) : Prop :=
  ∃ s, w.stories[i]? = some s ∧ ∀ id ∈ s.ids, timerOf s id = some (some q)

/-- who is named by the records of a log, in the field `key`, and what they have in the field `time` -/
def whoWhen (logId key time : String) (logs : Logs) : List (Cell × Cell) :=
  (tablesOf logId logs).flatMap fun t => t.rows.map fun r => (cell t r key, cell t r time)

end Spec
end Trumania
