import Verif.Spec.Cdr

/-!
# What the logs of test_cdr.py should say of the top-ups: who is topped up, and when
-/

namespace Trumania
namespace Cdr
open Spec
variable {σ γ : Type}

/-- how many rows of the log `logId` have `m` in the field `key` -/
def countOf (logId key : String) (m : Val) (logs : Logs) : Nat :=
  ((tablesOf logId logs).map fun t => t.rows.countP fun r => decide (cell t r key = .scalar m)).sum

/-- how many calls and messages of the number `m` are logged -/
def talks (m : Val) (logs : Logs) : Nat :=
  countOf "voice_cdr" "MSISDN_A" m logs + countOf "sms_cdr" "MSISDN_A" m logs

/-- how many top-ups of the number `m` are logged -/
def topUps (m : Val) (logs : Logs) : Nat := countOf "topups" "CUSTOMER_NUMBER" m logs

/-- the timer of a member in the story `k` -/
def timerIn (w : World σ γ) (k : Nat) (id : Val) : Option (Option Rat) :=
  (w.stories[k]?).bind fun s => timerOf s id

/-- the member is about to act in the story `k`, at the latest when its timer runs out -/
def Due (w : World σ γ) (k : Nat) (id : Val) : Prop := ∃ q : Rat, 0 ≤ q ∧ timerIn w k id = some (some q)

/-- nobody of the story `k` acts by itself: the timers are drawn at -1 -/
def Dormant (w : World σ γ) (k : Nat) : Prop :=
  ∃ s, w.stories[k]? = some s ∧ s.timerGen = .constant (.num (-1))

/-- the SIM `s` is the only one that has the number `m` -/
structure Numbered (w : World σ γ) (sims : Nat) (s m : Val) : Prop where
  has : ValueOf w sims "MSISDN" s (.scalar m)
  only : ∀ s', ValueOf w sims "MSISDN" s' (.scalar m) → s' = s

end Cdr
end Trumania
