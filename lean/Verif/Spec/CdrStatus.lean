import Verif.Spec.Cdr

/-!
# What the status of a call or of a message should say of the cells
-/

namespace Trumania
namespace Cdr
open Spec
variable {σ γ : Type}

/-- A cell of the log names a cell of the network whose health `h` is such that the trigger, that was `g`, may
answer `b` to it. -/
def Accepts (env : Env σ γ) (g : γ) (w : World σ γ) (cells : Nat) (c : Cell) (b : Bool) : Prop :=
  ∀ x, c = .scalar x → ∃ h, ValueOf w cells "HEALTH" x h ∧ Replies env g h (.bool b)

/-- The status of a record: the call went through when the two cells let it. -/
def StatusOf (env : Env σ γ) (g : γ) (w : World σ γ) (cells : Nat) (t : Frame) (r : Row) : Prop :=
  ∃ a b : Bool, cell t r "STATUS" = .str (if a = true ∧ b = true then "OK" else "DROPPED") ∧
    Accepts env g w cells (cell t r "CELL_A") a ∧ Accepts env g w cells (cell t r "CELL_B") b

end Cdr
end Trumania
