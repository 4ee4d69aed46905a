import Verif.Spec.BuiltIn
import Verif.Spec.Gen
import Verif.Spec.Run
import Verif.Spec.Chain

/-!
# What an operation may touch: the fields it adds, the generators it draws from, the ids it logs under
-/

namespace Trumania
namespace Spec
variable {σ γ : Type}

/-- adding the column `c` does not make any column `name`: it is not its name, nor the name a merge gives
to `c` or to an existing column `c` -/
def Clear (name c : String) : Prop := c ≠ name ∧ c ++ "_x" ≠ name ∧ c ++ "_y" ≠ name

/-- the built-in operations, and the chains of them, that add only fields in `A`, are given only
generators in `D` and log only under the ids in `L` -/
inductive OpWithin (env : Env σ γ) (F Z : Nat → Prop) (A : String → Prop) (D : Nat → Prop)
    (L : String → Prop) : Op (World σ γ) → Prop
  | randomValues (g : GenRef) (n : String) (q : Option String) (hn : A n) (hg : ∀ j ∈ refs g, D j) :
      OpWithin env F Z A D L (Ops.randomValues env g n q)
  | randomValuesFromField (g : GenRef) (n observed : String) (hn : A n) (hg : ∀ j ∈ refs g, D j) :
      OpWithin env F Z A D L (Ops.randomValuesFromField env g n observed)
  | timestamp (n : String) (random : Bool) (fmt : Int → Cell) (hn : A n) :
      OpWithin env F Z A D L (Ops.timestamp env n random fmt)
  | neighbourhoodSize (rel : Nat) (f n : String) (hn : A n) :
      OpWithin env F Z A D L (Ops.neighbourhoodSize rel f n)
  | applySeries (sources : List String) (n : String) (f : List (List Cell) → Py (List Cell)) (hn : A n) :
      OpWithin env F Z A D L (Ops.applySeries sources n f)
  | effect {op : Op (World σ γ)} (h : SideEffect env F Z op) : OpWithin env F Z A D L op
  | fieldLogger (logId : String) (cols exploded : List String) (hl : L logId) :
      OpWithin env F Z A D L (Ops.fieldLogger logId cols exploded)
  | dropRow (field : String) : OpWithin env F Z A D L (Ops.dropRow field)
  | applyFrame (sources namedAs : List String) (f : Frame → Py Frame)
      (hf : ∀ d r, f d = .ok r → (d.index.Nodup → r.index.Nodup) ∧ (Rect d → Rect r) ∧ (∀ c ∈ r.cols, A c))
      (hn : ∀ c ∈ namedAs, A c) :
      OpWithin env F Z A D L (Ops.applyFrame sources namedAs f)
  | selectOne (rel : Nat) (f n : String) (o p d : Bool) (weight : Option (Dict Val Rat))
      (hn : A n) : OpWithin env F Z A D L (Ops.selectOne env rel f n o p d weight)
  | selectAll (rel : Nat) (f n : String) (hn : A n) :
      OpWithin env F Z A D L (Ops.selectAll env rel f n)
  | selectMany (rel : Nat) (f n q : String) (p d : Bool) (hn : A n) :
      OpWithin env F Z A D L (Ops.selectMany env rel f n q p d)
  | lookup (pop : Nat) (i : String) (sel : Dict String String) (hd : (sel.map Prod.snd).Nodup)
      (hn : ∀ s ∈ sel, A s.2) : OpWithin env F Z A D L (Ops.lookup pop i sel)
  | chain (ops : List (Op (World σ γ))) (h : ∀ op ∈ ops, OpWithin env F Z A D L op) :
      OpWithin env F Z A D L (World.chain env.logSet ops)

/-- each row of `out` is a row of `data`, with the same value in the field `name`, and `out` has this
field if `data` has it -/
def FieldKept (name : String) (data out : Frame) : Prop :=
  (name ∈ out.cols ↔ name ∈ data.cols) ∧
  ∀ r' ∈ out.rows, ∃ r ∈ data.rows, r.idx = r'.idx ∧ cell out r' name = cell data r name

/-- no story schedules its members with generator `i` -/
def NoTimerUses (i : Nat) (w : World σ γ) : Prop := ∀ s ∈ w.stories, i ∉ refs s.timerGen

/-- a story that stamps what its members do with an id of generator `i`, in the field `name`, and
logs it under `logId`: nothing else in it adds this field, draws from `i` or logs under `logId` -/
def Stamps (env : Env σ γ) (F Z : Nat → Prop) (i : Nat) (name logId : String)
    (ops : List (Op (World σ γ))) : Prop :=
  ∃ pre mid post cols, name ∈ cols ∧
    ops = pre ++ Ops.randomValues env (.ref i) name none ::
      (mid ++ Ops.fieldLogger logId cols [] :: post) ∧
    (∀ op ∈ pre ++ mid, OpWithin env F Z (Clear name) (· ≠ i) (· ≠ logId) op) ∧
    ∀ op ∈ post, OpWithin env F Z (fun _ => True) (· ≠ i) (· ≠ logId) op

/-- a story that neither draws from generator `i` nor logs under `logId` -/
def Bystander (env : Env σ γ) (F Z : Nat → Prop) (i : Nat) (logId : String)
    (ops : List (Op (World σ γ))) : Prop :=
  ∀ op ∈ ops, OpWithin env F Z (fun _ => True) (· ≠ i) (· ≠ logId) op

/-- the values of a field in all the tables logged under an id -/
def loggedValues (logId name : String) (evs : List (Int × Event)) : List Cell :=
  (tablesOf logId (emitted evs)).flatMap (cellsOf · name)

end Spec
end Trumania
