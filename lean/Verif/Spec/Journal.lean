import Verif.Spec.Fields

/-!
# What a log says: who acted, and when
-/

namespace Trumania
namespace Spec
variable {σ γ : Type}

/-- the built-in operations that neither drop nor repeat rows, and the chains of them -/
inductive KeepsRows (env : Env σ γ) (F Z : Nat → Prop) : Op (World σ γ) → Prop
  | adder {name : String} {op : Op (World σ γ)} (h : ColumnAdder env name op) : KeepsRows env F Z op
  | effect {op : Op (World σ γ)} (h : SideEffect env F Z op) : KeepsRows env F Z op
  | fieldLogger (logId : String) (cols exploded : List String) :
      KeepsRows env F Z (Ops.fieldLogger logId cols exploded)
  | applyFrame (sources namedAs : List String) (f : Frame → Py Frame)
      (hf : ∀ d r, d.index.Nodup → f d = .ok r → r.index.Nodup) :
      KeepsRows env F Z (Ops.applyFrame sources namedAs f)
  | lookup (pop : Nat) (i : String) (sel : Dict String String) :
      KeepsRows env F Z (Ops.lookup pop i sel)
  | chain (ops : List (Op (World σ γ))) (h : ∀ op ∈ ops, KeepsRows env F Z op) :
      KeepsRows env F Z (World.chain env.logSet ops)

/-- a date of the clock step that begins at `now`: its beginning, or a random whole second of it -/
def InStep (random : Bool) (now step d : Int) : Prop :=
  if random then (∃ k : Nat, d = now + k * 1000000000) ∧ d < now + step else d = now

/-- A story whose members are dated, in the field `time`, and then logged under `logId`, with at least
this field: nothing else in it makes this field or that of the members, nor logs under `logId`. If
`keep`, the operations before the logger keep all the rows. -/
def Journals (env : Env σ γ) (F Z : Nat → Prop) (idField time logId : String) (cols : List String)
    (random : Bool) (fmt : Int → Cell) (keep : Prop) (ops : List (Op (World σ γ))) : Prop :=
  ∃ pre mid post, time ∈ cols ∧
    ops = pre ++ Ops.timestamp env time random fmt ::
      (mid ++ Ops.fieldLogger logId cols [] :: post) ∧
    Clear idField time ∧
    (∀ op ∈ pre ++ mid, OpWithin env F Z (fun c => Clear time c ∧ Clear idField c)
      (fun _ => True) (· ≠ logId) op) ∧
    (∀ op ∈ post, OpWithin env F Z (fun _ => True) (fun _ => True) (· ≠ logId) op) ∧
    (keep → ∀ op ∈ pre ++ mid, KeepsRows env F Z op)

/-- a story that does not log under `logId` -/
def Silent (env : Env σ γ) (F Z : Nat → Prop) (logId : String) (ops : List (Op (World σ γ))) : Prop :=
  ∀ op ∈ ops, OpWithin env F Z (fun _ => True) (fun _ => True) (· ≠ logId) op

/-- the number of clock increments among the events -/
def ticks (l : List (Int × Event)) : Nat := l.countP fun e => e.2.story.isNone

end Spec
end Trumania
