import Verif.Spec.Frame
import Verif.Model.Ops

/-!
# The built-in operations
-/

namespace Trumania
namespace Spec
open Ops
variable {σ γ : Type}

/-- operations that add the column `name`, with one value per row of the story data -/
inductive ColumnAdder (env : Env σ γ) (name : String) : Op (World σ γ) → Prop
  | randomValues (g : GenRef) (quantity : Option String) :
      ColumnAdder env name (Ops.randomValues env g name quantity)
  | randomValuesFromField (g : GenRef) (observed : String) :
      ColumnAdder env name (Ops.randomValuesFromField env g name observed)
  | timestamp (random : Bool) (fmt : Int → Cell) :
      ColumnAdder env name (Ops.timestamp env name random fmt)
  | neighbourhoodSize (rel : Nat) (fromField : String) :
      ColumnAdder env name (Ops.neighbourhoodSize rel fromField name)
  | applySeries (sources : List String) (f : List (List Cell) → Py (List Cell)) :
      ColumnAdder env name (Ops.applySeries sources name f)

/-- Operations that change objects but not the story data, and log nothing. `F` and `Z`: the stories
in which they may force members and reset timers. -/
inductive SideEffect (env : Env σ γ) (F Z : Nat → Prop) : Op (World σ γ) → Prop
  | relAdd (rel : Nat) (f i : String) : SideEffect env F Z (Ops.relAdd env rel f i)
  | relAddGrouped (rel : Nat) (f i : String) : SideEffect env F Z (Ops.relAddGrouped env rel f i)
  | relRemove (rel : Nat) (f i : String) : SideEffect env F Z (Ops.relRemove rel f i)
  | attrUpdate (pop : Nat) (name i c : String) : SideEffect env F Z (Ops.attrUpdate pop name i c)
  | attrAdd (pop : Nat) (name i a : String) (subtract : Bool) :
      SideEffect env F Z (Ops.attrAdd pop name i a subtract)
  | popUpdate (pop : Nat) (i : String) (copy : Dict String String) :
      SideEffect env F Z (Ops.popUpdate pop i copy)
  | forceActNext (story : Nat) (i : String) (cond : Option String) (h : F story) :
      SideEffect env F Z (Ops.forceActNext story i cond)
  | resetTimers (story : Nat) (i : Option String) (h : Z story) :
      SideEffect env F Z (Ops.resetTimers env story i)
  | transitToState (story : Nat) (i : String) (src : StateSource) (cond : Option String) :
      SideEffect env F Z (Ops.transitToState story i src cond)
  | maybeBackToDefault (story : Nat) : SideEffect env F Z (Ops.maybeBackToDefault env story)

/-- all the built-in operations, and the chains of them -/
inductive BuiltIn (env : Env σ γ) (F Z : Nat → Prop) : Op (World σ γ) → Prop
  | adder {name : String} {op : Op (World σ γ)} (h : ColumnAdder env name op) :
      BuiltIn env F Z op
  | effect {op : Op (World σ γ)} (h : SideEffect env F Z op) : BuiltIn env F Z op
  | fieldLogger (logId : String) (cols exploded : List String) :
      BuiltIn env F Z (Ops.fieldLogger logId cols exploded)
  | dropRow (field : String) : BuiltIn env F Z (Ops.dropRow field)
  /-- `Apply` with a user function on frames that keeps the labels unique -/
  | applyFrame (sources namedAs : List String) (f : Frame → Py Frame)
      (hf : ∀ d r, d.index.Nodup → f d = .ok r → r.index.Nodup) :
      BuiltIn env F Z (Ops.applyFrame sources namedAs f)
  | selectOne (rel : Nat) (f name : String) (o p d : Bool) (weight : Option (Dict Val Rat)) :
      BuiltIn env F Z (Ops.selectOne env rel f name o p d weight)
  | selectAll (rel : Nat) (f name : String) : BuiltIn env F Z (Ops.selectAll env rel f name)
  | selectMany (rel : Nat) (f name q : String) (p d : Bool) :
      BuiltIn env F Z (Ops.selectMany env rel f name q p d)
  | lookup (pop : Nat) (i : String) (sel : Dict String String) :
      BuiltIn env F Z (Ops.lookup pop i sel)
  | chain (ops : List (Op (World σ γ))) (h : ∀ op ∈ ops, BuiltIn env F Z op) :
      BuiltIn env F Z (World.chain env.logSet ops)

end Spec
end Trumania
