import Verif.Spec.Journal
import Verif.Spec.Relationship

/-!
# Stocks: relationships from owners to the items they hold
-/

namespace Trumania
namespace Spec
variable {σ γ : Type}

/-- the (owner, item) pairs of the relationship `i`, with repetitions -/
def stockAt (o : Orders) (w : World σ γ) (i : Nat) : List (Val × Val) :=
  match w.rels[i]? with
  | none => []
  | some r => (r.get_relations o).map fun x => (x.1, x.2.1)

/-- all the items of the stocks, with repetitions, whoever holds them -/
def holdings (o : Orders) (stocks : List Nat) (w : World σ γ) : List Val :=
  stocks.flatMap fun i => (stockAt o w i).map Prod.snd

/-- the stocks exist, and were made by the methods of relationships -/
def StocksOk (env : Env σ γ) (stocks : List Nat) (w : World σ γ) : Prop :=
  ∀ i ∈ stocks, ∃ r, w.rels[i]? = some r ∧ Relationship.Reachable env.R r

/-- the built-in operations, and the chains of them, that are given none of the relationships `S` to
change: neither to add to, nor to pop from -/
inductive Apart (env : Env σ γ) (S : Nat → Prop) : Op (World σ γ) → Prop
  | adder {name : String} {op : Op (World σ γ)} (h : ColumnAdder env name op) : Apart env S op
  | relAdd (rel : Nat) (f i : String) (h : ¬S rel) : Apart env S (Ops.relAdd env rel f i)
  | relAddGrouped (rel : Nat) (f i : String) (h : ¬S rel) : Apart env S (Ops.relAddGrouped env rel f i)
  | relRemove (rel : Nat) (f i : String) : Apart env S (Ops.relRemove rel f i)
  | attrUpdate (pop : Nat) (name i c : String) : Apart env S (Ops.attrUpdate pop name i c)
  | attrAdd (pop : Nat) (name i a : String) (subtract : Bool) :
      Apart env S (Ops.attrAdd pop name i a subtract)
  | popUpdate (pop : Nat) (i : String) (copy : Dict String String) :
      Apart env S (Ops.popUpdate pop i copy)
  | forceActNext (story : Nat) (i : String) (cond : Option String) :
      Apart env S (Ops.forceActNext story i cond)
  | resetTimers (story : Nat) (i : Option String) : Apart env S (Ops.resetTimers env story i)
  | transitToState (story : Nat) (i : String) (src : Ops.StateSource) (cond : Option String) :
      Apart env S (Ops.transitToState story i src cond)
  | maybeBackToDefault (story : Nat) : Apart env S (Ops.maybeBackToDefault env story)
  | fieldLogger (logId : String) (cols exploded : List String) :
      Apart env S (Ops.fieldLogger logId cols exploded)
  | dropRow (field : String) : Apart env S (Ops.dropRow field)
  | applyFrame (sources namedAs : List String) (f : Frame → Py Frame) :
      Apart env S (Ops.applyFrame sources namedAs f)
  | selectOne (rel : Nat) (f name : String) (o p d : Bool) (weight : Option (Dict Val Rat))
      (h : p = true → ¬S rel) : Apart env S (Ops.selectOne env rel f name o p d weight)
  | selectAll (rel : Nat) (f name : String) : Apart env S (Ops.selectAll env rel f name)
  | selectMany (rel : Nat) (f name q : String) (p d : Bool) (h : ¬S rel) :
      Apart env S (Ops.selectMany env rel f name q p d)
  | lookup (pop : Nat) (i : String) (sel : Dict String String) : Apart env S (Ops.lookup pop i sel)
  | chain (ops : List (Op (World σ γ))) (h : ∀ op ∈ ops, Apart env S op) :
      Apart env S (World.chain env.logSet ops)

/-- an operation that stands between the two halves of a move of the field `item`: it keeps the rows
and the field, and changes no stock -/
def Between (env : Env σ γ) (S : Nat → Prop) (item : String) (op : Op (World σ γ)) : Prop :=
  Apart env S op ∧ KeepsRows env (fun _ => True) (fun _ => True) op ∧
    OpWithin env (fun _ => True) (fun _ => True) (Clear item) (fun _ => True) (fun _ => True) op

/-- The operations of a story that only moves items between stocks: it picks and pops one item per row
from a stock, then adds it to a stock. Rows without items are dropped. Either no two rows get the same
item (`one_to_one`), or each row takes from the stock of its own member. -/
inductive MovesOnly (env : Env σ γ) (S : Nat → Prop) (own : String) : List (Op (World σ γ)) → Prop
  | nil : MovesOnly env S own []
  | apart {op : Op (World σ γ)} {ops : List (Op (World σ γ))} (h : Apart env S op)
      (hw : OpWithin env (fun _ => True) (fun _ => True) (Clear own) (fun _ => True) (fun _ => True) op)
      (rest : MovesOnly env S own ops) : MovesOnly env S own (op :: ops)
  | move {a b : Nat} {giver taker item : String} {o2o : Bool} {weight : Option (Dict Val Rat)}
      {mid ops : List (Op (World σ γ))} (ha : S a) (hb : S b) (hg : o2o = true ∨ giver = own)
      (hi : Clear own item) (hmid : ∀ op ∈ mid, Between env S item op)
      (hown : ∀ op ∈ mid, OpWithin env (fun _ => True) (fun _ => True) (Clear own) (fun _ => True)
        (fun _ => True) op)
      (rest : MovesOnly env S own ops) :
      MovesOnly env S own (Ops.selectOne env a giver item o2o true true weight ::
        (mid ++ Ops.relAdd env b taker item :: ops))

/-- every story of the circus only moves items -/
def AllMove (env : Env σ γ) (S : Nat → Prop) (chains : List (List (Op (World σ γ))))
    (w : World σ γ) : Prop :=
  ∀ (j : Nat) (ops : List (Op (World σ γ))) (s : Story σ), chains[j]? = some ops →
    w.stories[j]? = some s → MovesOnly env S s.idField ops

end Spec
end Trumania
