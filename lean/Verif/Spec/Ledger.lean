import Verif.Spec.Stock
import Verif.Spec.Population

/-!
# The account of a stock: what its owners hold, and what the logs say they sold and received
-/

namespace Trumania
namespace Spec
variable {σ γ : Type}

/-- the number of items that `owner` holds in the stock `a` -/
def held (o : Orders) (w : World σ γ) (a : Nat) (owner : Val) : Nat :=
  (stockAt o w a).countP fun p => decide (p.1 = owner)

/-- no item that `owner` holds in the stock `a` is an empty value -/
def NoEmptyItem (o : Orders) (w : World σ γ) (a : Nat) (owner : Val) : Prop :=
  ∀ p ∈ stockAt o w a, p.1 = owner → p.2 ≠ .na

/-- the number of rows of the log `logId` that have an item and name `owner` as the giver -/
def soldBy (logId giver item : String) (owner : Val) (logs : Logs) : Nat :=
  ((tablesOf logId logs).map fun t => t.rows.countP fun r =>
    decide (idIn (cell t r giver) = owner ∧ idIn (cell t r item) ≠ .na)).sum

/-- the total of the quantities of the rows of the log `logId` that name `owner` as the taker -/
def receivedBy (logId taker qty : String) (owner : Val) (logs : Logs) : Rat :=
  ((tablesOf logId logs).map fun t => ((t.rows.filter fun r =>
    decide (idIn (cell t r taker) = owner)).map fun r => numIn (cell t r qty)).sum).sum

/-- The account of a stock: the relationship, the log of the sales with its fields for the giver and the
item, and the log of the deliveries with its fields for the taker and the quantity. -/
structure Ledger where
  stock : Nat
  saleLog : String
  giver : String
  item : String
  deliveryLog : String
  taker : String
  qty : String
  logs_ne : saleLog ≠ deliveryLog

namespace Ledger
variable (l : Ledger)

/-- log ids that are none of the account -/
def Other (id : String) : Prop := id ≠ l.saleLog ∧ id ≠ l.deliveryLog

/-- an operation that neither changes the stock nor writes in the account, and adds only fields in `A` -/
def Aside (env : Env σ γ) (A : String → Prop) (op : Op (World σ γ)) : Prop :=
  Apart env (· ∈ [l.stock]) op ∧
    OpWithin env (fun _ => True) (fun _ => True) A (fun _ => True) l.Other op

/-- a story that does not touch the account -/
def Bystanding (env : Env σ γ) (ops : List (Op (World σ γ))) : Prop :=
  ∀ op ∈ ops, l.Aside env (fun _ => True) op

/-- A story that sells: each row gets one item, popped from the stock of its giver with `one_to_one`,
then the rows are logged, with or without the giver having had an item. -/
def Sells (env : Env σ γ) (idField : String) (ops : List (Op (World σ γ))) : Prop :=
  ∃ pre mid post cols discard weight,
    ops = pre ++ Ops.selectOne env l.stock l.giver l.item true true discard weight ::
      (mid ++ Ops.fieldLogger l.saleLog cols [] :: post) ∧
    (cols = [] ∨ l.giver ∈ cols ∧ l.item ∈ cols) ∧
    l.item ≠ idField ∧ Clear l.giver l.item ∧
    (∀ op ∈ pre, l.Aside env (Clear l.item) op) ∧
    (∀ op ∈ mid, l.Aside env (fun c => Clear l.giver c ∧ Clear l.item c) op ∧
      KeepsRows env (fun _ => True) (fun _ => True) op) ∧
    ∀ op ∈ post, l.Aside env (fun _ => True) op

/-- a function that gives the length of the lists of a column: `lambda s: s.map(len)` -/
def Lengths (f : List (List Cell) → Py (List Cell)) : Prop :=
  ∀ cs vs, (∀ c ∈ cs, ∃ items, c = .list items) → f [cs] = .ok vs →
    vs = cs.map fun c => .num ((listIn c).length : Rat)

/-- A story that delivers: each row adds a list of items to the stock of its taker, computes their
number, and is logged. -/
def Delivers (env : Env σ γ) (idField : String) (ops : List (Op (World σ γ))) : Prop :=
  ∃ pre mid mid' post cols items f,
    ops = pre ++ Ops.relAddGrouped env l.stock l.taker items ::
      (mid ++ Ops.applySeries [items] l.qty f ::
        (mid' ++ Ops.fieldLogger l.deliveryLog cols [] :: post)) ∧
    (cols = [] ∨ l.taker ∈ cols ∧ l.qty ∈ cols) ∧ Lengths f ∧
    l.qty ≠ idField ∧ Clear l.taker l.qty ∧
    (∀ op ∈ pre, l.Aside env (Clear l.qty) op) ∧
    (∀ op ∈ mid, l.Aside env (fun c => Clear l.taker c ∧ Clear l.qty c ∧ Clear items c) op ∧
      KeepsRows env (fun _ => True) (fun _ => True) op) ∧
    (∀ op ∈ mid', l.Aside env (fun c => Clear l.taker c ∧ Clear l.qty c) op ∧
      KeepsRows env (fun _ => True) (fun _ => True) op) ∧
    ∀ op ∈ post, l.Aside env (fun _ => True) op

/-- every story of the circus sells, delivers, or leaves the account alone -/
def Keeps (env : Env σ γ) (chains : List (List (Op (World σ γ)))) (w : World σ γ) : Prop :=
  ∀ (j : Nat) (ops : List (Op (World σ γ))) (s : Story σ), chains[j]? = some ops →
    w.stories[j]? = some s →
    l.Sells env s.idField ops ∨ l.Delivers env s.idField ops ∨ l.Bystanding env ops

/-- nobody delivers to `owner`: the takers are the acting members themselves, and `owner` is none -/
def Stranger (env : Env σ γ) (chains : List (List (Op (World σ γ)))) (w : World σ γ) (owner : Val) : Prop :=
  ∀ (j : Nat) (ops : List (Op (World σ γ))) (s : Story σ), chains[j]? = some ops →
    w.stories[j]? = some s → l.Sells env s.idField ops ∨ l.Bystanding env ops ∨
    (l.Delivers env s.idField ops ∧ s.idField = l.taker ∧ owner ∉ s.ids ∧
      ∀ op ∈ ops, OpWithin env (fun _ => True) (fun _ => True) (Clear s.idField) (fun _ => True)
        (fun _ => True) op)

/-- the sales and deliveries that the logs tell of an owner -/
def sold (owner : Val) (logs : Logs) : Nat := soldBy l.saleLog l.giver l.item owner logs
def received (owner : Val) (logs : Logs) : Rat := receivedBy l.deliveryLog l.taker l.qty owner logs

end Ledger
end Spec
end Trumania
