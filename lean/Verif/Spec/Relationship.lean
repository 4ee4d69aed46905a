import Verif.Model.Relationship
import Verif.Spec.Instances
import Verif.Proofs.ValOrder
import Mathlib.Data.List.Forall2

/-!
Specifications for relationships: what was added, what a request should get, histories of calls.
The content of a relationship is only observed through `get_relations()`.
-/

namespace Trumania

/-! ### Instances of the unspecified orders -/

/-- an `argsort` built by sorting (value, position) pairs listed in some initial order -/
def ArgSort.ofPerm (init : List (Val × Nat) → List (Val × Nat))
    (hi : ∀ l, (init l).Perm l) : ArgSort where
  order l := (sortBy (fun a b => Val.le a.1 b.1) (init l.zipIdx)).map Prod.snd
  perm l := by
    have h := ((sortBy_perm (fun a b => Val.le a.1 b.1) (init l.zipIdx)).trans (hi _)).map
      Prod.snd
    rw [List.zipIdx_map_snd] at h
    rwa [List.range_eq_range']
  sorted l := by
    have hp := (sortBy_perm (fun a b => Val.le a.1 b.1) (init l.zipIdx)).trans (hi _)
    have hs := sortBy_sorted (le := fun a b : Val × Nat => Val.le a.1 b.1)
      (fun a b c => Val.le_trans') (fun a b => Val.le_total' a.1 b.1) (init l.zipIdx)
    have he : ((sortBy (fun a b => Val.le a.1 b.1) (init l.zipIdx)).map Prod.snd).filterMap
        (l[·]?) = (sortBy (fun a b => Val.le a.1 b.1) (init l.zipIdx)).map Prod.fst := by
      rw [List.filterMap_map, ← List.filterMap_eq_map]
      apply List.filterMap_congr
      rintro ⟨a, i⟩ hx
      have := hp.mem_iff.1 hx
      rw [List.mem_zipIdx_iff_getElem?] at this
      exact this
    rw [he, List.pairwise_map]
    exact hs

/-- stable `argsort` -/
def ArgSort.stable : ArgSort := ArgSort.ofPerm id (fun _ => List.Perm.refl _)

/-- an `argsort` that reverses the ties -/
def ArgSort.reversed : ArgSort := ArgSort.ofPerm List.reverse (fun l => List.reverse_perm l)

/-- two environments differing by the hash seed and by the ties of `argsort` -/
def Orders.a : Orders := ⟨SetOrder.dedup Val, ArgSort.stable⟩
def Orders.b : Orders := ⟨SetOrder.rdedup Val, ArgSort.reversed⟩

/-! ### Additions -/

/-- a call adding relations -/
inductive AddCall where
  | relations (froms tos : List Val) (weights : Weights)
  | grouped (froms : List Val) (tos : List (List Val))

/-- run the call; each call may see other set orders and ties -/
def AddCall.exec {σ : Type} (r : Relationship σ) : AddCall × Orders → Py (Relationship σ)
  | (.relations f t w, env) => r.add_relations env f t w
  | (.grouped f t, env) => r.add_grouped_relations env f t

namespace Spec

/-- weight of the `i`-th relation of a call -/
def weightAt : Weights → Nat → Option Rat
  | .scalar w, _ => some w
  | .list ws, i => ws[i]?

/-- the triples a call is asked to add, line by line -/
def added : AddCall → List (Val × Val × Rat)
  | .relations froms tos w => (List.range froms.length).filterMap fun i => do
      some (← froms[i]?, ← tos[i]?, ← weightAt w i)
  | .grouped froms tos => (froms.zip tos).flatMap fun x => x.2.map fun t => (x.1, t, 1)

/-- the arrays of a call are long enough -/
def WellSized : AddCall → Prop
  | .relations froms tos w => froms.length ≤ tos.length ∧
      ∀ ws, w = .list ws → froms.length ≤ ws.length
  | .grouped _ _ => True

/-- some relation starts from `f` -/
def Has (content : List (Val × Val × Rat)) (f : Val) : Prop := ∃ t w, (f, t, w) ∈ content

/-- what `select_one` should answer to one request (label, from): `none` for no row -/
def Answers (content : List (Val × Val × Rat)) (discard : Bool) (q : Val × Val)
    (o : Option OneRow) : Prop :=
  (Has content q.2 → ∃ row t w, o = some row ∧ row.label = q.1 ∧ row.from_ = q.2 ∧
    row.to_ = some t ∧ (q.2, t, w) ∈ content) ∧
  (¬ Has content q.2 → if discard then o = none
    else ∃ row, o = some row ∧ row.label = q.1 ∧ row.from_ = q.2 ∧ row.to_ = none)

/-- (from, to) of the rows of `select_one` that hold a `to` -/
def items (rows : List OneRow) : List (Val × Val) :=
  rows.filterMap fun r => r.to_.map fun t => (r.from_, t)

/-- all the tos a result of `select_many` gives to a label -/
def handed (res : List (Val × List Val)) (label : Val) : List Val :=
  (res.filter fun x => decide (x.1 = label)).flatMap Prod.snd

/-- tos of a from -/
def tosOf (content : List (Val × Val × Rat)) (f : Val) : List Val :=
  (content.filter fun x => decide (x.1 = f)).map fun x => x.2.1

/-- all the tos handed to the requests on a from -/
def handedFrom (reqs : List (Val × Val × Int)) (res : List (Val × List Val)) (f : Val) : List Val :=
  (reqs.filter fun q => decide (q.2.1 = f)).flatMap fun q => handed res q.1

end Spec

/-! ### Reachable relationships -/

/-- relationships obtained by any sequence of calls of the public API -/
inductive Relationship.Reachable {σ : Type} (R : Rng σ) : Relationship σ → Prop
  | new (seed : Int) : Reachable R (Relationship.new R seed)
  | add {r r' : Relationship σ} (env : Orders) {f t : List Val} {w : Weights} :
      Reachable R r → r.add_relations env f t w = .ok r' → Reachable R r'
  | addGrouped {r r' : Relationship σ} (env : Orders) {f : List Val} {t : List (List Val)} :
      Reachable R r → r.add_grouped_relations env f t = .ok r' → Reachable R r'
  | remove {r r' : Relationship σ} (env : Orders) {f t : List Val} :
      Reachable R r → r.remove_relations env f t = .ok r' → Reachable R r'
  | selectOne {r r' : Relationship σ} {reqs : Option (List (Val × Val))} {pop discard o2o : Bool}
      {ow : Option (Dict Val Rat)} {rows : List OneRow} :
      Reachable R r → r.select_one R reqs pop discard o2o ow = .ok (rows, r') → Reachable R r'
  | selectMany {r r' : Relationship σ} {reqs : List (Val × Val × Int)} {pop discard : Bool}
      {res : List (Val × List Val)} (labels : (reqs.map (·.1)).Nodup)
      (quantities : ∀ q ∈ reqs, 0 ≤ q.2.2) :
      Reachable R r → r.select_many R reqs pop discard = .ok (res, r') → Reachable R r'

end Trumania
