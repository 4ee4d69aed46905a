import Verif.Spec.Population

/-!
# Vocabulary of the weighted selection of members
-/

namespace Trumania
namespace Spec

/-- total of the numbers of a table of values -/
def totalOf (t : List (Val × Cell)) : Rat := (t.map fun x => numIn x.2).sum

/-- The draw `u` (uniform in `[0, 1)`) falls in the share of the member `i`: the members share
`[0, 1)` into consecutive intervals, the one of `i` having length `w / total`, where `w` is the own
weight of `i`. -/
def InShare (a : Attribute) (u : Rat) (i : Val) : Prop :=
  ∃ pre w post, a.table = pre ++ (i, Cell.num w) :: post ∧
    totalOf pre ≤ u * totalOf a.table ∧ u * totalOf a.table < totalOf pre + w

/-- Calls on a population that leave the attribute `name` a weight given to each member: it may be
created, updated for members of the population, added to, transformed, or updated with the
population; anything may happen to the rest. -/
inductive WeightCall {σ : Type} (R : Rng σ) (name : String) : Population → Population → Prop
  | elsewhere {p p' : Population} (h : PopCall R p p') (hids : p'.ids = p.ids)
      (hs : p'.size = p.size) (ha : ∀ a, attributeOf p' name a ↔ attributeOf p name a) :
      WeightCall R name p p'
  | create {p p' : Population} (values : List Cell) (h : p.createAttribute name values = .ok p') :
      WeightCall R name p p'
  | set {p : Population} {a a' : Attribute} {series : List (Val × Cell)}
      (ha : attributeOf p name a) (h : a.update series = .ok a')
      (hk : ∀ x ∈ series, x.1 ∈ p.ids) :
      WeightCall R name p { p with attributes := p.attributes.set name a' }
  | add {p : Population} {a a' : Attribute} {ids : List Val} {added : List Cell}
      (ha : attributeOf p name a) (h : a.add ids added = .ok a') :
      WeightCall R name p { p with attributes := p.attributes.set name a' }
  | transform {p : Population} {a : Attribute} (f : Cell → Cell) (ha : attributeOf p name a) :
      WeightCall R name p { p with attributes := p.attributes.set name (a.transform f) }
  | update {p p' : Population} (f : Frame) (hc : f.cols.Nodup) (h : p.update f = .ok p') :
      WeightCall R name p p'

/-- any number of such calls -/
def WeightCalls {σ : Type} (R : Rng σ) (name : String) : Population → Population → Prop :=
  Relation.ReflTransGen (WeightCall R name)

end Spec
end Trumania
