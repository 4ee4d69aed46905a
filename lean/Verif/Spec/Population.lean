import Verif.Model.Ops
import Verif.Spec.Frame
import Verif.Spec.Relationship
import Mathlib.Logic.Relation

/-!
# Vocabulary of the properties on populations and attributes
-/

namespace Trumania
namespace Spec

/-- the attribute holds the value `c` for the member `i` -/
def Holds (a : Attribute) (i : Val) (c : Cell) : Prop := (i, c) ∈ a.table

/-- the attribute knows the member `i` -/
def Knows (a : Attribute) (i : Val) : Prop := ∃ c, Holds a i c

/-- at most one value per member -/
def OneValueEach (a : Attribute) : Prop := (a.table.map Prod.fst).Nodup

/-- the values given for the member `i` in a list of (member, value) pairs -/
def givenFor (l : List (Val × Cell)) (i : Val) : List Cell :=
  l.filterMap fun x => if x.1 = i then some x.2 else none

/-- a cell holding a number -/
def IsNum (c : Cell) : Prop := ∃ q, c = .num q

/-- opposite numbers, or NaN twice -/
def Opposite (c d : Cell) : Prop := (∃ q : Rat, c = .num q ∧ d = .num (-q)) ∨ (c = .na ∧ d = .na)

/-- the number in a cell -/
def numIn : Cell → Rat
  | .scalar (.num q) => q
  | _ => 0

/-- `c` is the value an id has after successive updates, `c₀` being the one it had before: the value
of the last update mentioning it -/
def afterUpdates (c₀ : Option Cell) : List (List (Val × Cell)) → Val → Option Cell
  | [], _ => c₀
  | u :: us, i =>
    afterUpdates (match (givenFor u i).getLast? with | some c => some c | none => c₀) us i

/-- a well-formed population: distinct ids, one value per member in each attribute, and attribute
names that are the keys of a Python dictionary -/
structure Population.WF (p : Population) : Prop where
  ids : p.ids.Nodup
  names : (p.attributes.map Prod.fst).Nodup
  values : ∀ x ∈ p.attributes, OneValueEach x.2

/-- `r` is the last row of `f` for the id `i` -/
def LastRow (f : Frame) (i : Val) (r : Row) : Prop :=
  ∃ pre post, f.rows = pre ++ r :: post ∧ r.idx = i ∧ ∀ x ∈ post, x.idx ≠ i

/-- the attribute `name` of the population -/
def attributeOf (p : Population) (name : String) (a : Attribute) : Prop := (name, a) ∈ p.attributes

/-- One call on a population, its attributes included. -/
inductive PopCall {σ : Type} (R : Rng σ) : Population → Population → Prop
  | createAttribute {p p' : Population} (name : String) (values : List Cell)
      (h : p.createAttribute name values = .ok p') : PopCall R p p'
  | relationAttribute {p : Population} {r r' : Relationship σ} {a : Attribute} (name : String)
      (hr : r.Reachable R) (h : Attribute.fromRelationship R p.size r = .ok (a, r')) :
      PopCall R p { p with attributes := p.attributes.set name a }
  | updateAttribute {p : Population} {name : String} {a a' : Attribute}
      {series : List (Val × Cell)} (ha : attributeOf p name a) (h : a.update series = .ok a') :
      PopCall R p { p with attributes := p.attributes.set name a' }
  | addAttribute {p : Population} {name : String} {a a' : Attribute} {ids : List Val}
      {added : List Cell} (ha : attributeOf p name a) (h : a.add ids added = .ok a') :
      PopCall R p { p with attributes := p.attributes.set name a' }
  | transformAttribute {p : Population} {name : String} {a : Attribute} (f : Cell → Cell)
      (ha : attributeOf p name a) :
      PopCall R p { p with attributes := p.attributes.set name (a.transform f) }
  | createRelationship {p : Population} (name : String) (rel : Nat) :
      PopCall R p { p with relationships := p.relationships.set name rel }
  | update {p p' : Population} (f : Frame) (h : p.update f = .ok p') : PopCall R p p'

/-- any number of calls -/
def PopCalls {σ : Type} (R : Rng σ) : Population → Population → Prop :=
  Relation.ReflTransGen (PopCall R)

/-- the members are listed in increasing order -/
def SortedIds (l : List Val) : Prop := l.Pairwise (fun a b => Val.le a b = true)

end Spec
end Trumania
