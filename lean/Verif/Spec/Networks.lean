import Verif.Model.World

/-!
# Vocabulary of the properties on relationships filled at creation
-/

namespace Trumania
namespace Spec
variable {σ γ : Type}

/-- between `w` and `w'`, the population `pop` (which was `p`) got a new relationship object `r`, named
`name`; no other population, relationship or story changed. Clock and seeder are left open. -/
structure NewRelationship (w w' : World σ γ) (pop : Nat) (name : String) (p : Population)
    (r : Relationship σ) : Prop where
  was : w.pops[pop]? = some p
  pops : w'.pops = w.pops.set pop { p with relationships := p.relationships.set name w.rels.length }
  rels : w'.rels = w.rels ++ [r]
  stories : w'.stories = w.stories

/-- what a simple undirected graph on `n` nodes lists as edges: nodes of the graph, no loop, each edge
once in one of its two directions -/
structure SimpleGraph (n : Nat) (edges : List (Nat × Nat)) : Prop where
  nodes : ∀ e ∈ edges, e.1 < n ∧ e.2 < n
  noLoop : ∀ e ∈ edges, e.1 ≠ e.2
  once : edges.Nodup
  oneDirection : ∀ e ∈ edges, (e.2, e.1) ∉ edges

/-- number of relations from `a` to `b` in a content -/
def links (content : List (Val × Val × Rat)) (a b : Val) : Nat :=
  content.countP fun x => decide (x.1 = a ∧ x.2.1 = b)

end Spec
end Trumania
