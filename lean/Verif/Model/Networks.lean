import Verif.Model.Circus
import Verif.Model.Components

/-!
# Relationships filled at creation: stocks (`trumania/core/population.py`), random proportions
(`trumania/core/util_functions.py`) and Erdős–Rényi networks
(`trumania/components/social_networks/erdos_renyi.py`)
-/

namespace Trumania
namespace Circus
variable {σ γ : Type} (env : Env σ γ)

/-- `relationship.add_relations(...)` (relationship.py:153-161) on a relationship of the circus -/
def addRelations (i : Nat) (froms tos : List Val) (weights : Weights) : Act (World σ γ) Unit := do
  let r ← World.getRel i
  let r ← Act.ofPy (r.add_relations env.orders froms tos weights)
  World.setRel i r

/-- `relationship.add_grouped_relations(...)` (relationship.py:163-177) on a relationship of the
circus -/
def addGroupedRelations (i : Nat) (froms : List Val) (tos : List (List Val)) :
    Act (World σ γ) Unit := do
  let r ← World.getRel i
  let r ← Act.ofPy (r.add_grouped_relations env.orders froms tos)
  World.setRel i r

/-- `Population.create_stock_relationship` (population.py:71-90) of the population `pop` -/
def createStock (pop : Nat) (name : String) (gen : GenRef) (n : Int) : Act (World σ γ) Unit := do
  let rel ← createRelationship env pop name none
  let p ← World.getPop pop
  let cells ← World.generate env gen ((n * p.size : Int) : Rat)
  let items ← Act.ofPy (cells.mapM Cell.asVal)
  let seed ← drawSeed env
  let assigned ← Act.ofPy (make_random_assign env.R seed items p.ids)
  addRelations env rel (assigned.map Prod.snd) (assigned.map Prod.fst) (.scalar 1)

/-- `Population.create_stock_relationship_grp` (population.py:92-102) of the population `pop` -/
def createStockGrp (pop : Nat) (name : String) (gen : GenRef) : Act (World σ γ) Unit := do
  let rel ← createRelationship env pop name none
  let p ← World.getPop pop
  let cells ← World.generate env gen (p.size : Rat)
  let bulks ← Act.ofPy (cells.mapM Cell.asList)
  addGroupedRelations env rel p.ids bulks

/-! ### Erdős–Rényi networks -/

/-- `create_er_social_network` (erdos_renyi.py:41-56). `edges` are those of the graph drawn by
`networkx.fast_gnp_random_graph(len(customer_ids), p, seed)`. -/
def erNetwork (ids : List Val) (edges : List (Nat × Nat)) : Py (List (Val × Val)) :=
  edges.mapM fun e => do
    let a ← nth ids e.1
    let b ← nth ids e.2
    .ok (a, b)

/-- `average_degree / len(population.ids)` (erdos_renyi.py:26) -/
def erProbability (degree : Rat) (n : Nat) : Py Rat :=
  if n = 0 then .error .zeroDivisionError else .ok (degree / n)

/-- `add_er_social_network_relationship` (erdos_renyi.py:15-38) on the population `pop`.
`graph n p seed` are the edges drawn by networkx; `network_weight_gen` is a `ParetoGenerator` with
`xmin = 1`, whose state is `g`. -/
def addErNetwork (graph : Nat → Rat → Int → List (Nat × Nat)) (pop : Nat) (name : String)
    (degree : Rat) : Act (World σ γ) Unit := do
  let weightSeed ← drawSeed env
  let g := env.R.seed weightSeed
  let p ← World.getPop pop
  let prob ← Act.ofPy (erProbability degree p.ids.length)
  let seed ← drawSeed env
  let values ← Act.ofPy (erNetwork p.ids (graph p.ids.length prob seed))
  let rel ← createRelationship env pop name none
  let (w1, g) := paretoGenerate env.R 1 false g values.length
  addRelations env rel (values.map Prod.fst) (values.map Prod.snd) (.list w1)
  let (w2, _) := paretoGenerate env.R 1 false g values.length
  addRelations env rel (values.map Prod.snd) (values.map Prod.fst) (.list w2)

end Circus

/-! ### Random proportions -/

/-- the lines of one member of the first group: `row / row.sum()` (util_functions.py:56) then `stack`
(line 58). A row of zeros gives `NaN`s, that `stack` drops. -/
def proportionRows {α β : Type} (a : α) (group2 : List β) (row : List Rat) : List (α × β × Rat) :=
  if row.sum = 0 then [] else (group2.zip row).map fun y => (a, y.1, y.2 / row.sum)

/-- the lines of the members of the first group, one after the other: `draws` are the numbers of
`state.rand(len(group1), len(group2))` (util_functions.py:55) in row-major order -/
def proportions {α β : Type} (group2 : List β) : List α → List Rat → List (α × β × Rat)
  | [], _ => []
  | a :: group1, draws => proportionRows a group2 (draws.take group2.length) ++
      proportions group2 group1 (draws.drop group2.length)

/-- `assign_random_proportions` (util_functions.py:52-63): the lines (member of the first group, member
of the second group, weight) -/
def assign_random_proportions {α β σ : Type} (R : Rng σ) (group1 : List α) (group2 : List β)
    (seed : Int) : List (α × β × Rat) :=
  proportions group2 group1 (R.uniform (R.seed seed) (group1.length * group2.length)).1

end Trumania
