import Verif.Model.Db
import Verif.Spec.Persistence
import Verif.Spec.FileSystem
import Verif.Spec.Relationship

/-!
# Vocabulary of the properties on the database
-/

namespace Trumania
namespace Spec
variable {σ γ : Type}

/-- values that keep their type in a column of a CSV file: numbers, or booleans, or texts that do not
all look like numbers nor all like booleans; some may be missing -/
def KeptValues (F : TextFormat) (vs : List Val) : Prop :=
  (∀ v ∈ vs, v = .na ∨ ∃ q, v = .num q) ∨
  (∀ v ∈ vs, v = .na ∨ ∃ b, v = .bool b) ∨
  ((∀ v ∈ vs, v = .na ∨ ∃ s, v = .str s ∧ KeptText F s) ∧
    (∃ s, .str s ∈ vs ∧ F.parse s.toList = none) ∧ ∃ s, .str s ∈ vs ∧ F.bool? s.toList = none)

/-- an attribute that its file can carry -/
structure StorableAttribute (F : TextFormat) (a : Attribute) : Prop where
  ids : KeptValues F (a.table.map Prod.fst)
  values : ∃ vs : List Val, a.table.map Prod.snd = vs.map Cell.scalar ∧ KeptValues F vs

/-- a relationship that its file can carry -/
structure StorableRelationship (F : TextFormat) (env : Orders) (r : Relationship σ) : Prop where
  nonempty : r.get_relations env ≠ []
  ids : KeptIds F (((r.get_relations env).map fun x => x.1) ++ (r.get_relations env).map fun x => x.2.1)

/-- a population that its folder can carry; `rels` are the relationships of the circus -/
structure StorablePopulation (F : TextFormat) (env : Orders) (rels : List (Relationship σ))
    (p : Population) : Prop where
  ids : KeptIds F p.ids
  visible : ∀ s, .str s ∈ p.ids → ∃ c ∈ s.toList, c ≠ ' ' ∧ c ≠ '\t'
  attributeNames : (p.attributes.map Prod.fst).Nodup
  attributes : ∀ x ∈ p.attributes, StorableAttribute F x.2
  relationshipNames : (p.relationships.map Prod.fst).Nodup
  relationships : ∀ x ∈ p.relationships, ∃ r, rels[x.2]? = some r ∧ StorableRelationship F env r

/-- `g'` is what loading the file of `g` makes -/
def Restores (D : DbFormat γ) (g g' : γ) : Prop :=
  ∃ t, D.dumpGen g = .ok t ∧ D.loadGen (D.className g) (.ok t) = .ok g'

/-- a circus that the database can carry: some population, and only objects that can be stored -/
structure Storable (D : DbFormat γ) (env : Orders) (c : Circus σ γ) : Prop where
  config : D.loadConfig (D.dumpConfig c.masterSeed c.start c.step) = .ok (c.masterSeed, c.start, c.step)
  somePopulation : c.populations ≠ []
  populationNames : (c.populations.map Prod.fst).Nodup
  populations : ∀ x ∈ c.populations, ∃ p, c.world.pops[x.2]? = some p ∧
    StorablePopulation D.text env c.world.rels p
  generatorIds : (c.generators.map Prod.fst).Nodup
  generators : ∀ x ∈ c.generators, '.' ∉ x.1.toList ∧
    ∃ g g', c.world.gens[x.2]? = some g ∧ Restores D g g'

/-- the same relationship, apart from its random state -/
def SameRelationship (r r' : Relationship σ) : Prop :=
  r'.seed = r.seed ∧ ∀ env env', (r'.get_relations env').Perm (r.get_relations env)

/-- the same members, attributes and relationships, each name once -/
structure SamePopulation (rels rels' : List (Relationship σ)) (p p' : Population) : Prop where
  ids : p'.ids = p.ids
  size : p'.size = p.ids.length
  attributeNames : (p'.attributes.map Prod.fst).Nodup
  attributes : ∀ name, Dict.get? p'.attributes name = Dict.get? p.attributes name
  relationshipNames : (p'.relationships.map Prod.fst).Nodup
  noOther : ∀ name, Dict.get? p.relationships name = none → Dict.get? p'.relationships name = none
  relationships : ∀ name i r, Dict.get? p.relationships name = some i → rels[i]? = some r →
    ∃ j r', Dict.get? p'.relationships name = some j ∧ rels'[j]? = some r' ∧ SameRelationship r r'

/-- `c'` is `c` loaded again: same name, seed and clock settings, same populations, generators as their
files restore them; the clock is that of `fresh`, a new circus of the same settings, and there is no
story -/
structure Reloaded (D : DbFormat γ) (c fresh c' : Circus σ γ) : Prop where
  name : c'.name = c.name
  masterSeed : c'.masterSeed = c.masterSeed
  start : c'.start = c.start
  step : c'.step = c.step
  clock : c'.world.clock = { fresh.world.clock with listeners := c'.world.clock.listeners }
  seeder : c'.world.seeder = fresh.world.seeder
  stories : c'.world.stories = []
  noOtherPopulation : ∀ n, Dict.get? c.populations n = none → Dict.get? c'.populations n = none
  populations : ∀ n i p, Dict.get? c.populations n = some i → c.world.pops[i]? = some p →
    ∃ j p', Dict.get? c'.populations n = some j ∧ c'.world.pops[j]? = some p' ∧
      SamePopulation c.world.rels c'.world.rels p p'
  everyPopulation : ∀ p' ∈ c'.world.pops, ∃ n i p, Dict.get? c.populations n = some i ∧ c.world.pops[i]? = some p ∧
    SamePopulation c.world.rels c'.world.rels p p'
  everyRelationship : ∀ r' ∈ c'.world.rels, ∃ r ∈ c.world.rels, SameRelationship r r'
  noOtherGenerator : ∀ n, Dict.get? c.generators n = none → Dict.get? c'.generators n = none
  generators : ∀ n i g, Dict.get? c.generators n = some i → c.world.gens[i]? = some g →
    ∃ j g', Dict.get? c'.generators n = some j ∧ c'.world.gens[j]? = some g' ∧ Restores D g g'

/-- the path can be made a folder: nothing on the way is a file -/
def Creatable (fs : FS) (p : Path) : Prop :=
  At fs [] .dir ∧ ∀ q n, Below q p → At fs q n → n = .dir

end Spec
end Trumania
