import Verif.Spec.Run
import Verif.Spec.Gen
import Verif.Model.Ops

/-!
# Vocabulary of the properties on the order of sets

The iteration order of a set of strings changes from one Python process to the next. Two environments
that differ in that order only describe the same program run in two processes.
-/

namespace Trumania
namespace Spec
variable {σ γ : Type}

/-- environments that only differ in the iteration order of sets -/
structure SameButSets (env1 env2 : Env σ γ) : Prop where
  rng : env1.R = env2.R
  sem : env1.sem = env2.sem
  sort : env1.orders.sort = env2.orders.sort

/-- the same relations, in the same order for each from; the order of the froms may differ -/
structure SameRelations (r1 r2 : Relationship σ) : Prop where
  seed : r1.seed = r2.seed
  state : r1.state = r2.state
  get : ∀ f, r1.grouped.get? f = r2.grouped.get? f
  distinct1 : (r1.grouped.map Prod.fst).Nodup
  distinct2 : (r2.grouped.map Prod.fst).Nodup
  aligned : ∀ f rs, r1.grouped.get? f = some rs → rs.tos.length = rs.weights.length

/-- the same story, up to the order of its states -/
structure SameStory (s1 s2 : Story σ) : Prop where
  name : s1.name = s2.name
  population : s1.population = s2.population
  idField : s1.idField = s2.idField
  timerGen : s1.timerGen = s2.timerGen
  autoReset : s1.autoReset = s2.autoReset
  judge : s1.judge = s2.judge
  timer : s1.timer = s2.timer
  forced : s1.forced = s2.forced
  states : s1.states.Perm s2.states
  members : s1.params.map Prod.fst = s2.params.map Prod.fst
  params : ∀ id st, (s1.params.get? id).bind (·.get? st) = (s2.params.get? id).bind (·.get? st)

/-- the same circus, up to the order of the froms of its relationships and of the states of its
stories -/
structure SameWorld (w1 w2 : World σ γ) : Prop where
  clock : w1.clock = w2.clock
  seeder : w1.seeder = w2.seeder
  pops : w1.pops = w2.pops
  stories : List.Forall₂ SameStory w1.stories w2.stories
  rels : List.Forall₂ SameRelations w1.rels w2.rels

/-- the same circus, up to the orders of `SameWorld` -/
structure SameCircus (c1 c2 : Circus σ γ) : Prop where
  rest : { c1 with world := c2.world } = c2
  world : SameWorld c1.world c2.world

/-- the same tables under the same log ids, each at most once -/
structure SameLogs (l1 l2 : Logs) : Prop where
  distinct1 : (l1.map Prod.fst).Nodup
  distinct2 : (l2.map Prod.fst).Nodup
  mem : ∀ x, x ∈ l1 ↔ x ∈ l2

/-- both actions return results related by `P`, or both raise the same exception, and leave states
related by `S` -/
def SameRun {W α : Type} (S : W → W → Prop) (P : α → α → Prop) (x y : Act W α) : Prop :=
  ∀ w1 w2, S w1 w2 →
    match x w1, y w2 with
    | .ok a v1, .ok b v2 => P a b ∧ S v1 v2
    | .error e v1, .error e' v2 => e = e' ∧ S v1 v2
    | _, _ => False

/-- a built-in operation or a chain of them, as written in a scenario: a function of the environment in
which it is run -/
inductive Written : (Env σ γ → Op (World σ γ)) → Prop
  | randomValues (g : GenRef) (name : String) (quantity : Option String) :
      Written fun env => Ops.randomValues env g name quantity
  | randomValuesFromField (g : GenRef) (name observed : String) :
      Written fun env => Ops.randomValuesFromField env g name observed
  | timestamp (name : String) (random : Bool) (fmt : Int → Cell) :
      Written fun env => Ops.timestamp env name random fmt
  | neighbourhoodSize (rel : Nat) (fromField name : String) :
      Written fun _ => Ops.neighbourhoodSize rel fromField name
  | applySeries (sources : List String) (name : String) (f : List (List Cell) → Py (List Cell)) :
      Written fun _ => Ops.applySeries sources name f
  | applyFrame (sources namedAs : List String) (f : Frame → Py Frame) :
      Written fun _ => Ops.applyFrame sources namedAs f
  | fieldLogger (logId : String) (cols exploded : List String) :
      Written fun _ => Ops.fieldLogger logId cols exploded
  | dropRow (field : String) : Written fun _ => Ops.dropRow field
  | selectOne (rel : Nat) (f name : String) (o p d : Bool) (weight : Option (Dict Val Rat)) :
      Written fun env => Ops.selectOne env rel f name o p d weight
  | selectAll (rel : Nat) (f name : String) : Written fun env => Ops.selectAll env rel f name
  | selectMany (rel : Nat) (f name q : String) (p d : Bool) :
      Written fun env => Ops.selectMany env rel f name q p d
  | relAdd (rel : Nat) (f i : String) : Written fun env => Ops.relAdd env rel f i
  | relAddGrouped (rel : Nat) (f i : String) : Written fun env => Ops.relAddGrouped env rel f i
  | relRemove (rel : Nat) (f i : String) : Written fun _ => Ops.relRemove rel f i
  | attrUpdate (pop : Nat) (name i c : String) : Written fun _ => Ops.attrUpdate pop name i c
  | attrAdd (pop : Nat) (name i a : String) (subtract : Bool) :
      Written fun _ => Ops.attrAdd pop name i a subtract
  | lookup (pop : Nat) (i : String) (sel : Dict String String) :
      Written fun _ => Ops.lookup pop i sel
  | popUpdate (pop : Nat) (i : String) (copy : Dict String String) :
      Written fun _ => Ops.popUpdate pop i copy
  | forceActNext (story : Nat) (i : String) (cond : Option String) :
      Written fun _ => Ops.forceActNext story i cond
  | resetTimers (story : Nat) (i : Option String) : Written fun env => Ops.resetTimers env story i
  | transitToState (story : Nat) (i : String) (src : Ops.StateSource) (cond : Option String) :
      Written fun _ => Ops.transitToState story i src cond
  | maybeBackToDefault (story : Nat) : Written fun env => Ops.maybeBackToDefault env story
  | chain (ops : List (Env σ γ → Op (World σ γ))) (h : ∀ op ∈ ops, Written op) :
      Written fun env => World.chain env.logSet (ops.map (· env))

/-- the operations of the stories in an environment -/
def inEnv (chains : List (List (Env σ γ → Op (World σ γ)))) (env : Env σ γ) :
    List (List (Op (World σ γ))) := chains.map fun ops => ops.map (· env)

/-- the generators drawn from for a state -/
def usedBy (g : World.StateGens) : List Nat := refs g.activity ++ refs g.back

/-- no generator is drawn from for two states of the story, the default state included -/
def OwnGenerators (cfg : World.StoryConfig) : Prop :=
  ((defaultState, ⟨cfg.activity, .constant (.num 1)⟩) :: cfg.states.getD []).Pairwise
    fun x y => ∀ j ∈ usedBy x.2, j ∉ usedBy y.2

/-- the same files with the same contents -/
def SameFiles (fs1 fs2 : FS) : Prop := ∀ q n, At fs1 q n ↔ At fs2 q n

/-- events at the same dates, executions of the same stories with the same logs -/
def SameEvent (e1 e2 : Int × Event) : Prop :=
  e1.1 = e2.1 ∧ e1.2.story = e2.2.story ∧ SameLogs e1.2.logs e2.2.logs

end Spec
end Trumania
