import Verif.Spec.Frame
import Verif.Spec.Relationship
import Verif.Model.Ops

/-!
# Well-formed circuses: what their objects, story data and operations must satisfy

A signature declares what is expected of the objects of a circus. `Fits` says that a world satisfies
it, `Typed` that story data have the declared columns, and `Safe` that an operation is given columns
and objects it can work with. Kinds of cells are predicates.
-/

namespace Trumania
namespace Spec
variable {σ γ : Type}

/-! ### Kinds of cells -/

/-- a cell holding one id -/
def IsId (c : Cell) : Prop := ∃ v, c = .scalar v

/-- a cell holding a number of elements -/
def IsWhole (c : Cell) : Prop := ∃ n : Nat, c = .scalar (.num (n : Rat))

/-- a cell holding a truth value -/
def IsBool (c : Cell) : Prop := ∃ b, c = .scalar (.bool b)

/-- a cell holding a number or NaN -/
def IsAmount (c : Cell) : Prop := c = .scalar .na ∨ ∃ q, c = .scalar (.num q)

/-- a cell holding an id that satisfies `P` -/
def IdIn (P : Val → Prop) (c : Cell) : Prop := ∃ v, c = .scalar v ∧ P v

/-- a cell holding an id that satisfies `P`, or NaN -/
def IdOrNa (P : Val → Prop) (c : Cell) : Prop := c = .scalar .na ∨ IdIn P c

/-- a cell holding a list of ids that satisfy `P` -/
def ListOf (P : Val → Prop) (c : Cell) : Prop := ∃ vs, c = .list vs ∧ ∀ v ∈ vs, P v

/-! ### Declarations -/

/-- an attribute: the members that have a value, and the kind of the values -/
structure AttKind where
  known : Val → Prop
  value : Cell → Prop

/-- a story: its members, the states they may be in, the column of the acting members -/
structure StoryKind where
  members : Val → Prop
  states : Val → Prop
  idField : String

/-- a relationship: what its items are, the members that always have one, and whether items may be removed from it -/
structure RelKind where
  items : Val → Prop
  owners : Val → Prop := fun _ => False
  removable : Bool := true

/-- the objects of a circus, in the order of their references: the conditions met by the generators at
all times, the relationships, the attributes of the populations, the stories -/
structure Sig (γ : Type) where
  step : Int
  gens : List (γ → Prop)
  rels : List RelKind
  pops : List (Dict String AttKind)
  stories : List StoryKind

/-- the kind of the values of an attribute -/
def attValue (P : Dict String AttKind) (name : String) (c : Cell) : Prop :=
  ∃ k, P.get? name = some k ∧ k.value c

/-! ### Generators -/

/-- how a generator is called: with a size, with a column of observations of some kind, or with the
samples of another generator, in a list or in an array -/
inductive Ask where
  | size
  | series (A : Cell → Prop)
  | samples (A : Cell → Prop)

/-- Called in this way, the generator always answers, with as many values as asked, of the kind `P`. -/
inductive GenOk (env : Env σ γ) (S : Sig γ) : GenRef → Ask → (Cell → Prop) → Prop
  | constSize {v : Cell} {P : Cell → Prop} (h : P v) : GenOk env S (.constant v) .size P
  | constSeries {v : Cell} {A P : Cell → Prop} (h : P v) : GenOk env S (.constant v) (.series A) P
  /-- a generator of the circus: its condition is kept by the calls -/
  | refSize {i : Nat} {I : γ → Prop} {P : Cell → Prop} (hi : S.gens[i]? = some I)
      (h : ∀ g (n : Nat), I g → ∃ cells g', env.sem.generate g (n : Rat) = .ok (cells, g') ∧ I g' ∧
        cells.length = n ∧ ∀ c ∈ cells, P c) :
      GenOk env S (.ref i) .size P
  | refSeries {i : Nat} {I : γ → Prop} {A P : Cell → Prop} (hi : S.gens[i]? = some I)
      (h : ∀ g obs, I g → (∀ c ∈ obs, A c) → ∃ cells g', env.sem.observe g obs = .ok (cells, g') ∧
        I g' ∧ cells.length = obs.length ∧ ∀ c ∈ cells, P c) :
      GenOk env S (.ref i) (.series A) P
  | refSamples {i : Nat} {I : γ → Prop} {A P : Cell → Prop} (hi : S.gens[i]? = some I)
      (ha : ∀ g array, I g → env.sem.accepts g array = .ok ())
      (h : ∀ g obs, I g → (∀ c ∈ obs, A c) → ∃ cells g', env.sem.observe g obs = .ok (cells, g') ∧
        I g' ∧ cells.length = obs.length ∧ ∀ c ∈ cells, P c) :
      GenOk env S (.ref i) (.samples A) P
  | mapped {g : GenRef} {f : Cell → Py Cell} {A P : Cell → Prop} (hg : GenOk env S g .size A)
      (hf : ∀ c, A c → ∃ d, f c = .ok d ∧ P d) : GenOk env S (.mapped g f) .size P
  | mappedVect {g : GenRef} {f : List Cell → Py (List Cell)} {A P : Cell → Prop}
      (hg : GenOk env S g .size A)
      (hf : ∀ l, (∀ c ∈ l, A c) → ∃ l', f l = .ok l' ∧ l'.length = l.length ∧ ∀ d ∈ l', P d) :
      GenOk env S (.mappedVect g f) .size P
  | flatmapped {g dep : GenRef} {A P : Cell → Prop} (hg : GenOk env S g .size A)
      (hd : GenOk env S dep (.samples A) P) : GenOk env S (.flatmapped g dep) .size P
  | bulkSeries {g : GenRef} {A : Cell → Prop} {P : Val → Prop} (hg : GenOk env S g .size (IdIn P))
      (hA : ∀ c, A c → IsWhole c) : GenOk env S (.bulk g) (.series A) (ListOf P)
  | bulkSamples {g : GenRef} {A : Cell → Prop} {P : Val → Prop} (hg : GenOk env S g .size (IdIn P))
      (hA : ∀ c, A c → IsWhole c) : GenOk env S (.bulk g) (.samples A) (ListOf P)
  | weaken {g : GenRef} {a : Ask} {P Q : Cell → Prop} (hg : GenOk env S g a P)
      (h : ∀ c, P c → Q c) : GenOk env S g a Q

/-! ### Worlds -/

/-- A relationship made by the methods of relationships, with items of one kind. Whoever has items has one of positive
weight; all weights are positive if items may be removed. -/
structure RelFits (env : Env σ γ) (K : RelKind) (r : Relationship σ) : Prop where
  reachable : Relationship.Reachable env.R r
  content : ∀ x ∈ r.get_relations env.orders, 0 ≤ x.2.2 ∧ K.items x.2.1
  enough : ∀ x ∈ r.get_relations env.orders, ∃ y ∈ r.get_relations env.orders, y.1 = x.1 ∧ 0 < y.2.2
  positive : K.removable = true → ∀ x ∈ r.get_relations env.orders, 0 < x.2.2
  owners : ∀ v, K.owners v → ∃ x ∈ r.get_relations env.orders, x.1 = v

/-- items may be taken out of the relationship -/
def RelKind.Takes (K : RelKind) : Prop := K.removable = true ∧ ∀ v, ¬ K.owners v

structure AttFits (k : AttKind) (a : Attribute) : Prop where
  known : ∀ v, k.known v → v ∈ a.ids
  value : ∀ x ∈ a.table, k.value x.2

/-- a population with exactly the declared attributes -/
structure PopFits (P : Dict String AttKind) (p : Population) : Prop where
  names : ∀ name, name ∈ P.keys ↔ name ∈ p.attributes.keys
  values : ∀ name k a, P.get? name = some k → p.attributes.get? name = some a → AttFits k a

/-- A story whose members are in declared states, have parameters in all of them, and whose timer
generator always answers. -/
structure StoryFits (env : Env σ γ) (S : Sig γ) (K : StoryKind) (s : Story σ) : Prop where
  nodup : s.ids.Nodup
  members : ∀ v, v ∈ s.ids ↔ K.members v
  default : K.states (.str "default")
  states : ∀ r ∈ s.timer, K.states r.state
  params : ∀ v st, K.members v → K.states st →
    ∃ d p, s.params.get? v = some d ∧ d.get? st = some p
  idField : s.idField = K.idField
  direct : (∃ v, s.timerGen = .constant v) ∨ ∃ j, s.timerGen = .ref j
  timers : GenOk env S s.timerGen (.series fun c => ∃ q, c = .scalar (.num q)) IsAmount

/-- the objects of the circus are as declared -/
structure Fits (env : Env σ γ) (S : Sig γ) (w : World σ γ) : Prop where
  step : w.clock.step = S.step
  ticks : ∀ I ∈ S.gens, ∀ g, I g → I (env.sem.tick g)
  gens : List.Forall₂ (fun I g => I g) S.gens w.clock.listeners
  rels : List.Forall₂ (RelFits env) S.rels w.rels
  pops : List.Forall₂ PopFits S.pops w.pops
  stories : List.Forall₂ (StoryFits env S) S.stories w.stories

/-! ### Story data -/

/-- the columns of some story data, with the kind of their cells, which may depend on the label of the
row -/
abbrev Ctx := List (String × (Val → Cell → Prop))

/-- names of the columns -/
def Ctx.names (Γ : Ctx) : List String := Γ.map Prod.fst

/-- the column exists, and its cells, in rows labelled by members of the story, satisfy `A` -/
def Ctx.Has (Γ : Ctx) (M : Val → Prop) (name : String) (A : Val → Cell → Prop) : Prop :=
  ∃ k, (name, k) ∈ Γ ∧ ∀ i c, M i → k i c → A i c

/-- story data with exactly the columns of `Γ`, each row being labelled by a different member -/
structure Typed (M : Val → Prop) (Γ : Ctx) (d : Frame) : Prop where
  cols : d.cols = Γ.names
  distinct : Γ.names.Nodup
  index : d.index.Nodup
  labels : ∀ i ∈ d.index, M i
  cells : ∀ r ∈ d.rows, List.Forall₂ (fun x c => x.2 r.idx c) Γ r.cells

/-! ### Operations -/

open Ops in
/-- `Safe env S M Γ op Γ'`: in a story whose members satisfy `M`, the operation finds the fields and
objects it needs on story data with the columns `Γ`, and makes story data with the columns `Γ'`. -/
inductive Safe (env : Env σ γ) (S : Sig γ) (M : Val → Prop) : Ctx → Op (World σ γ) → Ctx → Prop
  | randomValues {Γ : Ctx} {g : GenRef} {name : String} {P : Cell → Prop} (hg : GenOk env S g .size P)
      (hn : name ∉ Γ.names) :
      Safe env S M Γ (randomValues env g name none) (Γ ++ [(name, fun _ => P)])
  | randomBulks {Γ : Ctx} {g : GenRef} {name q : String} {P : Val → Prop}
      (hg : GenOk env S g .size (IdIn P)) (hq : Γ.Has M q fun _ => IsWhole) (hn : name ∉ Γ.names) :
      Safe env S M Γ (randomValues env g name (some q)) (Γ ++ [(name, fun _ => ListOf P)])
  | randomValuesFromField {Γ : Ctx} {g : GenRef} {name observed : String} {A P : Cell → Prop}
      (hg : GenOk env S g (.series A) P) (ho : Γ.Has M observed fun _ => A) (hn : name ∉ Γ.names) :
      Safe env S M Γ (randomValuesFromField env g name observed) (Γ ++ [(name, fun _ => P)])
  /-- a random time within the step needs a step of at least one second -/
  | timestamp {Γ : Ctx} {name : String} {random : Bool} {fmt : Int → Cell} {P : Cell → Prop}
      (hf : ∀ d, P (fmt d)) (hr : random = true → nsPerSec ≤ S.step) (hn : name ∉ Γ.names) :
      Safe env S M Γ (timestamp env name random fmt) (Γ ++ [(name, fun _ => P)])
  | neighbourhoodSize {Γ : Ctx} {rel : Nat} {f name : String} {K : RelKind}
      (hrel : S.rels[rel]? = some K) (hf : Γ.Has M f fun _ => IsId) (hn : name ∉ Γ.names) :
      Safe env S M Γ (neighbourhoodSize rel f name) (Γ ++ [(name, fun _ => IsWhole)])
  | applySeries {Γ : Ctx} {sources : List String} {name : String}
      {f : List (List Cell) → Py (List Cell)} {As : List (Cell → Prop)} {P : Cell → Prop}
      (hs : List.Forall₂ (fun s A => Γ.Has M s fun _ => A) sources As)
      (hf : ∀ n cols, List.Forall₂ (fun A col => col.length = n ∧ ∀ c ∈ col, A c) As cols →
        ∃ vs, f cols = .ok vs ∧ vs.length = n ∧ ∀ v ∈ vs, P v)
      (hn : name ∉ Γ.names) :
      Safe env S M Γ (applySeries sources name f) (Γ ++ [(name, fun _ => P)])
  | applyFrame {Γ Δ : Ctx} {sources namedAs : List String} {f : Frame → Py Frame}
      {As : List (Val → Cell → Prop)} (hs : List.Forall₂ (Γ.Has M) sources As)
      (hsn : sources.Nodup)
      (hf : ∀ d, Typed M (sources.zip As) d → ∃ r, f d = .ok r ∧ r.index = d.index ∧ Typed M Δ r)
      (hl : namedAs.length = Δ.length) (hn : (Γ.names ++ namedAs).Nodup) :
      Safe env S M Γ (applyFrame sources namedAs f) (Γ ++ namedAs.zip (Δ.map Prod.snd))
  | relAdd {Γ : Ctx} {rel : Nat} {f i : String} {K : RelKind} (hrel : S.rels[rel]? = some K)
      (hf : Γ.Has M f fun _ => IsId) (hi : Γ.Has M i fun _ => IdIn K.items) :
      Safe env S M Γ (relAdd env rel f i) Γ
  | relAddGrouped {Γ : Ctx} {rel : Nat} {f i : String} {K : RelKind}
      (hrel : S.rels[rel]? = some K) (hf : Γ.Has M f fun _ => IsId)
      (hi : Γ.Has M i fun _ => ListOf K.items) :
      Safe env S M Γ (relAddGrouped env rel f i) Γ
  /-- the members to update must differ from row to row: they are those that act -/
  | attrUpdate {Γ : Ctx} {pop : Nat} {name i c : String} {P : Dict String AttKind} {k : AttKind}
      (hpop : S.pops[pop]? = some P) (hk : P.get? name = some k)
      (hi : Γ.Has M i fun l c => c = .scalar l) (hc : Γ.Has M c fun _ => k.value) :
      Safe env S M Γ (attrUpdate pop name i c) Γ
  | attrAdd {Γ : Ctx} {pop : Nat} {name i a : String} {subtract : Bool} {P : Dict String AttKind}
      {k : AttKind} (hpop : S.pops[pop]? = some P) (hk : P.get? name = some k)
      (hv : ∀ c, k.value c ↔ IsAmount c) (hi : Γ.Has M i fun _ => IdOrNa k.known)
      (ha : Γ.Has M a fun _ => IsAmount) :
      Safe env S M Γ (attrAdd pop name i a subtract) Γ
  | popUpdate {Γ : Ctx} {pop : Nat} {i : String} {copy : Dict String String}
      {P : Dict String AttKind} (hpop : S.pops[pop]? = some P)
      (hnames : ∀ name, name ∈ copy.keys ↔ name ∈ P.keys) (hn : copy.keys.Nodup)
      (hi : Γ.Has M i fun _ => IsId) (hc : ∀ x ∈ copy, Γ.Has M x.2 fun _ => attValue P x.1) :
      Safe env S M Γ (popUpdate pop i copy) Γ
  | forceActNext {Γ : Ctx} {story : Nat} {i : String} {cond : Option String} {K : StoryKind}
      (hs : S.stories[story]? = some K) (hi : Γ.Has M i fun _ => IdOrNa K.members)
      (hc : ∀ c, cond = some c → Γ.Has M c fun _ => IsBool) :
      Safe env S M Γ (forceActNext story i cond) Γ
  | resetTimers {Γ : Ctx} {story : Nat} {i : String} {K : StoryKind}
      (hs : S.stories[story]? = some K) (hi : Γ.Has M i fun _ => IdOrNa K.members) :
      Safe env S M Γ (resetTimers env story (some i)) Γ
  | resetTimersOwn {Γ : Ctx} {story : Nat} {K : StoryKind}
      (hs : S.stories[story]? = some K) (hm : ∀ v, M v → K.members v) :
      Safe env S M Γ (resetTimers env story none) Γ
  | transitToState {Γ : Ctx} {story : Nat} {i : String} {st : Val} {cond : Option String}
      {K : StoryKind} (hs : S.stories[story]? = some K)
      (hi : Γ.Has M i fun _ => IdOrNa K.members) (hst : K.states st)
      (hc : ∀ c, cond = some c → Γ.Has M c fun _ => IsBool) :
      Safe env S M Γ (transitToState story i (.const st) cond) Γ
  | transitToField {Γ : Ctx} {story : Nat} {i name : String} {cond : Option String}
      {K : StoryKind} (hs : S.stories[story]? = some K)
      (hi : Γ.Has M i fun _ => IdOrNa K.members) (hst : Γ.Has M name fun _ => IdOrNa K.states)
      (hc : ∀ c, cond = some c → Γ.Has M c fun _ => IsBool) :
      Safe env S M Γ (transitToState story i (.field name) cond) Γ
  | maybeBackToDefault {Γ : Ctx} {story : Nat} {K : StoryKind}
      (hs : S.stories[story]? = some K) (hm : ∀ v, M v → K.members v) :
      Safe env S M Γ (maybeBackToDefault env story) Γ
  | fieldLogger {Γ : Ctx} {logId : String} {cols : List String} (hc : ∀ c ∈ cols, c ∈ Γ.names) :
      Safe env S M Γ (fieldLogger logId cols []) Γ
  | dropRow {Γ : Ctx} {f : String} (hf : Γ.Has M f fun _ => IsBool) : Safe env S M Γ (dropRow f) Γ
  | selectOne {Γ : Ctx} {rel : Nat} {f name : String} {o p d : Bool} {weight : Option (Dict Val Rat)}
      {K : RelKind} (hrel : S.rels[rel]? = some K) (hp : p = true → K.Takes) (hf : Γ.Has M f fun _ => IsId)
      (hw : ∀ D, weight = some D → ∀ v, K.items v → ∃ x, D.get? v = some x ∧ 0 < x)
      (hn : name ∉ Γ.names) :
      Safe env S M Γ (selectOne env rel f name o p d weight)
        (Γ ++ [(name, fun _ => if d then IdIn K.items else IdOrNa K.items)])
  /-- no value is missing when all those who ask have items -/
  | selectOneOwned {Γ : Ctx} {rel : Nat} {f name : String} {o p d : Bool} {weight : Option (Dict Val Rat)}
      {K : RelKind} (hrel : S.rels[rel]? = some K) (hp : p = true → K.Takes)
      (hf : Γ.Has M f fun _ => IdIn K.owners)
      (hw : ∀ D, weight = some D → ∀ v, K.items v → ∃ x, D.get? v = some x ∧ 0 < x)
      (hn : name ∉ Γ.names) :
      Safe env S M Γ (selectOne env rel f name o p d weight) (Γ ++ [(name, fun _ => IdIn K.items)])
  | selectAll {Γ : Ctx} {rel : Nat} {f name : String} {K : RelKind}
      (hrel : S.rels[rel]? = some K) (hf : Γ.Has M f fun _ => IsId) (hn : name ∉ Γ.names) :
      Safe env S M Γ (selectAll env rel f name) (Γ ++ [(name, fun _ => ListOf K.items)])
  | selectMany {Γ : Ctx} {rel : Nat} {f name q : String} {p d : Bool} {K : RelKind}
      (hrel : S.rels[rel]? = some K) (hp : p = true → K.Takes) (hf : Γ.Has M f fun _ => IsId)
      (hq : Γ.Has M q fun _ => IsWhole) (hn : name ∉ Γ.names) :
      Safe env S M Γ (selectMany env rel f name q p d) (Γ ++ [(name, fun _ => ListOf K.items)])
  | lookup {Γ : Ctx} {pop : Nat} {i : String} {sel : Dict String String} {P : Dict String AttKind}
      (hpop : S.pops[pop]? = some P)
      (hi : Γ.Has M i fun _ => IsId)
      (hs : ∀ x ∈ sel, ∃ k, P.get? x.1 = some k ∧ Γ.Has M i fun _ => IdIn k.known)
      (hn : (Γ.names ++ sel.map Prod.snd).Nodup) :
      Safe env S M Γ (lookup pop i sel) (Γ ++ sel.map fun x => (x.2, fun _ => attValue P x.1))
  | lookupLists {Γ : Ctx} {pop : Nat} {i : String} {sel : Dict String String}
      {P : Dict String AttKind} (hpop : S.pops[pop]? = some P)
      (hi : Γ.Has M i fun _ => ListOf fun _ => True)
      (hs : ∀ x ∈ sel, ∃ k, P.get? x.1 = some k ∧ (Γ.Has M i fun _ => ListOf k.known) ∧
        ∀ c, k.value c → IsId c)
      (hn : (Γ.names ++ sel.map Prod.snd).Nodup) :
      Safe env S M Γ (lookup pop i sel)
        (Γ ++ sel.map fun x => (x.2, fun _ => ListOf fun v => attValue P x.1 (.scalar v)))
  | emptyChain {Γ : Ctx} : Safe env S M Γ (World.chain env.logSet []) Γ
  | consChain {Γ Γ1 Γ2 : Ctx} {op : Op (World σ γ)} {ops : List (Op (World σ γ))}
      (h : Safe env S M Γ op Γ1) (hs : Safe env S M Γ1 (World.chain env.logSet ops) Γ2) :
      Safe env S M Γ (World.chain env.logSet (op :: ops)) Γ2

/-- a sequence of safe operations, each on the data of the previous one -/
inductive SafeOps (env : Env σ γ) (S : Sig γ) (M : Val → Prop) :
    Ctx → List (Op (World σ γ)) → Ctx → Prop
  | nil {Γ : Ctx} : SafeOps env S M Γ [] Γ
  | cons {Γ Γ1 Γ2 : Ctx} {op : Op (World σ γ)} {ops : List (Op (World σ γ))}
      (h : Safe env S M Γ op Γ1) (hs : SafeOps env S M Γ1 ops Γ2) : SafeOps env S M Γ (op :: ops) Γ2

/-- the operations of a story are safe: they start from the ids of the acting members -/
def SafeStory (env : Env σ γ) (S : Sig γ) (K : StoryKind) (ops : List (Op (World σ γ))) : Prop :=
  ∃ Γ', SafeOps env S K.members [(K.idField, fun l c => c = .scalar l)] ops Γ'

end Spec
end Trumania
