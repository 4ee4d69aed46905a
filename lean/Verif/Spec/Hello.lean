import Verif.Spec.Music
import Verif.Spec.Periodic
import Verif.Spec.Begins
import Verif.Model.Hello

/-!
# What the log of the example of the persons that say hello (examples/tutorial/example1.py) should tell
-/

namespace Trumania
namespace Hello
open Spec Cdr
open Music (MemberOf)
variable {σ γ : Type}

/-- A step, with the objects that its operations use. Population 0 are the persons, relationship 0 their sites and
relationship 1 their friends. -/
structure Scene where
  step : Step
  duration : GenRef
  site : GenRef
  weights : Dict Val Rat
  fmt : Int → Cell

/-- the operations of the only story -/
def Scene.chains (env : Env σ γ) (s : Scene) : List (List (Op (World σ γ))) :=
  [Ops.setOperations env 0 (operations env s.fmt ⟨0, 0, 1, s.duration, s.site, s.weights⟩ s.step)]

/-- the fields of the records of each step, in order -/
def Step.fields : Step → List String
  | .one => ["PERSON_ID", "HELLO"]
  | .two => ["PERSON_ID", "NAME", "HELLO", "TIME"]
  | .three | .four | .five => ["PERSON_ID", "NAME", "HELLO", "DURATION", "SITE", "TIME"]
  | .six => ["PERSON_ID", "NAME", "HELLO", "DURATION", "SITE", "COUNTERPART_ID", "COUNTER_PART_NAME", "TIME"]
  | .seven => ["PERSON_ID", "NAME", "HELLO", "DURATION", "COUNTERPART_ID", "COUNTER_PART_NAME", "SITE",
      "COUNTERPART_SITE", "PRICE", "CURRENCY", "TIME"]

/-- the relationships that a step has -/
def Step.rels : Step → List Nat
  | .one | .two | .three => []
  | .four | .five => [0]
  | .six | .seven => [0, 1]

/-- the price of a call: a twentieth of its duration; unknown if the duration is -/
def Costs (duration price : Cell) : Prop :=
  (∃ q, duration = .num q ∧ price = .num (q / 20)) ∨ (duration = .na ∧ price = .na)

/-- What the fields `cs` of the record of a person `i` tell, at an execution at the date `d` with steps of length `len`:
`g` gives the values of the fields. In step 3, the site is any of `all`; later it is one of those of the person. -/
structure Told (s : Scene) (all : List Val) (w : World σ γ) (d len : Int) (i : Val) (cs : List String)
    (g : String → Cell) : Prop where
  person : "PERSON_ID" ∈ cs → g "PERSON_ID" = .scalar i
  name : "NAME" ∈ cs → ValueOf w 0 "NAME" i (g "NAME")
  hello : "HELLO" ∈ cs → g "HELLO" = .str "hello world"
  site : "SITE" ∈ cs → ∃ t, g "SITE" = .scalar t ∧
    if s.step = .three then t ∈ all else ∀ o, (i, t) ∈ stockAt o w 0
  friend : "COUNTERPART_ID" ∈ cs → ∃ t, g "COUNTERPART_ID" = .scalar t ∧ ∀ o, (i, t) ∈ stockAt o w 1 ∧
    (2 ≤ held o w 1 i → s.weights.get? t ≠ some 0)
  friendName : "COUNTER_PART_NAME" ∈ cs → ∃ t, g "COUNTERPART_ID" = .scalar t ∧
    ValueOf w 0 "NAME" t (g "COUNTER_PART_NAME")
  friendSite : "COUNTERPART_SITE" ∈ cs → ∃ t u, g "COUNTERPART_ID" = .scalar t ∧ g "COUNTERPART_SITE" = .scalar u ∧
    ∀ o, (t, u) ∈ stockAt o w 0
  price : "PRICE" ∈ cs → Costs (g "DURATION") (g "PRICE")
  currency : "CURRENCY" ∈ cs → g "CURRENCY" = .str "EUR"
  time : "TIME" ∈ cs → ∃ k : Nat, (k : Int) * 1000000000 < len ∧ g "TIME" = s.fmt (d + (k : Int) * 1000000000)

/-- a world where the story can be played: the persons are `ids`; in steps 4 to 7 each has a site, and in steps 6 and 7
their friends are persons -/
structure Ready (env : Env σ (AnyGen σ)) (s : Scene) (all ids : List Val) (w : World σ (AnyGen σ)) : Prop where
  wf : ∀ p ∈ w.pops, Population.WF p
  persons : ∃ p, w.pops[0]? = some p ∧ p.ids = ids
  named : .na ∉ ids
  field : ∀ x, w.stories[0]? = some x → x.idField = "PERSON_ID"
  acting : Beats w 0 0 ids ∧ AllWait w 0 0
  stocks : StocksOk env s.step.rels w
  site : s.step = .three → ∃ x, Began env w s.site (.choice all none x)
  settled : 0 ∈ s.step.rels → ∀ o, ∀ i ∈ ids, ∃ t, (i, t) ∈ stockAt o w 0
  friends : 1 ∈ s.step.rels → ∀ o, ∀ x ∈ stockAt o w 1, x.2 ∈ ids
  clock : 0 ≤ w.clock.step

/-- who says hello at each execution: all the persons, in order; in steps 6 and 7, those that have a friend -/
def Scene.speakers (s : Scene) (o : Orders) (w : World σ γ) (ids : List Val) : List Val :=
  ids.filter fun i => decide (1 ∈ s.step.rels → 0 < held o w 1 i)

/-- the generators of the example: a sequence for the ids of the persons, and a choice among the sites -/
structure Parts.Usual (g : Parts (AnyGen σ)) (b : SeqGen) : Prop where
  persons : g.personIds = .seq b
  choice : ∀ l seed, ∃ r, g.choice l seed = .choice l none r

/-- The sites of the persons: with each of the weights, each person has one of the sites `all`. -/
def SitesGiven (weights : List Rat) (all ids : List Val) (L : List (Val × Val × Rat)) : Prop :=
  ∃ drawn : List (List Val), drawn.length = weights.length ∧
    (∀ l ∈ drawn, l.length = ids.length ∧ ∀ t ∈ l, t ∈ all) ∧
    L.Perm ((weights.zip drawn).flatMap fun x => (ids.zip x.2).map fun y => (y.1, y.2, x.1))

/-- the weights of the sites of a person: in step 4 five equal ones, later a home, a place of work and three others -/
def Step.weights : Step → List Rat
  | .four => List.replicate 5 1
  | _ => 2/5 :: 3/10 :: List.replicate 3 (1/10)

/-- What a step has in the beginning: the persons, numbered in order, that have names (and popularities) if the step says
so; five sites for each of them, with the weights of the step; friends among the persons, with equal weights. There is
nothing else. -/
structure Opening (p : Params) (g : Parts (AnyGen σ)) (b : SeqGen) (env : Env σ (AnyGen σ)) (s : Scene)
    (w : World σ (AnyGen σ)) : Prop where
  persons : ∃ q, w.pops[0]? = some q ∧ q.ids = idsFrom b p.nPersons ∧
    (s.step ≠ .one → ∃ a, attributeOf q "NAME" a ∧ ∀ i ∈ q.ids, ∃ c, Holds a i c) ∧
    (1 ∈ s.step.rels → ∃ a, attributeOf q "POPULARITY" a ∧ ∀ i ∈ q.ids, ∃ x, Holds a i (.num x) ∧ s.weights.get? i = some x)
  sites : 0 ∈ s.step.rels → ∃ r, w.rels[0]? = some r ∧ ∀ o,
    SitesGiven s.step.weights (idsFrom g.siteIds p.nSites) (idsFrom b p.nPersons) (r.get_relations o)
  friends : 1 ∈ s.step.rels → ∃ r, w.rels[1]? = some r ∧ ∀ o, ∀ x ∈ r.get_relations o,
    x.1 ∈ idsFrom b p.nPersons ∧ x.2.1 ∈ idsFrom b p.nPersons ∧ x.2.2 = 1
  durations : s.step ≠ .one → s.step ≠ .two → ∃ seed, Began env w s.duration (g.durations seed)
  only : w.pops.length = 1 ∧ w.rels.length = s.step.rels.length ∧ ∃ x, w.stories = [x] ∧
    Begins x (idsFrom b p.nPersons) (fun _ => False) ∧ x.timerGen = .constant (.num 0)

end Hello
end Trumania
