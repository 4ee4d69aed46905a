import Verif.Spec.Hello
import Verif.Spec.Networks
import Verif.Spec.CdrTrigger
import Verif.Spec.Begins
import Verif.Model.Blog

/-!
# What the logs of the examples 3 to 6 of examples/datacamp-blogpost should tell
-/

namespace Trumania
namespace Blog
open Spec Cdr
variable {σ γ : Type}

/-- A script, with the objects that its operations use. Population 0 are the persons, relationship 0 their quotes and
relationship 1 their friends. -/
structure Scene where
  post : Post
  choice : GenRef
  fmt : Int → Cell

/-- the relationships that a script has -/
def Post.rels : Post → List Nat
  | .three => []
  | .four | .five => [0]
  | .six => [0, 1]

/-- the operations of the only story -/
def Scene.chains (env : Env σ γ) (s : Scene) : List (List (Op (World σ γ))) :=
  [Ops.setOperations env 0 (operations env s.fmt
    ⟨0, 0, if s.post = .six then 1 else 0, s.choice⟩ s.post)]

/-- the fields of the records, in order -/
def fields : List String := ["PERSON_ID", "TIME", "MESSAGE", "OTHER_PERSON", "EMITTER_NAME", "RECEIVER_NAME"]

/-- the relations (from, to, weight) of a relationship -/
def relationsAt (o : Orders) (w : World σ γ) (k : Nat) : List (Val × Val × Rat) :=
  match w.rels[k]? with
  | none => []
  | some r => r.get_relations o

/-- What the record of a person `i` tells, at an execution at the date `d` with steps of length `len`: `g` gives the
values of the fields. From script 4 on, the message is a quote of the person, one whose weight is not 0 (unless it is
empty). The other person is one of `ids`, and a friend in script 6. -/
structure Told (s : Scene) (ids : List Val) (w : World σ γ) (d len : Int) (i : Val) (g : String → Cell) : Prop where
  person : g "PERSON_ID" = .scalar i
  time : ∃ k : Nat, (k : Int) * 1000000000 < len ∧ g "TIME" = s.fmt (d + (k : Int) * 1000000000)
  hello : s.post = .three → g "MESSAGE" = .str "hello world"
  quote : s.post ≠ .three → ∃ t, g "MESSAGE" = .scalar t ∧ ∀ o, (∃ wt, (i, t, wt) ∈ relationsAt o w 0) ∧
    (t ≠ .na → ∃ wt, wt ≠ 0 ∧ (i, t, wt) ∈ relationsAt o w 0)
  other : ∃ t ∈ ids, g "OTHER_PERSON" = .scalar t ∧ ValueOf w 0 "NAME" t (g "RECEIVER_NAME") ∧
    (s.post = .six → ∀ o, ∃ wt, (i, t, wt) ∈ relationsAt o w 1)
  emitter : ValueOf w 0 "NAME" i (g "EMITTER_NAME")

/-- a world where the story can be played: the persons are `ids`; only they have names; from script 4 on each has at
least two quotes -/
structure Ready (env : Env σ (AnyGen σ)) (s : Scene) (ids : List Val) (w : World σ (AnyGen σ)) : Prop where
  wf : ∀ p ∈ w.pops, Population.WF p
  persons : ∃ p, w.pops[0]? = some p ∧ p.ids = ids ∧ ∀ a, attributeOf p "NAME" a → ∀ i c, Holds a i c → i ∈ ids
  named : .na ∉ ids
  story : ∃ x, w.stories[0]? = some x ∧ x.idField = "PERSON_ID" ∧ x.ids = ids
  stocks : StocksOk env s.post.rels w
  anyone : s.post ≠ .six → ∃ x, Began env w s.choice (.choice ids none x)
  quotes : 0 ∈ s.post.rels → ∀ o, ∀ i ∈ ids, 2 ≤ held o w 0 i
  clock : 0 ≤ w.clock.step

/-- who speaks at an execution of the story that begins in `w`: those whose timer is 0, in the order of the persons -/
def speakers (w : World σ γ) (ids : List Val) : List Val := ids.filter fun i => decide (timerIn w 0 i = some (some 0))

/-- the generators of the scripts: a sequence for the ids of the persons, choices among lists, and graphs -/
structure Parts.Usual (g : Parts (AnyGen σ)) (b : SeqGen) : Prop where
  persons : g.personIds = .seq b
  choice : ∀ l p seed, ∃ r, g.choice l p seed = .choice l p r
  graph : ∀ n q seed, SimpleGraph n (g.graph n q seed)

/-- the quotes of the persons: each has one of each of the weights 0, 1, 2 and 3 -/
def QuotesGiven (ids : List Val) (L : List (Val × Val × Rat)) : Prop :=
  ∃ q0 q1 q2 q3 : List Val, q0.length = ids.length ∧ q1.length = ids.length ∧ q2.length = ids.length ∧
    q3.length = ids.length ∧
    L.Perm ((ids.zip q0).map (fun x => (x.1, x.2, 0)) ++ (ids.zip q1).map (fun x => (x.1, x.2, 1)) ++
      (ids.zip q2).map (fun x => (x.1, x.2, 2)) ++ (ids.zip q3).map (fun x => (x.1, x.2, 3)))

/-- What a script has in the beginning: the persons, numbered in order, that have names and ages; four quotes for each of
them; friendships that are mutual and never with oneself. In scripts 3 and 4 all wait one step after each message; in the
others each asks for 3, 10 or 20 messages per day. There is nothing else. -/
structure Opening (n : Nat) (g : Parts (AnyGen σ)) (b : SeqGen) (env : Env σ (AnyGen σ)) (s : Scene)
    (w : World σ (AnyGen σ)) : Prop where
  persons : ∃ q, w.pops[0]? = some q ∧ q.ids = idsFrom b n ∧
    (∃ a, attributeOf q "NAME" a ∧ ∀ i ∈ q.ids, ∃ c, Holds a i c) ∧
    ∃ a, attributeOf q "AGE" a ∧ ∀ i ∈ q.ids, ∃ c, Holds a i c
  quotes : s.post ≠ .three → ∀ o, QuotesGiven (idsFrom b n) (relationsAt o w 0)
  friends : s.post = .six → ∀ o,
    (∀ i j, links (relationsAt o w 1) i j = links (relationsAt o w 1) j i ∧ links (relationsAt o w 1) i j ≤ 1) ∧
    ∀ x ∈ relationsAt o w 1, x.1 ∈ idsFrom b n ∧ x.2.1 ∈ idsFrom b n ∧ x.1 ≠ x.2.1 ∧ 1 ≤ x.2.2
  paced : s.post = .three ∨ s.post = .four → Beats w 0 1 (idsFrom b n) ∧ AllWait w 0 1
  timers : s.post = .five ∨ s.post = .six → ∃ x, w.stories[0]? = some x ∧ x.autoReset = true ∧
    (∃ seed, Began env w x.timerGen (g.timer seed)) ∧
    ∀ i ∈ idsFrom b n, ∃ ps y, x.params.get? i = some ps ∧ ps.get? (.str "default") = some y ∧
      (y.activity = 3 ∨ y.activity = 10 ∨ y.activity = 20)
  only : w.pops.length = 1 ∧ w.rels.length = s.post.rels.length ∧ ∃ x, w.stories = [x] ∧
    Begins x (idsFrom b n) (fun _ => False) ∧ (s.post = .three ∨ s.post = .four → x.timerGen = .constant (.num 1))

end Blog
end Trumania
