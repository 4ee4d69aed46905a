import Verif.Spec.Blog
import Verif.Model.Slides

/-!
# What the log of the examples 3 to 8 of examples/presentation should tell
-/

namespace Trumania
namespace Slides
open Spec Cdr
open Blog (relationsAt QuotesGiven speakers)
variable {σ γ : Type}

/-- A script, with the objects that its operations use. Population 0 are the persons, relationship 0 their quotes. -/
structure Scene where
  talk : Talk
  sentences : GenRef
  choice : GenRef
  fmt : Int → Cell

/-- the relationships that a script has -/
def Talk.rels : Talk → List Nat
  | .seven => [0]
  | _ => []

/-- the operations of the only story -/
def Scene.chains (env : Env σ γ) (s : Scene) : List (List (Op (World σ γ))) :=
  [Ops.setOperations env 0 (operations env s.fmt ⟨0, 0, s.sentences, s.choice⟩ s.talk)]

/-- the fields of the records, in order -/
def Talk.fields : Talk → List String
  | .three => ["PERSON_ID", "TIME", "MESSAGE"]
  | .four | .five => ["TIME", "PERSON_ID", "OTHER_PERSON", "MESSAGE"]
  | .seven => ["PERSON_ID", "TIME", "MESSAGE", "OTHER_PERSON", "EMITTER_NAME", "RECEIVER_NAME"]
  | .six | .eight => ["TIME", "EMITTER_NAME", "RECEIVER_NAME", "MESSAGE"]

/-- a value that the object that was `a` may have given, whatever it was asked before -/
def MayGive (env : Env σ γ) (a : γ) (c : Cell) : Prop :=
  ∃ x n values x', Descends env a x ∧ env.sem.generate x n = .ok (values, x') ∧ c ∈ values

/-- What the record of a person `i` tells, at an execution at the date `d` with steps of length `len`: `g` gives the values
of the fields. There is one person `t` among `ids` (from script 4 on) whose id is `OTHER_PERSON` and whose name is
`RECEIVER_NAME`, when there are such fields. -/
structure Told (env : Env σ γ) (sentences : Int → γ) (s : Scene) (ids : List Val) (w : World σ γ) (d len : Int) (i : Val)
    (g : String → Cell) : Prop where
  person : "PERSON_ID" ∈ s.talk.fields → g "PERSON_ID" = .scalar i
  time : ∃ k : Nat, (k : Int) * 1000000000 < len ∧ g "TIME" = s.fmt (d + (k : Int) * 1000000000)
  hello : s.talk = .three ∨ s.talk = .four → g "MESSAGE" = .str "hello world"
  sentence : s.talk = .five ∨ s.talk = .six ∨ s.talk = .eight → ∃ seed, MayGive env (sentences seed) (g "MESSAGE")
  quote : s.talk = .seven → ∃ t, g "MESSAGE" = .scalar t ∧ ∀ o, (∃ wt, (i, t, wt) ∈ relationsAt o w 0) ∧
    (t ≠ .na → ∃ wt, wt ≠ 0 ∧ (i, t, wt) ∈ relationsAt o w 0)
  other : s.talk ≠ .three → ∃ t ∈ ids, ("OTHER_PERSON" ∈ s.talk.fields → g "OTHER_PERSON" = .scalar t) ∧
    ("RECEIVER_NAME" ∈ s.talk.fields → ValueOf w 0 "NAME" t (g "RECEIVER_NAME"))
  emitter : "EMITTER_NAME" ∈ s.talk.fields → ValueOf w 0 "NAME" i (g "EMITTER_NAME")

/-- a world where the story can be played: the persons are `ids`; in script 7 each has at least two quotes -/
structure Ready (env : Env σ (AnyGen σ)) (sentences : Int → AnyGen σ) (s : Scene) (ids : List Val)
    (w : World σ (AnyGen σ)) : Prop where
  wf : ∀ p ∈ w.pops, Population.WF p
  persons : ∃ p, w.pops[0]? = some p ∧ p.ids = ids
  story : ∃ x, w.stories[0]? = some x ∧ x.idField = "PERSON_ID" ∧ x.ids = ids
  stocks : StocksOk env s.talk.rels w
  said : s.talk = .five ∨ s.talk = .six ∨ s.talk = .eight → ∃ seed, Began env w s.sentences (sentences seed)
  anyone : s.talk ≠ .three → ∃ x, Began env w s.choice (.choice ids none x)
  quotes : s.talk = .seven → ∀ o, ∀ i ∈ ids, 2 ≤ held o w 0 i
  clock : 0 ≤ w.clock.step

/-- What a script has in the beginning: the persons, numbered in order, that have names and ages, and in script 7 four
quotes for each of them. In the first scripts all wait one step after each message; in script 8 each asks for 10, 20 or 30
messages in a week. There is nothing else. -/
structure Opening (n : Nat) (g : Blog.Parts (AnyGen σ)) (b : SeqGen) (env : Env σ (AnyGen σ)) (s : Scene)
    (w : World σ (AnyGen σ)) : Prop where
  persons : ∃ q, w.pops[0]? = some q ∧ q.ids = idsFrom b n ∧
    (∃ a, attributeOf q "NAME" a ∧ ∀ i ∈ q.ids, ∃ c, Holds a i c) ∧
    ∃ a, attributeOf q "age" a ∧ ∀ i ∈ q.ids, ∃ c, Holds a i c
  quotes : s.talk = .seven → ∀ o, QuotesGiven (idsFrom b n) (relationsAt o w 0)
  paced : s.talk ≠ .eight → Beats w 0 1 (idsFrom b n) ∧ AllWait w 0 1
  timers : s.talk = .eight → ∃ x, w.stories[0]? = some x ∧ x.autoReset = true ∧
    (∃ seed, Began env w x.timerGen (g.timer seed)) ∧
    ∀ i ∈ idsFrom b n, ∃ ps y, x.params.get? i = some ps ∧ ps.get? (.str "default") = some y ∧
      (y.activity = 10 ∨ y.activity = 20 ∨ y.activity = 30)
  only : w.pops.length = 1 ∧ w.rels.length = s.talk.rels.length ∧ ∃ x, w.stories = [x] ∧
    Begins x (idsFrom b n) (fun _ => False) ∧ (s.talk ≠ .eight → x.timerGen = .constant (.num 1))

end Slides
end Trumania
