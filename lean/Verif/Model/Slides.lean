import Verif.Model.Blog

/-!
# Model of the examples 3 to 8 of `examples/presentation` (persons that say hello)

The scripts up to the call of `run`, in the order of the code since they draw from the seeder of the circus. They share
most of their text with each other and with the examples of the blog: the generator objects are those of `Blog.Parts` (with
other parameters; `quotes` is the `FakerGenerator(method="sentence", ...)`, `timer` the `WorkHoursTimerGenerator` of script
8), and so are some of the operations. The lines are those of `08_circus_with_timed_story.py`, and of the others where they
differ. The size of the population is an argument.
-/

namespace Trumania
namespace Slides
open Circus
open Blog (Parts)
variable {σ γ : Type} (env : Env σ γ)

/-- the scripts -/
inductive Talk where
  | three | four | five | six | seven | eight
deriving DecidableEq

/-! ### Persons -/

/-- `create_circus_with_population` (examples/presentation/08_circus_with_timed_story.py:16-38) once the circus is made -/
def createPersons (n : Nat) (g : Parts γ) : Act (Circus σ γ) Nat := do
  let ids ← onWorld (Snd.addGenerator g.personIds)
  let person ← createPopulation env "person" (.generated ids n)
  let names ← onWorld (Snd.seeded env g.names)
  onWorld (Snd.createDrawn env person "NAME" names)
  let ages ← onWorld (Snd.seeded env g.ages)
  onWorld (Snd.createDrawn env person "age" ages)
  pure person

/-! ### The story -/

/-- the activities and the timer of script 8 (examples/presentation/08_circus_with_timed_story.py:50-58), and the story:
those of the other scripts have a constant timer (examples/presentation/06_circus_with_story.py:43-49) -/
def addStory (g : Parts γ) (person : Nat) : Talk → Act (Circus σ γ) Nat
  | .eight => do
    let activity ← onWorld (Snd.seeded env (g.choice [.num 10, .num 20, .num 30] none))
    let timer ← onWorld (Snd.seeded env g.timer)
    createStory env (Blog.helloStory person (some (timer, activity)))
  | _ => createStory env (Blog.helloStory person none)

/-- The objects that the operations use: the persons, the relationship of their quotes, the generator of sentences, and the
one that draws among the persons -/
structure Cast where
  person : Nat
  quotes : Nat
  sentences : GenRef
  choice : GenRef

/-- a sentence (examples/presentation/08_circus_with_timed_story.py:69-74) -/
def sentence (gen : GenRef) : Op (World σ γ) := Ops.randomValues env gen "MESSAGE" none

/-- what is said: "hello world" (examples/presentation/03_circus_with_story.py:53, 04_circus_with_story.py:56), a quote
(examples/presentation/07_circus_with_story_and_relationship.py:78-82), or a sentence -/
def message (x : Cast) : Talk → Op (World σ γ)
  | .three | .four => Blog.hello env
  | .seven => Blog.quote env x.quotes
  | _ => sentence env x.sentences

/-- to whom, and the names of both: nobody in script 3, and only the id of the other one in script 5
(examples/presentation/05_circus_with_story.py:65-67, 08_circus_with_timed_story.py:77-89) -/
def others (x : Cast) : Talk → List (Op (World σ γ))
  | .three => []
  | .five => [Blog.anyone env x.choice]
  | _ => [Blog.anyone env x.choice, Blog.emitter x.person, Blog.receiver x.person]

/-- the columns that are asked for: all of them when nothing is said (examples/presentation/03_circus_with_story.py:54,
04_circus_with_story.py:73, 05_circus_with_story.py:71, 06_circus_with_story.py:83,
07_circus_with_story_and_relationship.py:100, 08_circus_with_timed_story.py:93) -/
def Talk.cols : Talk → List String
  | .three | .seven => []
  | .four | .five => ["TIME", "PERSON_ID", "OTHER_PERSON", "MESSAGE"]
  | .six | .eight => ["TIME", "EMITTER_NAME", "RECEIVER_NAME", "MESSAGE"]

/-- the operations of the story (examples/presentation/08_circus_with_timed_story.py:61-96, and the same of the others) -/
def operations (fmt : Int → Cell) (x : Cast) (t : Talk) : List (Op (World σ γ)) :=
  [Blog.timestamp env fmt, message env x t] ++ others env x t ++ [Ops.fieldLogger "hello" t.cols []]

/-- the objects made while the operations are listed: the quotes are looked up, or the generator of sentences is made; then
the generator that draws among the persons -/
def cast (g : Parts γ) (person : Nat) : Talk → Act (World σ γ) Cast
  | .three => pure ⟨person, 0, .ref 0, .ref 0⟩
  | .four => do
    let choice ← Blog.choiceIn env g person
    pure ⟨person, 0, .ref 0, choice⟩
  | .seven => do
    let quotes ← Snd.relNamed person "quotes"
    let choice ← Blog.choiceIn env g person
    pure ⟨person, quotes, .ref 0, choice⟩
  | _ => do
    let sentences ← Snd.seeded env g.quotes
    let choice ← Blog.choiceIn env g person
    pure ⟨person, 0, sentences, choice⟩

/-- `add_quotes` in script 7 (examples/presentation/07_circus_with_story_and_relationship.py:41-61) -/
def addQuotes (g : Parts γ) (person : Nat) : Talk → Act (World σ γ) Unit
  | .seven => Blog.addQuotes env g person
  | _ => pure ()

/-- the scripts (examples/presentation/08_circus_with_timed_story.py:41-96, and the same of the others) -/
def Talk.build (t : Talk) (n : Nat) (g : Parts γ) (fmt : Int → Cell) : Act (Circus σ γ) (List (Op (World σ γ))) := do
  let person ← createPersons env n g
  onWorld (addQuotes env g person t)
  let own ← addStory env g person t
  let x ← onWorld (cast env g person t)
  pure (Ops.setOperations env own (operations env fmt x t))

end Slides
end Trumania
