import Verif.Model.Slides

/-!
# Model of the examples 1 and 2 of `examples/datacamp-blogpost` and of `examples/presentation`

The scripts from the creation of the circus (which is made by `Circus.new`), in the order of the code since they draw from
the seeder of the circus. The generator objects are those of `Blog.Parts`. The size of the population is an argument, and so
are the duration and the folder of the runs. What is printed is the table that is given to `tabulate`.
-/

namespace Trumania
namespace Firsts
open Circus
open Blog (Parts)
variable {σ γ : Type} (env : Env σ γ)

/-- `DataFrame.head(n)` -/
def head (n : Nat) (f : Frame) : Frame := { f with rows := f.rows.take n }

/-- `person.to_dataframe().head(10)` (examples/datacamp-blogpost/01-a-basic-user-population.py:28,
examples/presentation/02_circus_with_actor.py:40) -/
def shown (person : Nat) : Act (World σ γ) Frame := do
  let q ← World.getPop person
  let f ← Act.ofPy q.toDataframe
  pure (head 10 f)

/-- the first example of the blog (examples/datacamp-blogpost/01-a-basic-user-population.py:17-29): its lines 17-24 are those
of the last one -/
def blogOne (n : Nat) (g : Parts γ) : Act (Circus σ γ) Frame := do
  let person ← Blog.createPersons env n g
  onWorld (shown person)

/-- the second example of the blog, up to the call of `run`
(examples/datacamp-blogpost/02-hello-world-statements.py:18-38) -/
def blogTwo (n : Nat) (g : Parts γ) (fmt : Int → Cell) : Act (Circus σ γ) (List (Op (World σ γ))) := do
  let person ← Blog.createPersons env n g
  let own ← createStory env (Blog.helloStory person none)
  pure (Ops.setOperations env own [Blog.timestamp env fmt, Blog.hello env, Ops.fieldLogger "hello" [] []])

/-- an action on the circus -/
def onCircus {α : Type} (a : Act (Circus σ γ) α) : Act (Sys σ γ) α := fun s =>
  match a s.circus with
  | .ok r c => .ok r { s with circus := c }
  | .error e c => .error e { s with circus := c }

/-- the first example of the presentation: a run without stories (examples/presentation/01_empty_circus.py:17-21) -/
def slideOne (text : Cell → Text) (folder : Path) (so : SetOrder String) (fuel : Nat) (duration : Int) :
    Act (Sys σ γ) Unit := Sys.run env text folder so fuel [] duration true

/-- the second example of the presentation (examples/presentation/02_circus_with_actor.py:20-41) -/
def slideTwo (n : Nat) (g : Parts γ) (text : Cell → Text) (folder : Path) (so : SetOrder String) (fuel : Nat)
    (duration : Int) : Act (Sys σ γ) Frame := do
  let person ← onCircus (Slides.createPersons env n g)
  Sys.run env text folder so fuel [] duration true
  onCircus (onWorld (shown person))

end Firsts
end Trumania
