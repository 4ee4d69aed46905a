import Verif.Spec.Slides
import Verif.Model.Firsts

/-!
# What the first two examples of the blog and of the presentation should show, and leave
-/

namespace Trumania
namespace Firsts
open Spec Cdr
open Slides (MayGive)
variable {σ γ : Type}

/-- What a table of the persons `ids` shows: a line for each of the first ten of them, in order, with two columns; on each
line the name and the age that the person has in `w`, which the generators of names and of ages gave. -/
structure Shows (env : Env σ γ) (g : Blog.Parts γ) (age : String) (ids : List Val) (w : World σ γ) (f : Frame) : Prop where
  cols : f.cols = ["NAME", age]
  rect : Rect f
  lines : f.index = ids.take 10
  values : ∀ r ∈ f.rows, ValueOf w 0 "NAME" r.idx (cell f r "NAME") ∧ ValueOf w 0 age r.idx (cell f r age)
  names : ∀ r ∈ f.rows, ∃ seed, MayGive env (g.names seed) (cell f r "NAME")
  ages : ∀ r ∈ f.rows, ∃ seed, MayGive env (g.ages seed) (cell f r age)

/-- What a run of `total` steps without stories leaves: no log, only the folder of the logs is gone if there was one; the
date has moved, and the populations are the same. -/
structure Idle (folder : Path) (total : Nat) (w : World σ γ) (fs : FS) (w' : World σ γ) (fs' : FS) : Prop where
  files : ∀ q n, At fs' q n ↔ At fs q n ∧ ¬ Below folder q
  date : w'.clock.current = w.clock.current + total * w.clock.step
  pops : w'.pops = w.pops
  stories : w'.stories = w.stories

end Firsts
end Trumania
