import Verif.Spec.Story
import Verif.Spec.Circus
import Verif.Spec.FileSystem

/-!
# Vocabulary of the properties on runs: what happens, at which date, and what is logged
-/

namespace Trumania
namespace Spec
variable {σ γ : Type}

/-- what happens during a run: the execution of a story, with its logs, or an increment of the clock -/
inductive Event where
  | exec (story : Nat) (logs : Logs)
  | tick

/-- the executed story, none for an increment of the clock -/
def Event.story : Event → Option Nat
  | .exec i _ => some i
  | .tick => none

/-- the logs of an event -/
def Event.logs : Event → Logs
  | .exec _ logs => logs
  | .tick => []

/-- from `w` to `w'`, the listed events happened, at the listed dates; `chains` are the operations of
the stories -/
inductive Played (env : Env σ γ) (chains : List (List (Op (World σ γ)))) :
    World σ γ → List (Int × Event) → World σ γ → Prop
  | nil (w : World σ γ) : Played env chains w [] w
  | exec {w w1 w' : World σ γ} {l : List (Int × Event)} {i : Nat} {ops : List (Op (World σ γ))}
      {logs : Logs} (hi : chains[i]? = some ops) (h : World.execute env ops i w = .ok logs w1)
      (rest : Played env chains w1 l w') :
      Played env chains w ((w.clock.current, .exec i logs) :: l) w'
  | tick {w w' : World σ γ} {l : List (Int × Event)}
      (rest : Played env chains (nextStep env w) l w') :
      Played env chains w ((w.clock.current, .tick) :: l) w'

/-- `n` steps of a circus with `m` stories: the date and the story of each event -/
def schedule (start step : Int) (n m : Nat) : List (Int × Option Nat) :=
  (List.range n).flatMap fun (k : Nat) =>
    ((List.range m).map fun i => (start + (k : Int) * step, some i)) ++
      [(start + (k : Int) * step, none)]

/-- operations that leave the clock alone -/
def KeepsDate (op : Op (World σ γ)) : Prop :=
  ∀ d w, ((op d).after w).clock.current = w.clock.current ∧ ((op d).after w).clock.step = w.clock.step

/-- the logs of a list of events, in order -/
def emitted (l : List (Int × Event)) : Logs := l.flatMap fun e => e.2.logs

/-- the tables emitted under a log id -/
def tablesOf (id : String) (logs : Logs) : List Frame :=
  (logs.filter fun x => decide (x.1 = id)).map Prod.snd

/-- the rows emitted under a log id -/
def loggedRows (id : String) (logs : Logs) : List Row := (tablesOf id logs).flatMap (·.rows)

/-- the columns of the first emitted rows -/
def headerOf (id : String) (logs : Logs) : List String :=
  match (tablesOf id logs).find? (fun f => !f.rows.isEmpty) with
  | some f => f.cols
  | none => []

/-- one header and all the rows -/
def fullLog (fmt : Cell → Text) (id : String) (logs : Logs) : Text :=
  writeCsv true ((headerOf id logs).map String.toList)
    ((loggedRows id logs).map fun r => r.cells.map fmt)

/-- the file of a log id -/
def csvOf (folder : Path) (id : String) : Path := folder ++ [id ++ ".csv"]

/-- `fs` is `fs0` with exactly the log files of `logs` in a new `folder` -/
structure LogsWritten (fmt : Cell → Text) (folder : Path) (fs0 : FS) (logs : Logs) (fs : FS) :
    Prop where
  tree : Tree fs
  content : ∀ q n, At fs q n ↔ At fs0 q n ∨
    (logs ≠ [] ∧ n = .dir ∧ Below q folder ∧ Absent fs0 q) ∨
    ∃ id, q = csvOf folder id ∧ loggedRows id logs ≠ [] ∧ n = .file (fullLog fmt id logs)

end Spec
end Trumania
