import Verif.Spec.Api
import Verif.Spec.Instances
import Verif.Spec.Relationship
import Verif.Model.AnyGen

/-! A concrete circus, used by the non-vacuity examples. -/

namespace Trumania

/-- the state left by a successful action -/
def Act.world? {W α : Type} (x : Act W α) (w : W) : Option W :=
  match x w with
  | .ok _ w' => some w'
  | .error _ _ => none

/-- the value returned by a successful action -/
def Act.value? {W α : Type} (x : Act W α) (w : W) : Option α :=
  match x w with
  | .ok a _ => some a
  | .error _ _ => none

/-- the exception raised by an action -/
def Act.raised? {W α : Type} (x : Act W α) (w : W) : Option Err :=
  match x w with
  | .ok _ _ => none
  | .error e _ => some e

def exEnv : Env Nat (AnyGen Nat) :=
  ⟨Rng.counter, Orders.a, SetOrder.dedup String, AnyGen.sem Rng.counter⟩

/-- three members: "a" acts now, "b" is in state "busy" and acts in two steps, "c" is inactive -/
def exStory : Story Nat where
  name := "calls"
  population := 0
  idField := "CALLER"
  timerGen := .constant (.num 3)
  autoReset := true
  judge := 0
  states := [defaultState, .str "busy"]
  params := [(.str "a", [(defaultState, ⟨1, 1⟩), (.str "busy", ⟨2, 0⟩)]),
    (.str "b", [(defaultState, ⟨1, 1⟩), (.str "busy", ⟨0, 1/2⟩)]),
    (.str "c", [(defaultState, ⟨0, 1⟩), (.str "busy", ⟨0, 1⟩)])]
  timer := [⟨.str "a", defaultState, some 0⟩, ⟨.str "b", .str "busy", some 2⟩,
    ⟨.str "c", defaultState, some (-1)⟩]
  forced := []

/-- a second story, without auto-reset, in which nobody is scheduled -/
def exStory2 : Story Nat := { exStory with
  name := "recharges", idField := "PAYER", autoReset := false
  timer := [⟨.str "a", defaultState, some (-1)⟩, ⟨.str "b", defaultState, some (-1)⟩,
    ⟨.str "c", defaultState, some (-1)⟩] }

def exPop : Population where
  ids := [.str "a", .str "b", .str "c"]
  size := 3
  attributes := [("AGE", ⟨[(.str "a", .num 30), (.str "b", .num 40), (.str "c", .num 50)]⟩)]
  relationships := []

def exWorld : World Nat (AnyGen Nat) where
  clock := ⟨0, 3600 * nsPerSec, 0, [.seq ⟨0, "id_", 3⟩]⟩
  seeder := 0
  rels := []
  pops := [exPop]
  stories := [exStory, exStory2]

/-- timers of the stories of a world, for the examples -/
def World.timers {σ γ : Type} (w : World σ γ) : List (List (Option Rat)) :=
  w.stories.map fun s => s.timer.map (·.remaining)

end Trumania
