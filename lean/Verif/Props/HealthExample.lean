import Verif.Props.CdrExample
import Verif.Props.Health

/-!
# A run of the scenario of test_cdr.py: the hypotheses of C123 hold of it
-/

namespace Trumania
namespace Cdr
open Spec World

/-- one cell only breaks down -/
def exOneBreaks : Parts (AnyGen Nat) :=
  { exParts with faults := fun _ => .fixed ((List.range 200).map fun i => if i = 0 then .num 1 else .num 0)
                 cellHealth := fun _ => .constant (.num 1) }

def exBuilt3 : Option (List (List (Op (World Nat (AnyGen Nat)))) × Circus Nat (AnyGen Nat)) :=
  match Circus.new Rng.counter "cdr" 1234 0 (3600 * nsPerSec) with
  | .ok c => match build exEnv ⟨2, 3, 1⟩ exOneBreaks Snd.exFmt c with
    | .ok chains c' => some (chains, c')
    | .error _ _ => none
  | .error _ => none

def statusesOf (id : String) (l : Logs) : List Cell :=
  (tablesOf id l).flatMap fun t => t.rows.map fun r => cell t r "STATUS"

/-- the levels of a cell, the status of the calls and of the messages, after some steps -/
def exLevels (steps : List (Option Nat)) : Option (List Cell × List Cell × List Cell) :=
  exBuilt3.bind fun x => (Snd.play exEnv x.1 steps x.2.world).map fun r =>
    (levelsOf (.num 0) (emitted r.1), statusesOf "voice_cdr" (emitted r.1), statusesOf "sms_cdr" (emitted r.1))

/-- the cell of everybody breaks down, and calls are dropped; it is repaired, and messages go through -/
theorem exRepaired : exLevels [some 2, some 0, some 4, some 1, some 5] =
    some ([.num 0, .num 1], [.str "DROPPED", .str "DROPPED"], [.str "OK", .str "OK"]) := by
  decide +kernel

/-- the hypotheses of C123 hold of this run -/
example : ∃ c c' chains evs w', Circus.new exEnv.R "cdr" 1234 0 (3600 * nsPerSec) = .ok c ∧
    build exEnv ⟨2, 3, 1⟩ exOneBreaks Snd.exFmt c = .ok chains c' ∧ Played exEnv chains c'.world evs w' ∧
    lastLevel (.num 0) (.num 1) (emitted evs) = .num 1 := by
  obtain ⟨⟨chains, c'⟩, h1, h2⟩ := Option.bind_eq_some_iff.1 exRepaired
  obtain ⟨⟨evs, w'⟩, h3, h4⟩ := Option.map_eq_some_iff.1 h2
  rw [exBuilt3] at h1
  split at h1
  · rename_i c hc
    split at h1
    · rename_i hb
      cases h1
      refine ⟨c, _, _, evs, w', hc, hb, Snd.play_played h3, ?_⟩
      have := congrArg Prod.fst h4
      change levelsOf (.num 0) (emitted evs) = _ at this
      rw [lastLevel, this]
      rfl
    · cases h1
  · cases h1

end Cdr
end Trumania
