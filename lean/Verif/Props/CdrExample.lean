import Verif.Props.CdrTrigger

/-!
# A run of the scenario of test_cdr.py: the hypotheses of C110 to C117 hold of it
-/

namespace Trumania
namespace Cdr
open Spec World Circus

def exParts : Parts (AnyGen Nat) where
  subIds := .seq ⟨0, "SUBS_", 3⟩
  operators _ _ := [[.str "OPERATOR_0", .str "OPERATOR_1"], [.str "OPERATOR_1"], [.str "OPERATOR_0"]]
  simIds := .seq ⟨0, "SIM_", 3⟩
  msisdns seed := .msisdn (MsisdnGen.new "0032" ["472", "473"] 1) seed
  bipartite n _ _ _ := (List.range n).flatMap fun i => [(i, n), (i, n + 1)]
  agentWeights _ := .constant (.num 1)
  cellIds := .fixed ((List.range 200).map fun i => .num i)
  latitude _ := .constant (.num 1)
  longitude _ := .constant (.num 1)
  cellHealth _ := .constant (.num 0)
  cities _ := .constant (.num 1)
  cityPopulation _ := .constant (.num 7)
  repairTimer seed := .cyclic ⟨Rng.counter.seed seed, 1, [(0, 1)]⟩
  unhealthy _ := .constant (.num 0)
  healthy _ := .constant (.num 1)
  faults _ := .constant (.num 1)
  repairs _ := .constant (.num 1)
  mobilityTimer seed := .cyclic ⟨Rng.counter.seed seed, 1, [(0, 1)]⟩
  mobilityWeights _ := .constant (.num 1)
  friends _ _ _ := [(0, 1), (1, 2)]
  durations _ := .constant (.num 60)
  callTimer seed := .cyclic ⟨Rng.counter.seed seed, 1, [(0, 1)]⟩
  rechargeTrigger seed := .trigger (fun l => l.map fun q => if q < 900 then 1 else 0) (Rng.counter.seed seed)
  normalActivity _ := .constant (.num 10)
  excitedActivity _ := .constant (.num 20)
  excitability _ := .constant (.num 1)
  flatTrigger seed := .trigger id (Rng.counter.seed seed)
  backToNormal _ := .constant (.num 1)

def exBuilt : Option (List (List (Op (World Nat (AnyGen Nat)))) × Circus Nat (AnyGen Nat)) :=
  match Circus.new Rng.counter "cdr" 1234 0 (3600 * nsPerSec) with
  | .ok c => match build exEnv ⟨2, 3, 1⟩ exParts Snd.exFmt c with
    | .ok chains c' => some (chains, c')
    | .error _ _ => none
  | .error _ => none

/-- moves, calls, messages, an increment of the clock, top-ups -/
def exSteps : List (Option Nat) := [some 2, some 4, some 5, none, some 3]

def number : Val := .str "00324722"

structure Seen where
  spent : Rat
  toppedUp : Rat
  statuses : List Cell
  talks : Nat
  topUps : Nat
deriving DecidableEq

def exSeen (logs : Logs) : Seen :=
  ⟨spent number logs, toppedUp number logs,
   (tablesOf "voice_cdr" logs).flatMap fun t => t.rows.map fun r => cell t r "STATUS",
   talks number logs, topUps number logs⟩

/-- the scenario is built and runs: one number pays a call, although it was dropped, and a message, and is topped up
once -/
theorem exRun : (exBuilt.bind fun x => (Snd.play exEnv x.1 exSteps x.2.world).map fun r =>
    exSeen (emitted r.1)) = some ⟨130, 1000,
      [.str "DROPPED", .str "DROPPED"], 2, 1⟩ := by
  decide +kernel

/-- the hypotheses of the theorems hold of this run -/
example : ∃ c c' chains evs w', Circus.new exEnv.R "cdr" 1234 0 (3600 * nsPerSec) = .ok c ∧
    build exEnv ⟨2, 3, 1⟩ exParts Snd.exFmt c = .ok chains c' ∧ exEnv.sem = AnyGen.sem Rng.counter ∧
    (∀ n q seed, ∀ e ∈ exParts.friends n q seed, e.1 ≠ e.2) ∧ Played exEnv chains c'.world evs w' ∧
    spent number (emitted evs) = 130 ∧ toppedUp number (emitted evs) = 1000 ∧ talks number (emitted evs) = 2 ∧
    topUps number (emitted evs) = 1 ∧ exEnv.sem = AnyGen.sem exEnv.R ∧ (∃ rng : Int → Nat, ∀ seed,
      exParts.flatTrigger seed = .trigger id (rng seed)) ∧ ∃ rng : Int → Nat, ∀ seed,
      exParts.rechargeTrigger seed = .trigger (fun l => l.map fun q => if q < 900 then 1 else 0) (rng seed) := by
  obtain ⟨⟨chains, c'⟩, h1, h2⟩ := Option.bind_eq_some_iff.1 exRun
  obtain ⟨⟨evs, w'⟩, h3, h4⟩ := Option.map_eq_some_iff.1 h2
  rw [exBuilt] at h1
  split at h1
  · rename_i c hc
    split at h1
    · rename_i hb
      cases h1
      refine ⟨c, _, _, evs, w', hc, hb, rfl, ?_, Snd.play_played h3, congrArg Seen.spent h4, congrArg Seen.toppedUp h4,
        congrArg Seen.talks h4, congrArg Seen.topUps h4, rfl, ⟨Rng.counter.seed, fun _ => rfl⟩, Rng.counter.seed, fun _ => rfl⟩
      intro n q seed e he
      simp only [exParts, List.mem_cons, List.not_mem_nil, or_false] at he
      rcases he with rfl | rfl <;> decide
    · cases h1
  · cases h1

end Cdr
end Trumania
