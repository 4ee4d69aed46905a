import Verif.Model.World

/-!
# Vocabulary of the properties on stories
-/

namespace Trumania
namespace Spec
variable {σ γ : Type}

/-- the timer of a member of a story: `none` if the story does not know the member, `some none` if
the timer is NaN -/
def timerOf (s : Story σ) (id : Val) : Option (Option Rat) :=
  (s.timer.find? (fun r => decide (r.id = id))).map (·.remaining)

/-- the state a member of a story is in -/
def stateOf (s : Story σ) (id : Val) : Option Val :=
  (s.timer.find? (fun r => decide (r.id = id))).map (·.state)

/-- the rows on which a story starts: one per member with timer 0, in the order of the members -/
def actingRows (s : Story σ) : List Row :=
  s.timer.filterMap fun r =>
    if r.remaining = some 0 then some { idx := r.id, cells := [.scalar r.id] } else none

/-- a member acts: its id is the label of one of the rows on which the story starts -/
def Acts (s : Story σ) (id : Val) : Prop := id ∈ (actingRows s).map (·.idx)

/-- the circus one clock step later: the date has advanced and every generator that listens to the
clock has been told -/
def nextStep (env : Env σ γ) (w : World σ γ) : World σ γ :=
  { w with clock := { w.clock with
      current := w.clock.current + w.clock.step
      listeners := w.clock.listeners.map env.sem.tick } }

/-- one clock step on a timer -/
def ticked : Option Rat → Option Rat
  | none => none
  | some q => if 0 ≤ q then some (q - 1) else some q

/-- `w` with the story `i` having forgotten who was forced -/
def started (w : World σ γ) (i : Nat) (s : Story σ) : World σ γ :=
  { w with stories := w.stories.set i { s with forced := [] } }

/-- `w1` is the world right after the operations of the story `i` executed in `w`, and `logs` what
they logged: the operations run on the acting rows, if there is one. -/
def AfterOps (env : Env σ γ) (ops : List (Op (World σ γ))) (i : Nat) (w : World σ γ) (logs : Logs)
    (w1 : World σ γ) : Prop :=
  ∃ s, w.stories[i]? = some s ∧
    ((actingRows s = [] ∧ logs = [] ∧ w1 = started w i s) ∨
     (actingRows s ≠ [] ∧ ∃ data,
        World.chain env.logSet ops ⟨[s.idField], actingRows s⟩ (started w i s) =
          .ok (data, logs) w1))

/-- the parameters of a member in a story: those declared for the state it is in (for `default` if
there is no other state) -/
def paramsOf (s : Story σ) (id : Val) : Option StateParams := do
  let byState ← s.params.get? id
  let st ← stateOf s id
  byState.get? (if s.states.length = 1 then .str "default" else st)

/-- The timers given to the members `ids` of the story `s` come from one call of its timer generator
on their activities, in order; members of activity 0 get -1. `w` and `w'` are the states of the
world before and after the call. -/
def Rescheduled (env : Env σ γ) (w : World σ γ) (s : Story σ) (ids : List Val)
    (timer : Val → Option (Option Rat)) (w' : World σ γ) : Prop :=
  ∃ (params : List StateParams) (cells : List Cell),
    List.Forall₂ (fun id p => paramsOf s id = some p) ids params ∧
    World.observe env s.timerGen (params.map fun p => .scalar (.num p.activity)) w =
      .ok cells w' ∧
    cells.length = ids.length ∧
    ∀ (k : Nat) (id : Val) (p : StateParams) (c : Cell),
      ids[k]? = some id → params[k]? = some p → cells[k]? = some c →
      (p.activity = 0 → timer id = some (some (-1))) ∧
      (p.activity ≠ 0 → (∃ q, c = .scalar (.num q) ∧ timer id = some (some q)) ∨
        (c = .scalar .na ∧ timer id = some none))

/-- The numbers drawn for the states of a new story, state after state: first the activities, then
the probabilities of returning to the default state, `size` of each. -/
inductive StateDraws (env : Env σ γ) (size : Nat) : World σ γ → List (Val × World.StateGens) →
    List (Val × List Rat × List Rat) → World σ γ → Prop
  | nil (w : World σ γ) : StateDraws env size w [] [] w
  | cons {w w1 w2 w3 : World σ γ} {st : Val} {g : World.StateGens} {acts backs : List Rat}
      {order : List (Val × World.StateGens)} {drawn : List (Val × List Rat × List Rat)}
      (ha : World.generate env g.activity (size : Rat) w = .ok (acts.map fun q => .scalar (.num q)) w1)
      (hb : World.generate env g.back (size : Rat) w1 = .ok (backs.map fun q => .scalar (.num q)) w2)
      (rest : StateDraws env size w2 order drawn w3) :
      StateDraws env size w ((st, g) :: order) ((st, acts, backs) :: drawn) w3

end Spec
end Trumania
