import Verif.Spec.Journal

/-!
# Stories whose members act only when another story says so
-/

namespace Trumania
namespace Spec
variable {σ γ : Type}

/-- one execution of a story: its date, the story, and the members that acted -/
structure Deed where
  date : Int
  story : Nat
  members : List Val

/-- From `w` to `w'`, the stories were executed as listed, possibly with increments of the clock in
between; `chains` are the operations of the stories. -/
inductive Deeds (env : Env σ γ) (chains : List (List (Op (World σ γ)))) :
    World σ γ → List Deed → World σ γ → Prop
  | nil (w : World σ γ) : Deeds env chains w [] w
  | exec {w w1 w' : World σ γ} {l : List Deed} {i : Nat} {ops : List (Op (World σ γ))}
      {logs : Logs} {s : Story σ} (hi : chains[i]? = some ops) (hs : w.stories[i]? = some s)
      (h : World.execute env ops i w = .ok logs w1) (rest : Deeds env chains w1 l w') :
      Deeds env chains w (⟨w.clock.current, i, (actingRows s).map (·.idx)⟩ :: l) w'
  | tick {w w' : World σ γ} {l : List Deed} (rest : Deeds env chains (nextStep env w) l w') :
      Deeds env chains w l w'

/-- how many times a member acted in one of the stories -/
def timesActed (stories : List Nat) (id : Val) (deeds : List Deed) : Nat :=
  deeds.countP fun d => decide (d.story ∈ stories ∧ id ∈ d.members)

/-- the member has a timer that has not run out -/
def Scheduled (s : Story σ) (id : Val) : Prop := ∃ q : Rat, 0 ≤ q ∧ timerOf s id = some (some q)

/-- Operations of a story which, in the story `b`, forces or resets nobody but the member that acts.
Its other operations neither force nor reset members of `b`, nor make a field named as the one that
holds the member. -/
inductive TriggersOwn (env : Env σ γ) (b : Nat) (own : String) : Op (World σ γ) → Prop
  | other {op : Op (World σ γ)}
      (h : OpWithin env (· ≠ b) (· ≠ b) (Clear own) (fun _ => True) (fun _ => True) op) :
      TriggersOwn env b own op
  | reset : TriggersOwn env b own (Ops.resetTimers env b none)
  | resetField : TriggersOwn env b own (Ops.resetTimers env b (some own))
  | force (cond : Option String) : TriggersOwn env b own (Ops.forceActNext b own cond)

/-- The stories `triggers` are the only ones that force or reset members of the story `b`, and only the
very member that acts. -/
def OnlyTriggeredBy (env : Env σ γ) (b : Nat) (triggers : List Nat)
    (chains : List (List (Op (World σ γ)))) (w : World σ γ) : Prop :=
  ∀ (j : Nat) (ops : List (Op (World σ γ))) (s : Story σ), chains[j]? = some ops →
    w.stories[j]? = some s →
    (j ∈ triggers → ∀ op ∈ ops, TriggersOwn env b s.idField op) ∧
    (j ∉ triggers → ∀ op ∈ ops, BuiltIn env (· ≠ b) (· ≠ b) op)

end Spec
end Trumania
