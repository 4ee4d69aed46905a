import Verif.Spec.Relationship
import Verif.Spec.Story
import Mathlib.Data.Rat.Floor

/-!
# Vocabulary of the properties on probabilities

The random numbers themselves are not modelled: a random state gives numbers of `[0, 1)`, and a drawn
position is said to have probability `p` when it is drawn for the numbers of an interval of length `p`.
-/

namespace Trumania
namespace Spec
variable {σ : Type}

/-- position `i` is drawn by the number `u`: the shares of the weights are laid end to end on `[0, 1)`,
and `u` falls in the share of the `i`-th weight -/
def Share (ws : List Rat) (i : Nat) (u : Rat) : Prop :=
  (ws.take i).sum / ws.sum ≤ u ∧ u < (ws.take (i + 1)).sum / ws.sum

/-- the next number of a random state -/
def nextNumber (R : Rng σ) (s : σ) : Rat := (R.uniform s 1).1.headD 0

/-- the random state after one number -/
def advance (R : Rng σ) (s : σ) : σ := (R.uniform s 1).2

/-- the relations of a from: (to, weight), in the order in which they are stored -/
def relationsOf (content : List (Val × Val × Rat)) (f : Val) : List (Val × Rat) :=
  (content.filter fun x => decide (x.1 = f)).map Prod.snd

/-- the weight used for a relation -/
def weighed (ow : Option (Dict Val Rat)) (x : Val × Rat) : Rat :=
  match ow with
  | none => x.2
  | some d => (d.get? x.1).getD 0

/-- The rows of a selection, one number of the random state being used, in order, for each request
whose from has several relations: random state before, requests (label, from), rows, random state
after. -/
inductive Picks (R : Rng σ) (content : List (Val × Val × Rat)) (discard : Bool)
    (ow : Option (Dict Val Rat)) : σ → List (Val × Val) → List OneRow → σ → Prop
  | nil (s : σ) : Picks R content discard ow s [] [] s
  | absent {s s' : σ} {label f : Val} {reqs : List (Val × Val)} {rows : List OneRow}
      (h : relationsOf content f = []) (rest : Picks R content discard ow s reqs rows s') :
      Picks R content discard ow s ((label, f) :: reqs)
        ((if discard then [] else [⟨label, f, none, none⟩]) ++ rows) s'
  | only {s s' : σ} {label f t : Val} {w : Rat} {reqs : List (Val × Val)} {rows : List OneRow}
      (h : relationsOf content f = [(t, w)]) (rest : Picks R content discard ow s reqs rows s') :
      Picks R content discard ow s ((label, f) :: reqs) (⟨label, f, some 0, some t⟩ :: rows) s'
  | drawn {s s' : σ} {label f t : Val} {w : Rat} {i : Nat} {reqs : List (Val × Val)}
      {rows : List OneRow} (h : 2 ≤ (relationsOf content f).length)
      (hi : (relationsOf content f)[i]? = some (t, w))
      (hu : Share ((relationsOf content f).map (weighed ow)) i (nextNumber R s))
      (rest : Picks R content discard ow (advance R s) reqs rows s') :
      Picks R content discard ow s ((label, f) :: reqs) (⟨label, f, some i, some t⟩ :: rows) s'

/-- the bin of a cycle designated by a number of `[0, 1]`: the shares of the bins are laid end to
end, each one closed on the right -/
def InBin (v : List Rat) (j : Nat) (x : Rat) : Prop :=
  j < v.length ∧ (0 < j → (v.take j).sum / v.sum < x) ∧ x ≤ (v.take (j + 1)).sum / v.sum

/-- activities up to 2 actions per cycle -/
def isLow (a : Rat) : Bool := decide (0 < a ∧ a ≤ 2)

/-- activities above 2 actions per cycle -/
def isHigh (a : Rat) : Bool := decide (2 < a)

/-- one number of the beta distribution of parameters 1 and `a - 1` for each activity `a`, in
order, and the random state after them -/
def betaNumbers (R : Rng σ) : σ → List Rat → List Rat × σ
  | s, [] => ([], s)
  | s, a :: as =>
    ((R.beta s 1 (a - 1)).1 :: (betaNumbers R (R.beta s 1 (a - 1)).2 as).1,
      (betaNumbers R (R.beta s 1 (a - 1)).2 as).2)

/-- the random state once the numbers of the low activities are drawn -/
def afterLows (R : Rng σ) (s : σ) (obs : List Rat) : σ :=
  if obs.countP isLow = 0 then s else (R.uniform s (obs.countP isLow)).2

/-- the members, among the given ones, that are not in the state `default` -/
def awayOf (s : Story σ) (ids : List Val) : List Val :=
  ids.filter fun i => decide (stateOf s i ≠ some (.str "default"))

end Spec
end Trumania
