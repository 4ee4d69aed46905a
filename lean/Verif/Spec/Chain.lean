import Verif.Model.World

/-!
# Sequential composition of operations

What executing operations one after the other means, without reference to `Chain`.
-/

namespace Trumania
namespace Spec
variable {W : Type}

/-- the operations are executed in order, each one on the output of the previous one; `ls` are the
logs of each of them -/
inductive Runs : List (Op W) → Frame → W → Frame → List Logs → W → Prop
  | nil (data : Frame) (w : W) : Runs [] data w data [] w
  | cons {op : Op W} {ops : List (Op W)} {data mid out : Frame} {w w1 w2 : W} {l : Logs}
      {ls : List Logs} (h : op data w = .ok (mid, l) w1) (hs : Runs ops mid w1 out ls w2) :
      Runs (op :: ops) data w out (l :: ls) w2

/-- some operations are executed in order, then one raises `e`; the rest is not executed -/
inductive Raises : List (Op W) → Frame → W → Err → W → Prop
  | intro {pre : List (Op W)} {op : Op W} {post : List (Op W)} {data mid : Frame} {w w1 w2 : W}
      {ls : List Logs} {e : Err} (h : Runs pre data w mid ls w1) (he : op mid w1 = .error e w2) :
      Raises (pre ++ op :: post) data w e w2

/-- Two operations that do the same, up to the order of the log ids. -/
def SameOp (a b : Op W) : Prop :=
  ∀ data w,
    match a data w, b data w with
    | .ok x u, .ok y v => x.1 = y.1 ∧ (∀ id, x.2.get? id = y.2.get? id) ∧ u = v
    | .error e u, .error f v => e = f ∧ u = v
    | _, _ => False

/-- chains of chains -/
inductive Nested (W : Type) where
  | op (o : Op W)
  | chain (l : List (Nested W))

mutual
/-- the nested chains built with a given constructor of chains -/
def Nested.build (mk : List (Op W) → Op W) : Nested W → Op W
  | .op o => o
  | .chain l => mk (Nested.buildAll mk l)
/-- same for a list -/
def Nested.buildAll (mk : List (Op W) → Op W) : List (Nested W) → List (Op W)
  | [] => []
  | t :: l => Nested.build mk t :: Nested.buildAll mk l
end

mutual
/-- all the operations, from left to right -/
def Nested.leaves : Nested W → List (Op W)
  | .op o => [o]
  | .chain l => Nested.leavesAll l
/-- same for a list -/
def Nested.leavesAll : List (Nested W) → List (Op W)
  | [] => []
  | t :: l => Nested.leaves t ++ Nested.leavesAll l
end

/-- the cells of a column, NaN for the rows of frames without it -/
def cellsOf (f : Frame) (name : String) : List Cell :=
  f.rows.map fun r =>
    match (f.cols.zip r.cells).find? (fun x => decide (x.1 = name)) with
    | some x => x.2
    | none => .na

/-- the names in order of first appearance -/
def firstSeen : List String → List String
  | [] => []
  | c :: l => c :: (firstSeen l).filter (fun d => decide (d ≠ c))

/-- `r` is the concatenation of the logs `fs`: a single log as it is; for several logs, all their
columns, in order of first appearance; column by column, all their rows in order, NaN where a log has
no such column; the rows being numbered from 0 -/
def IsConcatenation (fs : List Frame) (r : Frame) : Prop :=
  (∀ f, fs = [f] → r = f) ∧
  (∀ c, c ∈ r.cols ↔ ∃ f ∈ fs, c ∈ f.cols) ∧
  ((∀ f ∈ fs, f.cols.Nodup) → r.cols = firstSeen (fs.flatMap (·.cols))) ∧
  r.rows.length = (fs.map (·.rows.length)).sum ∧
  (∀ name, cellsOf r name = fs.flatMap (cellsOf · name)) ∧
  (2 ≤ fs.length → r.rows.map (·.idx) = (List.range r.rows.length).map fun k : Nat => Val.num (k : Rat))

end Spec
end Trumania
