import Mathlib.Data.String.Basic
/-!
# Basic vocabulary of the model

Exceptions as values, scalar values, dictionaries.
-/

namespace Trumania

/-- The Python exceptions raised (explicitly or by pandas/numpy) in the modelled code. -/
inductive Err where
  | valueError
  | keyError
  | typeError
  | indexError
  | attributeError
  | assertionError
  | environmentError
  | zeroDivisionError
  /-- recursion deeper than the given bound -/
  | recursionError
deriving DecidableEq, Repr

/-- Result of a Python call: a value or a raised exception. -/
abbrev Py := Except Err

/-- Scalars stored in story data cells, attribute tables and relationships.
`na` is `None`/`NaN`; floats and ints are both exact rationals (rounding is not modelled). -/
inductive Val where
  | na
  | bool (b : Bool)
  | num (q : Rat)
  | str (s : String)
deriving DecidableEq, Repr

namespace Val

/-- Rank of the type in the (total) order used when sorting ids. numpy only sorts arrays of one
type; the order between different types is irrelevant in practice and fixed here arbitrarily. -/
def rank : Val → Nat
  | na => 0
  | bool _ => 1
  | num _ => 2
  | str _ => 3

/-- `a <= b` as used by `argsort` / sorted pandas indices. -/
def le : Val → Val → Bool
  | bool a, bool b => !a || b
  | num a, num b => decide (a ≤ b)
  | str a, str b => decide (a ≤ b)
  | a, b => decide (a.rank ≤ b.rank)

end Val

/-- insertion of an element in a sorted list, before the first element it is `le` to -/
def insertBy {α : Type} (le : α → α → Bool) (a : α) : List α → List α
  | [] => [a]
  | b :: l => if le a b then a :: b :: l else b :: insertBy le a l

/-- a stable sort -/
def sortBy {α : Type} (le : α → α → Bool) : List α → List α
  | [] => []
  | a :: l => insertBy le a (sortBy le l)

/-! ### Dictionaries

A Python `dict` is an association list in insertion order. -/

abbrev Dict (κ ν : Type) := List (κ × ν)

namespace Dict
variable {κ ν : Type} [DecidableEq κ]

/-- `d.get(k)` -/
def get? : Dict κ ν → κ → Option ν
  | [], _ => none
  | (k', v) :: d, k => if k' = k then some v else get? d k

/-- `d.keys()` -/
def keys (d : Dict κ ν) : List κ := d.map Prod.fst

/-- `k in d` -/
def contains (d : Dict κ ν) (k : κ) : Bool := (d.get? k).isSome

/-- `d[k]`, raising `KeyError` -/
def get (d : Dict κ ν) (k : κ) : Py ν :=
  match d.get? k with
  | some v => .ok v
  | none => .error .keyError

/-- `d[k] = v`: in place when the key exists, appended otherwise -/
def set : Dict κ ν → κ → ν → Dict κ ν
  | [], k, v => [(k, v)]
  | (k', v') :: d, k, v => if k' = k then (k, v) :: d else (k', v') :: set d k v

/-- `del d[k]` (no-op when absent; callers check membership) -/
def del : Dict κ ν → κ → Dict κ ν
  | [], _ => []
  | (k', v') :: d, k => if k' = k then d else (k', v') :: del d k

/-- every key occurs once: what Python guarantees for all its dicts -/
def WF (d : Dict κ ν) : Prop := d.keys.Nodup

instance (d : Dict κ ν) : Decidable d.WF := inferInstanceAs (Decidable (List.Nodup _))

end Dict

/-! ### Unmodelled orders -/

/-- A possible iteration order of Python sets: given the inserted elements, lists each exactly once.
The actual order depends on the hash values, hence on `PYTHONHASHSEED`. -/
structure SetOrder (κ : Type) where
  order : List κ → List κ
  nodup : ∀ l, (order l).Nodup
  mem : ∀ l x, x ∈ order l ↔ x ∈ l

end Trumania
