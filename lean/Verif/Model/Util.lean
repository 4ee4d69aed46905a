import Verif.Model.Base

/-!
# Model of `trumania/core/util_functions.py`
-/

namespace Trumania

/-! ### Dictionary merging -/

/-- `merge_2_dicts` (util_functions.py:74-108), for two dicts that are not `None`.
`so` is the iteration order of the set `set(dict1.keys()) | set(dict2.keys())` (line 106). -/
def merge2 {κ ν : Type} [DecidableEq κ] (so : SetOrder κ) (d1 d2 : Dict κ ν)
    (f : Option (ν → ν → Py ν)) : Py (Dict κ ν) :=
  (so.order (d1.keys ++ d2.keys)).mapM fun k =>
    -- `merged_value`, lines 92-104
    match d1.get? k, d2.get? k with
    | none, some v2 => .ok (k, v2)
    | some v1, none => .ok (k, v1)
    | some v1, some v2 =>
      match f with
      | none => .error .valueError
      | some g => do .ok (k, ← g v1 v2)
    | none, none => .error .keyError

/-- `merge_2_dicts` (util_functions.py:74-108), with the `None` arguments of lines 83-90. -/
def merge_2_dicts {κ ν : Type} [DecidableEq κ] (so : SetOrder κ) (d1 d2 : Option (Dict κ ν))
    (f : Option (ν → ν → Py ν) := none) : Py (Dict κ ν) :=
  match d1, d2 with
  | none, none => .ok []
  | some d1, none => .ok d1
  | none, some d2 => .ok d2
  | some d1, some d2 => merge2 so d1 d2 f

/-- `merge_dicts` (util_functions.py:115-132): `functools.reduce` of `merge_2_dicts`. -/
def merge_dicts {κ ν : Type} [DecidableEq κ] (so : SetOrder κ) (ds : List (Dict κ ν))
    (f : Option (ν → ν → Py ν) := none) : Py (Dict κ ν) :=
  match ds with
  | [] => .ok []
  | d :: ds => ds.foldlM (fun d1 d2 => merge_2_dicts so (some d1) (some d2) f) d

/-! ### cap_to_total -/

/-- `cap_to_total` (util_functions.py:163-177). `values[-1]` on an empty list raises `IndexError`. -/
def cap_to_total (values : List Int) (target : Int) : Py (List Int) :=
  let excedent := values.sum - target
  if excedent ≤ 0 then .ok values
  else
    match h : values.getLast? with
    | none => .error .indexError
    | some last =>
      if last ≥ excedent then .ok (values.dropLast ++ [last - excedent])
      else do .ok ((← cap_to_total values.dropLast target) ++ [0])
termination_by values.length
decreasing_by
  have : values ≠ [] := by rintro rfl; simp at h
  have := List.length_pos_iff.2 this
  simp [List.length_dropLast]; omega

/-! ### Ids -/

/-- `str(x)` for an integer -/
def pyStr (x : Int) : List Char :=
  match x with
  | .ofNat n => Nat.toDigits 10 n
  | .negSucc n => '-' :: Nat.toDigits 10 (n + 1)

/-- `s.zfill(width)`: pads with zeros on the left, after a leading sign if any. -/
def zfill (s : List Char) (width : Nat) : List Char :=
  match s with
  | c :: cs =>
    if c = '-' ∨ c = '+' then c :: (List.replicate (width - s.length) '0' ++ cs)
    else List.replicate (width - s.length) '0' ++ s
  | [] => List.replicate width '0'

/-- one id of `build_ids` (util_functions.py:151): `prefix + str(x).zfill(max_length)` -/
def buildId (pre : String) (maxLength : Nat) (x : Int) : String :=
  pre ++ String.ofList (zfill (pyStr x) maxLength)

/-- `np.arange(start, start + size)` for integers: empty when `size <= 0` -/
def arange (start size : Int) : List Int :=
  (List.range size.toNat).map fun (i : Nat) => start + (i : Int)

/-- `build_ids` (util_functions.py:147-152) -/
def build_ids (size idStart : Int) (pre : String) (maxLength : Nat) : List String :=
  (arange idStart size).map (buildId pre maxLength)

/-! ### Dates -/

/-- first loop of `latest_date_before` (util_functions.py:219-220); dates are integers (ns).
The loop runs for ever if `step <= 0`, which the fuel makes visible (`none`). -/
def stepDown (fuel : Nat) (result ub step : Int) : Option Int :=
  match fuel with
  | 0 => none
  | fuel + 1 => if result > ub then stepDown fuel (result - step) ub step else some result

/-- second loop of `latest_date_before` (util_functions.py:222-223) -/
def stepUp (fuel : Nat) (result ub step : Int) : Option Int :=
  match fuel with
  | 0 => none
  | fuel + 1 => if ub - result ≥ step then stepUp fuel (result + step) ub step else some result

/-- `latest_date_before` (util_functions.py:204-225). `none`: more than `fuel` iterations of one of
the loops. -/
def latest_date_before (fuel : Nat) (start ub step : Int) : Option Int := do
  let r ← stepDown fuel start ub step
  stepUp fuel r ub step

end Trumania
