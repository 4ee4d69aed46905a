import Verif.Model.Base
import Mathlib.Data.List.Perm.Basic
import Mathlib.Data.List.Range
import Mathlib.Algebra.Order.Field.Rat
import Mathlib.Algebra.Order.Field.Basic
import Mathlib.Tactic.NormNum

/-!
# numpy.random.RandomState

The primitive draws are arbitrary functions of the generator state within their documented range.
`choice` is transcribed from numpy 1.22.0 `numpy/random/mtrand.pyx` (RandomState.choice), in terms
of these primitives.
-/

namespace Trumania

/-- Primitive draws of a `RandomState`; `σ` is the state of the generator. Every field is an
arbitrary function; the proof fields are the documented ranges. -/
structure Rng (σ : Type) where
  /-- `RandomState(seed)` -/
  seed : Int → σ
  /-- `random_sample(size)` / `uniform(size=size)` -/
  uniform : σ → Nat → List Rat × σ
  /-- `randint(lo, lo + n, size=size)` minus `lo` -/
  randint : σ → Nat → Nat → List Nat × σ
  /-- `permutation(n)` -/
  perm : σ → Nat → List Nat × σ
  /-- `beta(a, b)` -/
  beta : σ → Rat → Rat → Rat × σ
  /-- `pareto(size=size)`, for some fixed parameters -/
  pareto : σ → Nat → List Rat × σ
  uniform_length : ∀ s n, (uniform s n).1.length = n
  uniform_range : ∀ s n, ∀ u ∈ (uniform s n).1, 0 ≤ u ∧ u < 1
  randint_length : ∀ s n k, (randint s n k).1.length = k
  randint_range : ∀ s n k, 0 < n → ∀ i ∈ (randint s n k).1, i < n
  perm_perm : ∀ s n, (perm s n).1.Perm (List.range n)
  beta_range : ∀ s a b, 0 < a → 0 < b → 0 ≤ (beta s a b).1 ∧ (beta s a b).1 ≤ 1
  pareto_length : ∀ s n, (pareto s n).1.length = n
  pareto_range : ∀ s n, ∀ x ∈ (pareto s n).1, 0 ≤ x

/-- cumulative sums: `p.cumsum()` -/
def cumsum : Rat → List Rat → List Rat
  | _, [] => []
  | acc, x :: xs => (acc + x) :: cumsum (acc + x) xs

/-- `a.searchsorted(v, side='left')`: number of leading elements `< v` (on sorted arrays) -/
def searchLeft (a : List Rat) (v : Rat) : Nat := (a.takeWhile (fun x => decide (x < v))).length

/-- `a.searchsorted(v, side='right')`: number of leading elements `<= v` (on sorted arrays) -/
def searchRight (a : List Rat) (v : Rat) : Nat := (a.takeWhile (fun x => decide (x ≤ v))).length

namespace Rng
variable {σ : Type} (R : Rng σ)

/-- tolerance of numpy on the sum of probabilities: `sqrt(eps)` = 2^-26 -/
def pTol : Rat := 1 / 67108864

/-- `state.choice(range(n), size=size, p=p)` (mtrand.pyx, RandomState.choice): error checks, then
`cdf.searchsorted(random_sample(size), side='right')`. -/
def choiceP (s : σ) (n size : Nat) (p : List Rat) : Py (List Nat × σ) :=
  if n = 0 ∧ size ≠ 0 then .error .valueError
  else if p.length ≠ n then .error .valueError
  else if p.any (fun x => decide (x < 0)) then .error .valueError
  else if p.sum - 1 > pTol ∨ 1 - p.sum > pTol then .error .valueError
  else
    let cdf := (cumsum 0 p).map (· / p.sum)
    let (us, s') := R.uniform s size
    .ok (us.map (searchRight cdf), s')

/-- `state.choice(range(n), size=size)`: `randint(0, n, size)` -/
def choice (s : σ) (n size : Nat) : Py (List Nat × σ) :=
  if n = 0 ∧ size ≠ 0 then .error .valueError
  else .ok (R.randint s n size)

/-- `state.choice(range(n), size=size, replace=False)`: `permutation(n)[:size]` -/
def choiceNoReplace (s : σ) (n size : Nat) : Py (List Nat × σ) :=
  if n = 0 ∧ size ≠ 0 then .error .valueError
  else if size > n then .error .valueError
  else
    let (perm, s') := R.perm s n
    .ok (perm.take size, s')

/-- `state.permutation(x)` for a list: the list shuffled -/
def permutation {α : Type} (s : σ) (xs : List α) : List α × σ :=
  let (perm, s') := R.perm s xs.length
  (perm.filterMap (fun i => xs[i]?), s')

end Rng

/-- `np.delete(xs, idxs)`: out of bounds indices raise `IndexError`, duplicates count once. -/
def npDelete {α : Type} (xs : List α) (idxs : List Nat) : Py (List α) :=
  if idxs.all (· < xs.length) then
    .ok ((xs.zipIdx.filter fun x => !idxs.contains x.2).map Prod.fst)
  else .error .indexError

/-- `int(x)`: truncation towards zero -/
def pyInt (q : Rat) : Int := if 0 ≤ q then q.floor else q.ceil

/-- A concrete `Rng`: the state is a counter. Only used to show that the contract is inhabited. -/
def Rng.counter : Rng Nat where
  seed s := s.toNat
  uniform s n := ((List.range n).map (fun i => ((((s + i) % 10 : Nat) : Rat) / 10)), s + n)
  randint s n k := ((List.range k).map (fun i => (s + i) % n), s + k)
  perm s n := if s % 2 = 0 then (List.range n, s + 1) else ((List.range n).reverse, s + 1)
  beta s _ _ := (((s % 10 : Nat) : Rat) / 10, s + 1)
  pareto s n := ((List.range n).map (fun i => ((s + i : Nat) : Rat)), s + n)
  uniform_length := by simp
  uniform_range := by
    intro s n u hu
    simp only [List.mem_map, List.mem_range] at hu
    obtain ⟨i, -, rfl⟩ := hu
    have h : (s + i) % 10 < 10 := Nat.mod_lt _ (by decide)
    have h2 : (((s + i) % 10 : Nat) : Rat) < 10 := by exact_mod_cast h
    have h3 : (0 : Rat) ≤ (((s + i) % 10 : Nat) : Rat) := by exact_mod_cast Nat.zero_le _
    constructor
    · exact div_nonneg h3 (by decide)
    · rw [div_lt_one (by norm_num)]; exact h2
  randint_length := by simp
  randint_range := by
    intro s n k hn i hi
    simp only [List.mem_map, List.mem_range] at hi
    obtain ⟨j, -, rfl⟩ := hi
    exact Nat.mod_lt _ hn
  perm_perm := by
    intro s n
    split
    · exact List.Perm.refl _
    · exact List.reverse_perm _
  beta_range := by
    intro s a b _ _
    have h : s % 10 < 10 := Nat.mod_lt _ (by decide)
    have h2 : ((s % 10 : Nat) : Rat) ≤ 10 := by exact_mod_cast h.le
    have h3 : (0 : Rat) ≤ ((s % 10 : Nat) : Rat) := by exact_mod_cast Nat.zero_le _
    refine ⟨div_nonneg h3 (by decide), ?_⟩
    show _ / _ ≤ _
    rw [div_le_one (by norm_num)]; exact h2
  pareto_length := by simp
  pareto_range := by
    intro s n x hx
    simp only [List.mem_map, List.mem_range] at hx
    obtain ⟨j, -, rfl⟩ := hx
    exact_mod_cast Nat.zero_le _

end Trumania
