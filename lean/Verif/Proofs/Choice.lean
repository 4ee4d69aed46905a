import Verif.Model.Rng
import Verif.Proofs.Basic
import Mathlib.Algebra.Order.Ring.Rat
import Mathlib.Tactic.Linarith
import Mathlib.Algebra.Order.BigOperators.Group.List

/-! Helper lemmas: weighted random choice. -/

namespace Trumania

theorem searchRight_cumsum {p : List Rat} {acc v : Rat} (hv : acc ≤ v) (hv' : v < acc + p.sum) :
    ∃ x, p[searchRight (cumsum acc p) v]? = some x ∧ 0 < x := by
  induction p generalizing acc with
  | nil => simp at hv'; linarith
  | cons x xs ih =>
    rw [List.sum_cons] at hv'
    by_cases h : acc + x ≤ v
    · have ih' := ih h (by linarith)
      simp only [searchRight, cumsum, List.takeWhile_cons, h, decide_true, if_true,
        List.length_cons, List.getElem?_cons_succ] at ih' ⊢
      exact ih'
    · simp only [searchRight, cumsum, List.takeWhile_cons, h, decide_false, Bool.false_eq_true,
        if_false, List.length_nil, List.getElem?_cons_zero]
      exact ⟨x, rfl, by linarith⟩

theorem searchRight_div {c : Rat} (hc : 0 < c) (l : List Rat) (u : Rat) :
    searchRight (l.map (· / c)) u = searchRight l (u * c) := by
  induction l with
  | nil => rfl
  | cons x xs ih =>
    simp only [searchRight, List.map_cons, List.takeWhile_cons] at ih ⊢
    have : (x / c ≤ u) ↔ (x ≤ u * c) := div_le_iff₀ hc
    by_cases h : x ≤ u * c
    · simp [h, this.2 h, ih]
    · have h' : ¬ (x / c ≤ u) := fun e => h (this.1 e)
      simp [h, h']

namespace Rng
variable {σ : Type} (R : Rng σ)

/-- a weighted choice returns positions of positive probability -/
theorem choiceP_ok {s s' : σ} {n size : Nat} {p : List Rat} {is : List Nat}
    (h : R.choiceP s n size p = .ok (is, s')) :
    p.length = n ∧ is.length = size ∧ (∀ x ∈ p, 0 ≤ x) ∧ ∀ i ∈ is, ∃ x, p[i]? = some x ∧ 0 < x := by
  rw [choiceP] at h
  split at h
  · cases h
  split at h
  · cases h
  split at h
  · cases h
  split at h
  · cases h
  rename_i h1 h2 h3 h4
  simp only [Except.ok.injEq, Prod.mk.injEq] at h
  obtain ⟨rfl, -⟩ := h
  have hnn : ∀ x ∈ p, 0 ≤ x := by simpa using h3
  have hs : 0 < p.sum := by
    rw [not_or] at h4
    have h5 := h4.2
    rw [pTol] at h5
    by_contra hc
    apply h5
    have : p.sum ≤ 0 := not_lt.1 hc
    have : (1 : Rat) / 67108864 < 1 := by norm_num
    linarith
  refine ⟨by simpa using h2, by simp [R.uniform_length], hnn, ?_⟩
  intro i hi
  obtain ⟨u, hu, rfl⟩ := List.mem_map.1 hi
  have hur := R.uniform_range s size u hu
  rw [searchRight_div hs]
  apply searchRight_cumsum
  · exact mul_nonneg hur.1 hs.le
  · rw [zero_add]
    have := mul_lt_mul_of_pos_right hur.2 hs
    linarith

theorem choiceP_isOk {s : σ} {n size : Nat} {p : List Rat} (hn : n ≠ 0) (hl : p.length = n)
    (h0 : ∀ x ∈ p, 0 ≤ x) (h1 : p.sum = 1) : ∃ r, R.choiceP s n size p = .ok r := by
  rw [choiceP, if_neg (by tauto), if_neg (by tauto), if_neg (by simpa using h0), if_neg]
  · exact ⟨_, rfl⟩
  · rw [h1, pTol]; norm_num

end Rng

end Trumania
