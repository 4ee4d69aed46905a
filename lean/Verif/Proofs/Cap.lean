import Verif.Model.Util
import Verif.Spec.Util
import Verif.Proofs.Basic
import Mathlib.Tactic.Linarith
import Mathlib.Algebra.Order.BigOperators.Group.List

/-! Helper lemmas for `cap_to_total`. -/

namespace Trumania

open Spec

theorem greedy_length (l : List Int) (t : Int) : (greedy l t).length = l.length := by
  induction l generalizing t with
  | nil => rfl
  | cons v vs ih => simp [greedy, ih]

theorem greedy_zero {l : List Int} (h : ∀ v ∈ l, 0 ≤ v) : greedy l 0 = List.replicate l.length 0 := by
  induction l with
  | nil => rfl
  | cons v vs ih =>
    have hv : min v 0 = 0 := by have := h v (by simp); omega
    simp [greedy, hv, ih (fun w hw => h w (by simp [hw])), List.replicate_succ]

theorem greedy_of_sum_le {l : List Int} {t : Int} (h : ∀ v ∈ l, 0 ≤ v) (ht : l.sum ≤ t) :
    greedy l t = l := by
  induction l generalizing t with
  | nil => rfl
  | cons v vs ih =>
    have hs : 0 ≤ vs.sum := List.sum_nonneg (fun w hw => h w (by simp [hw]))
    simp only [List.sum_cons] at ht
    have hv : min v t = v := by omega
    rw [greedy, hv, ih (fun w hw => h w (by simp [hw])) (by omega)]

theorem greedy_sum {l : List Int} {t : Int} (h : ∀ v ∈ l, 0 ≤ v) (ht : 0 ≤ t) :
    (greedy l t).sum = min l.sum t := by
  induction l generalizing t with
  | nil => simp [greedy]; omega
  | cons v vs ih =>
    have hs : 0 ≤ vs.sum := List.sum_nonneg (fun w hw => h w (by simp [hw]))
    have hv := h v (by simp)
    rw [greedy, List.sum_cons, ih (fun w hw => h w (by simp [hw])) (by omega), List.sum_cons]
    omega

theorem greedy_append {l m : List Int} {t : Int} (h : ∀ v ∈ l, 0 ≤ v) (ht : 0 ≤ t) :
    greedy (l ++ m) t = greedy l t ++ greedy m (t - min l.sum t) := by
  induction l generalizing t with
  | nil => simp [greedy]; congr 1; omega
  | cons v vs ih =>
    have hs : 0 ≤ vs.sum := List.sum_nonneg (fun w hw => h w (by simp [hw]))
    have hv := h v (by simp)
    rw [List.cons_append, greedy, greedy, ih (fun w hw => h w (by simp [hw])) (by omega),
      List.cons_append, List.sum_cons]
    congr 3
    omega

theorem greedy_le {l : List Int} {t : Int} :
    ∀ i (h : i < l.length), (greedy l t)[i]'(by rw [greedy_length]; exact h) ≤ l[i] := by
  induction l generalizing t with
  | nil => intro i h; simp at h
  | cons v vs ih =>
    intro i h
    cases i with
    | zero => simp [greedy]
    | succ i => simp only [greedy, List.getElem_cons_succ]; exact ih i _

theorem greedy_nonneg {l : List Int} {t : Int} (h : ∀ v ∈ l, 0 ≤ v) (ht : 0 ≤ t) :
    ∀ x ∈ greedy l t, 0 ≤ x := by
  induction l generalizing t with
  | nil => simp [greedy]
  | cons v vs ih =>
    have hv := h v (by simp)
    intro x hx
    rw [greedy, List.mem_cons] at hx
    rcases hx with rfl | hx
    · omega
    · exact ih (fun w hw => h w (by simp [hw])) (by omega) x hx

/-- entry `i` of the greedy distribution is what is left of the budget, at most the request -/
theorem greedy_getElem {l : List Int} {t : Int} (h : ∀ v ∈ l, 0 ≤ v) (ht : 0 ≤ t) :
    ∀ i (hi : i < l.length), (greedy l t)[i]'(by rw [greedy_length]; exact hi)
      = min l[i] (max 0 (t - (l.take i).sum)) := by
  induction l generalizing t with
  | nil => intro i h; simp at h
  | cons v vs ih =>
    have hv := h v (by simp)
    intro i hi
    cases i with
    | zero => simp [greedy]; omega
    | succ i =>
      simp only [greedy, List.getElem_cons_succ, List.take_succ_cons, List.sum_cons]
      rw [ih (fun w hw => h w (by simp [hw])) (by omega) i (by simpa using hi)]
      have hs : 0 ≤ (vs.take i).sum :=
        List.sum_nonneg (fun w hw => h w (by simp [List.mem_of_mem_take hw]))
      have hi' : i < vs.length := by simpa using hi
      have := h vs[i] (by simp)
      omega

/-- `cap_to_total` is the greedy distribution -/
theorem cap_to_total_eq_greedy (l : List Int) (t : Int) (h : ∀ v ∈ l, 0 ≤ v) (ht : 0 ≤ t) :
    cap_to_total l t = .ok (greedy l t) := by
  induction hn : l.length generalizing l with
  | zero =>
    have : l = [] := List.length_eq_zero_iff.1 hn
    subst this
    rw [cap_to_total]; simp [greedy, ht]
  | succ n ih =>
    rw [cap_to_total]
    split
    · rw [greedy_of_sum_le h (by omega)]
    · rename_i hex
      have hne : l ≠ [] := by rintro rfl; simp at hn
      have hl := List.dropLast_append_getLast hne
      set d := l.dropLast
      set x := l.getLast hne
      have hd : ∀ v ∈ d, 0 ≤ v := fun v hv => h v (List.dropLast_subset _ hv)
      have hx : 0 ≤ x := h x (List.getLast_mem hne)
      have hsum : l.sum = d.sum + x := by rw [← hl]; simp
      have hds : 0 ≤ d.sum := List.sum_nonneg hd
      have hg : greedy l t = greedy d t ++ [min x (t - min d.sum t)] := by
        conv_lhs => rw [← hl]
        rw [greedy_append hd ht]; simp [greedy]
      split
      · rename_i hnone
        simp [List.getLast?_eq_none_iff] at hnone
        exact absurd hnone hne
      · rename_i last hlast
        have : last = x := by
          rw [List.getLast?_eq_some_getLast hne] at hlast; exact (Option.some.inj hlast).symm
        subst this
        split
        · rw [hg, greedy_of_sum_le hd (by omega)]
          congr 3; omega
        · rw [ih d hd (by simp [d, hn]), bind_ok, hg]
          congr 3; omega

end Trumania
