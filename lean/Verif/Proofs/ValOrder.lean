import Verif.Model.Base
import Mathlib.Algebra.Order.Field.Rat
import Mathlib.Data.String.Basic
import Mathlib.Tactic.Tauto

/-! `Val.le` is a total order. -/

namespace Trumania

theorem insertBy_perm {α : Type} (le : α → α → Bool) (a : α) (l : List α) :
    (insertBy le a l).Perm (a :: l) := by
  induction l with
  | nil => exact List.Perm.refl _
  | cons b l ih =>
    rw [insertBy]
    split
    · exact List.Perm.refl _
    · exact (ih.cons b).trans (List.Perm.swap a b l)

theorem sortBy_perm {α : Type} (le : α → α → Bool) (l : List α) : (sortBy le l).Perm l := by
  induction l with
  | nil => exact List.Perm.refl _
  | cons a l ih => exact (insertBy_perm le a _).trans (ih.cons a)

theorem insertBy_sorted {α : Type} {le : α → α → Bool}
    (tr : ∀ a b c, le a b = true → le b c = true → le a c = true)
    (tot : ∀ a b, (le a b || le b a) = true) (a : α) {l : List α}
    (h : l.Pairwise (fun x y => le x y = true)) :
    (insertBy le a l).Pairwise (fun x y => le x y = true) := by
  induction l with
  | nil => simp [insertBy]
  | cons b l ih =>
    rw [List.pairwise_cons] at h
    rw [insertBy]
    split
    · rename_i hab
      rw [List.pairwise_cons, List.pairwise_cons]
      refine ⟨?_, h⟩
      intro c hc
      rcases List.mem_cons.1 hc with rfl | hc
      · exact hab
      · exact tr a b c hab (h.1 c hc)
    · rename_i hab
      have hba : le b a = true := by
        have := tot a b
        simp only [Bool.or_eq_true] at this
        tauto
      rw [List.pairwise_cons]
      refine ⟨?_, ih h.2⟩
      intro c hc
      rcases List.mem_cons.1 ((insertBy_perm le a l).mem_iff.1 hc) with rfl | hc
      · exact hba
      · exact h.1 c hc

theorem sortBy_sorted {α : Type} {le : α → α → Bool}
    (tr : ∀ a b c, le a b = true → le b c = true → le a c = true)
    (tot : ∀ a b, (le a b || le b a) = true) (l : List α) :
    (sortBy le l).Pairwise (fun x y => le x y = true) := by
  induction l with
  | nil => simp [sortBy]
  | cons a l ih => exact insertBy_sorted tr tot a ih

namespace Val

theorem le_trans' {a b c : Val} (h1 : le a b = true) (h2 : le b c = true) : le a c = true := by
  cases a <;> cases b <;> cases c <;>
    first
    | rfl
    | (simp [le, rank] at h1; done)
    | (simp [le, rank] at h2; done)
    | (simp only [le, decide_eq_true_eq] at *; exact _root_.le_trans h1 h2)
    | (rename_i a b c; cases a <;> cases b <;> cases c <;> simp_all [le])

theorem le_total' (a b : Val) : (le a b || le b a) = true := by
  cases a <;> cases b <;>
    first
    | rfl
    | (simp only [le, decide_eq_true_eq, Bool.or_eq_true]; exact _root_.le_total _ _)
    | (rename_i a b; cases a <;> cases b <;> rfl)

theorem le_antisymm' {a b : Val} (h1 : le a b = true) (h2 : le b a = true) : a = b := by
  cases a <;> cases b <;>
    first
    | rfl
    | (simp only [le, decide_eq_true_eq] at h1 h2; exact congrArg _ (_root_.le_antisymm h1 h2))
    | (simp [le, rank] at h1 h2; done)
    | (rename_i a b; cases a <;> cases b <;> simp_all [le])

theorem le_refl' (a : Val) : le a a = true := by
  have := le_total' a a
  simpa using this

end Val

end Trumania
