import Verif.Spec.Columns
import Verif.Proofs.Ops
import Verif.Props.Operations

/-! Helper lemmas on the columns added by operations. -/

namespace Trumania
open Spec World
variable {σ γ : Type} {env : Env σ γ}

/-- the ids of a column, row by row -/
theorem idColumn_eq_map {data : Frame} {field : String} {ids : List Val}
    (h : Ops.idColumn data field = .ok ids) :
    ids = data.rows.map (fun x => idIn (cell data x field)) ∧
    ∀ x ∈ data.rows, cell data x field = .scalar (idIn (cell data x field)) := by
  rw [Ops.idColumn] at h
  obtain ⟨cs, h5, h6⟩ := bind_eq_ok.1 h
  have h5 := Frame.col_eq_map h5
  subst h5
  have h6 := mapM_ok_iff.1 h6
  rw [List.forall₂_map_left_iff] at h6
  clear * - h6
  generalize data.rows = rows at h6
  induction h6 with
  | nil => simp
  | @cons x v rows vs hx _ ih =>
    have hv : cell data x field = .scalar v := by
      cases hc : cell data x field with
      | list _ => rw [hc] at hx; cases hx
      | scalar u => rw [hc] at hx; cases hx; rfl
    constructor
    · rw [List.map_cons, ← ih.1, hv]; rfl
    · intro y hy
      rcases List.mem_cons.1 hy with rfl | hy
      · rw [hv]; rfl
      · exact ih.2 y hy

/-- merging one column indexed like the data -/
theorem addsColumn_of_merge {name : String} {values : List Cell} {data added : Frame}
    (hn : data.index.Nodup) (hr : Rect data) (hname : name ∉ data.cols)
    (h : Frame.ofColumn data.index name values = .ok added) :
    AddsColumn name values data (data.mergeIndex .left added) := by
  obtain ⟨e1, e2, e3, e4⟩ := Frame.ofColumn_ok h
  have hl : added.rows.length = data.rows.length := by
    rw [← Frame.index_length, ← Frame.index_length, e1]
  obtain ⟨h3, h4⟩ := Frame.zipWith_appended hl (Frame.mergeIndex_same_rows (how := .left) e1 hn)
  have hcols : (data.mergeIndex .left added).cols = data.cols ++ added.cols := by
    refine Frame.mergedCols_disjoint fun c hc hc' => ?_
    rw [e2, List.mem_singleton] at hc'
    exact hname (hc' ▸ hc)
  obtain ⟨f1, f2⟩ := appended_fields hr hcols ⟨h3, hl, h4⟩
  exact ⟨Frame.mergeIndex_left_index (by rw [e1]; exact hn), by rw [hcols, e2], f1,
    by rw [f2 name hname, cellsOf_ofColumn h]⟩

theorem asNat_ok {c : Cell} {n : Nat} (h : c.asNat = .ok n) : HoldsCount c n := by
  cases c with
  | list _ => cases h
  | scalar v =>
    cases v with
    | num q =>
      simp only [Cell.asNat] at h
      split at h
      · rename_i hq
        cases h
        show Cell.num q = Cell.num _
        congr 1
        have h0 : (0 : Int) ≤ q.num := Rat.num_nonneg.2 hq.2
        have h1 : ((q.num.toNat : Nat) : Int) = q.num := Int.toNat_of_nonneg h0
        have h2 : ((q.num.toNat : Nat) : Rat) = (q.num : Rat) := by exact_mod_cast congrArg (Int.cast : Int → Rat) h1
        rw [h2]
        exact (Rat.coe_int_num_of_den_eq_one hq.1).symm
      · cases h
    | _ => cases h

theorem asBool_ok {c : Cell} {b : Bool} (h : c.asBool = .ok b) : c = .bool b := by
  cases c with
  | list _ => cases h
  | scalar v => cases v <;> cases h; rfl

theorem asVal_ok {c : Cell} {v : Val} (h : c.asVal = .ok v) : c = .scalar v := by
  cases c with
  | list _ => cases h
  | scalar u => cases h; rfl

end Trumania
