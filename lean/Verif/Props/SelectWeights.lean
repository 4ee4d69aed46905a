import Verif.Proofs.Records
import Verif.Props.SelectOps

/-!
# C92 (continued): the weights of what the operation `select_one` selects
-/

namespace Trumania
open Spec World Relationship
variable {σ γ : Type} {env : Env σ γ}

/-- **C92** `select_one` never joins to a row whose `from` has several relations a `to` of weight 0: among the relations
of that `from` with this `to` there is one whose weight is not 0, where the weights given to the operation, if any,
replace those of the relationship. -/
theorem C92_zero_weight {rel : Nat} {fromField name : String} {o2o pop discard : Bool}
    {weight : Option (Dict Val Rat)} {data out : Frame} {logs : Logs} {w w' : World σ γ}
    (hr : Rect data) (hn : data.index.Nodup) (hname : name ∉ data.cols) {r : Relationship σ}
    (hrel : w.rels[rel]? = some r) (hreach : Reachable env.R r) (o : Orders)
    (h : Ops.selectOne env rel fromField name o2o pop discard weight data w = .ok (out, logs) w') :
    ∀ i ∈ out.index, ∀ t, t ≠ .na → valueAt out i name = .scalar t →
      2 ≤ (tosOf (r.get_relations o) (idIn (valueAt data i fromField))).length →
      ∃ wt wt', (idIn (valueAt data i fromField), t, wt) ∈ r.get_relations o ∧ seenWeight weight t wt = some wt' ∧
        wt' ≠ 0 := by
  obtain ⟨-, hg, -⟩ := grows_selectOne hr hn hname hrel hreach o h
  obtain ⟨froms, r0, r', rows, h1, h2, h3, -, h5⟩ := selectOne_eq_ok h
  rw [hrel] at h2
  cases h2
  have h5 : out = _ := congrArg Prod.fst h5
  obtain ⟨rfl, -⟩ := idColumn_eq_map h1
  have hzip : data.index.zip (data.rows.map fun x => idIn (cell data x fromField)) =
      data.rows.map fun x => (x.idx, idIn (cell data x fromField)) := by
    rw [Frame.index, List.zip_map']
  rw [hzip] at h3
  have hn' : ((data.rows.map fun x => (x.idx, idIn (cell data x fromField))).map Prod.fst).Nodup := by
    rw [List.map_map]; exact hn
  obtain ⟨l1, -⟩ := select_one_labels h3 hn'
  have hfrom : ∀ row ∈ rows, ∃ x ∈ data.rows, row.label = x.idx ∧ row.from_ = idIn (cell data x fromField) := by
    obtain ⟨base, r₀, ⟨outs, rfl, hans⟩, hsub⟩ : ∃ (base : List OneRow) (_ : Unit),
        (∃ outs, base = outs.filterMap id ∧ List.Forall₂ (Answers (r.get_relations o) discard)
          (data.rows.map fun x => (x.idx, idIn (cell data x fromField))) outs) ∧ ∀ row ∈ rows, row ∈ base := by
      cases o2o with
      | false => exact ⟨rows, (), (C19_select_one_rows env.R hreach o h3).1, fun _ h => h⟩
      | true =>
        obtain ⟨base, r₀, e0, -, e2, -⟩ := C20_one_to_one env.R h3
        exact ⟨base, (), (C19_select_one_rows env.R hreach o e0).1, e2⟩
    intro row hrow
    obtain ⟨out', hout, he⟩ := List.mem_filterMap.1 (hsub row hrow)
    simp only [id] at he
    subst he
    obtain ⟨q, hq, ha⟩ := forall₂_exists_left hans hout
    obtain ⟨x, hx, rfl⟩ := List.mem_map.1 hq
    refine ⟨x, hx, ?_⟩
    by_cases hh : Has (r.get_relations o) (idIn (cell data x fromField))
    · obtain ⟨row', t, wt, e, e1, e2, -⟩ := ha.1 hh
      cases e
      exact ⟨e1, e2⟩
    · have := ha.2 hh
      split at this
      · cases this
      · obtain ⟨row', e, e1, e2, -⟩ := this
        cases e
        exact ⟨e1, e2⟩
  intro i hi t ht hv htwo
  obtain ⟨y, hy, rfl⟩ := mem_index.1 hi
  have hy' := hy
  rw [h5, mergeIndex_inner_rows (by simpa [Frame.index, Function.comp_def] using l1), List.mem_filterMap] at hy'
  obtain ⟨x, hx, he⟩ := hy'
  obtain ⟨bb, hb, he⟩ := Option.map_eq_some_iff.1 he
  have hbm := List.mem_of_find?_eq_some hb
  have hbi : bb.idx = x.idx := by simpa using List.find?_some hb
  obtain ⟨row, hrow, rfl⟩ := List.mem_map.1 hbm
  obtain ⟨x', hx', e1, e2⟩ := hfrom row hrow
  obtain rfl : x' = x := List.inj_on_of_nodup_map hn hx' hx (e1.symm.trans hbi)
  subst he
  rw [valueAt_row hg.nodup hy, Frame.cell_append_right (f := data) (g := ⟨[name], []⟩) (a := x')
    (b := ⟨x'.idx, [.scalar (row.to_.getD .na)]⟩) hg.cols (hr x' hx') rfl hname] at hv
  have hto : row.to_ = some t := by
    have hv : Cell.scalar (row.to_.getD .na) = .scalar t := by simpa [cell] using hv
    injection hv with hv
    cases hr' : row.to_ with
    | none => rw [hr'] at hv; exact absurd hv.symm ht
    | some u => rw [hr'] at hv; exact congrArg some hv
  simp only at htwo ⊢
  rw [valueAt_row hn hx'] at htwo ⊢
  rw [← e2] at htwo ⊢
  exact C22_zero_weight_never_selected env.R hreach o h3
    (List.mem_filterMap.2 ⟨row, hrow, by rw [hto]; rfl⟩) htwo

/-! ### Non-vacuity -/

/-- "y" has "2" twice and "3" once; with the weight 0 for "2", its rows get "3" -/
example : ((Ops.selectOne exEnv 0 "FRIEND" "TO" false false true (some [(.str "1", 1), (.str "2", 0), (.str "3", 1)])
      exCalls).value? exLinked).map (fun x => (cellsOf x.1 "FRIEND").zip (cellsOf x.1 "TO")) =
    some [(.str "y", .str "3"), (.str "x", .str "1"), (.str "y", .str "3")] := by
  decide +kernel

example : 2 ≤ (tosOf (exLinks.get_relations exEnv.orders) (.str "y")).length := by decide +kernel

end Trumania
