import Verif.Spec.Frame
import Verif.Model.Ops
import Verif.Proofs.Basic
import Verif.Proofs.Act

/-! Helper lemmas on frames. -/

namespace Trumania
open Spec
namespace Frame

theorem filter_idx_nodup {l : List Row} (hn : (l.map (·.idx)).Nodup) (i : Val) :
    (i ∉ l.map (·.idx) ∧ l.filter (fun b => decide (b.idx = i)) = []) ∨
    ∃ b ∈ l, b.idx = i ∧ l.filter (fun b => decide (b.idx = i)) = [b] := by
  induction l with
  | nil => exact Or.inl ⟨by simp, rfl⟩
  | cons a l ih =>
    rw [List.map_cons, List.nodup_cons] at hn
    by_cases h : a.idx = i
    · refine Or.inr ⟨a, by simp, h, ?_⟩
      rw [List.filter_cons_of_pos (by simpa using h)]
      congr 1
      rw [List.filter_eq_nil_iff]
      intro b hb hbi
      simp only [decide_eq_true_eq] at hbi
      exact hn.1 (h ▸ hbi ▸ List.mem_map.2 ⟨b, hb, rfl⟩)
    · rw [List.filter_cons_of_neg (by simpa using h)]
      rcases ih hn.2 with ⟨h1, h2⟩ | ⟨b, hb, h1, h2⟩
      · refine Or.inl ⟨?_, h2⟩
        rw [List.map_cons, List.mem_cons, not_or]
        exact ⟨fun e => h e.symm, h1⟩
      · exact Or.inr ⟨b, by simp [hb], h1, h2⟩

theorem mergeIndex_left_index {l r : Frame} (hn : r.index.Nodup) :
    (mergeIndex .left l r).index = l.index := by
  simp only [index, mergeIndex]
  induction l.rows with
  | nil => rfl
  | cons a rows ih =>
    rw [List.flatMap_cons, List.map_append, List.map_cons, ih]
    rcases filter_idx_nodup hn a.idx with ⟨-, h⟩ | ⟨b, -, -, h⟩ <;> rw [h] <;> rfl

theorem mergeIndex_inner_index {l r : Frame} (hn : r.index.Nodup) :
    (mergeIndex .inner l r).index = l.index.filter (fun i => decide (i ∈ r.index)) := by
  simp only [index, mergeIndex]
  induction l.rows with
  | nil => rfl
  | cons a rows ih =>
    rw [List.flatMap_cons, List.map_append, List.map_cons, ih]
    rcases filter_idx_nodup hn a.idx with ⟨h0, h⟩ | ⟨b, hb, hi, h⟩ <;> rw [h]
    · rw [List.filter_cons_of_neg (by simpa using h0)]
      rfl
    · rw [List.filter_cons_of_pos (by simpa using ⟨b, hb, hi⟩)]
      rfl

theorem mergeIndex_index_sublist {how : JoinKind} {l r : Frame} (hn : r.index.Nodup) :
    (mergeIndex how l r).index.Sublist l.index := by
  cases how with
  | left => rw [mergeIndex_left_index hn]
  | inner => rw [mergeIndex_inner_index hn]; exact List.filter_sublist

/-- rows of a left join with a frame that has the same index -/
theorem mergeIndex_same_rows {how : JoinKind} {l r : Frame} (hi : r.index = l.index)
    (hn : l.index.Nodup) :
    (mergeIndex how l r).rows =
      List.zipWith (fun a b => ⟨a.idx, a.cells ++ b.cells⟩) l.rows r.rows := by
  obtain ⟨lc, ls⟩ := l
  obtain ⟨rc, rs⟩ := r
  simp only [index] at hi hn
  -- the merge with all the right rows, for a part of the left rows
  have key : ∀ (xs ys : List Row), (∀ y ∈ ys, y ∈ rs) → ys.map (·.idx) = xs.map (·.idx) →
      (xs.flatMap fun a =>
        match rs.filter (fun b => decide (b.idx = a.idx)) with
        | [] =>
          match how with
          | .left => [⟨a.idx, a.cells ++ List.replicate rc.length Cell.na⟩]
          | .inner => []
        | ms => ms.map fun b => ⟨a.idx, a.cells ++ b.cells⟩) =
      List.zipWith (fun a b => (⟨a.idx, a.cells ++ b.cells⟩ : Row)) xs ys := by
    intro xs
    induction xs with
    | nil => intro ys _ _; rfl
    | cons a xs ih =>
      intro ys hsub he
      cases ys with
      | nil => cases he
      | cons b ys =>
        simp only [List.map_cons, List.cons.injEq] at he
        have hrn : (rs.map (·.idx)).Nodup := by rw [hi]; exact hn
        have hf : rs.filter (fun c => decide (c.idx = a.idx)) = [b] := by
          rcases filter_idx_nodup hrn a.idx with ⟨h0, -⟩ | ⟨c, hc, hci, h⟩
          · exact absurd (List.mem_map.2 ⟨b, hsub b (by simp), he.1⟩) h0
          · rw [h]
            have : c = b := List.inj_on_of_nodup_map hrn hc (hsub b (by simp))
              (by rw [hci, he.1])
            rw [this]
        rw [List.flatMap_cons, hf, List.zipWith_cons_cons, ih ys (fun y hy => hsub y (by simp [hy]))
          he.2]
        rfl
  exact key ls rs (fun _ h => h) hi

theorem ofColumn_ok {ids : List Val} {name : String} {values : List Cell} {f : Frame}
    (h : ofColumn ids name values = .ok f) :
    f.index = ids ∧ f.cols = [name] ∧ f.rows = List.zipWith (fun i v => ⟨i, [v]⟩) ids values ∧
      values.length = ids.length := by
  rw [ofColumn] at h
  split at h
  · rename_i hl
    cases h
    refine ⟨?_, rfl, rfl, hl⟩
    simp only [index, List.map_zipWith]
    clear * - hl
    induction ids generalizing values with
    | nil => rfl
    | cons a l ih =>
      cases values with
      | nil => simp at hl
      | cons b values => simp only [List.zipWith_cons_cons]; rw [ih (by simpa using hl)]
  · cases h

theorem zipWith_appended {l r o : List Row} (hl : r.length = l.length)
    (ho : o = List.zipWith (fun a b => ⟨a.idx, a.cells ++ b.cells⟩) l r) :
    o.length = l.length ∧ ∀ (k : Nat) (a b x : Row), l[k]? = some a → r[k]? = some b →
      o[k]? = some x → x.idx = a.idx ∧ x.cells = a.cells ++ b.cells := by
  subst ho
  refine ⟨by simp [hl], fun k a b x ha hb hx => ?_⟩
  rw [List.getElem?_zipWith, ha, hb] at hx
  cases hx
  exact ⟨rfl, rfl⟩

theorem index_length (f : Frame) : f.index.length = f.rows.length := by simp [index]

theorem mask_rows_sublist (f : Frame) (keep : List Bool) : (f.mask keep).rows.Sublist f.rows := by
  simp only [mask]
  obtain ⟨c, rows⟩ := f
  simp only
  induction rows generalizing keep with
  | nil => simp
  | cons a rows ih =>
    cases keep with
    | nil => simp
    | cons b keep =>
      rw [List.zip_cons_cons]
      cases b
      · rw [List.filter_cons_of_neg (by simp)]; exact (ih keep).cons a
      · rw [List.filter_cons_of_pos (by simp), List.map_cons]; exact (ih keep).cons_cons a

theorem col_length {f : Frame} {name : String} {cs : List Cell} (h : f.col name = .ok cs) :
    cs.length = f.rows.length := by
  rw [col] at h
  obtain ⟨i, -, h⟩ := bind_eq_ok.1 h
  exact (mapM_ok_iff.1 h).length_eq.symm

end Frame

theorem idColumn_length {f : Frame} {name : String} {cs : List Val}
    (h : Ops.idColumn f name = .ok cs) : cs.length = f.rows.length := by
  rw [Ops.idColumn] at h
  obtain ⟨c, h1, h⟩ := bind_eq_ok.1 h
  rw [← Frame.col_length h1]
  exact (mapM_ok_iff.1 h).length_eq.symm

theorem addColumns_eq_ok {W : Type} {how : JoinKind} {build : Frame → Act W Frame} {data : Frame}
    {out : Frame × Logs} {w w' : W} :
    Ops.addColumns how build data w = .ok out w' ↔
      ∃ o, build data w = .ok o w' ∧ out = (data.mergeIndex how o, []) := by
  simp only [Ops.addColumns, Act.bind_eq_ok, Act.pure_eq_ok]
  constructor
  · rintro ⟨o, w1, h, rfl, rfl⟩; exact ⟨o, h, rfl⟩
  · rintro ⟨o, h, rfl⟩; exact ⟨o, w', h, rfl, rfl⟩

theorem sideEffect_eq_ok {W : Type} {effect : Frame → Act W Unit} {data : Frame}
    {out : Frame × Logs} {w w' : W} :
    Ops.sideEffect effect data w = .ok out w' ↔ effect data w = .ok () w' ∧ out = (data, []) := by
  simp only [Ops.sideEffect, Act.bind_eq_ok, Act.pure_eq_ok]
  constructor
  · rintro ⟨o, w1, h, rfl, rfl⟩; exact ⟨h, rfl⟩
  · rintro ⟨h, rfl⟩; exact ⟨(), w', h, rfl, rfl⟩

theorem transform_eq_ok {W : Type} {f : Frame → Py Frame} {data : Frame}
    {out : Frame × Logs} {w w' : W} :
    Ops.transform f data w = .ok out w' ↔ w = w' ∧ ∃ o, f data = .ok o ∧ out = (o, []) := by
  simp only [Ops.transform, Act.bind_eq_ok, Act.pure_eq_ok, Act.ofPy_eq_ok]
  constructor
  · rintro ⟨o, w1, ⟨h, rfl⟩, rfl, rfl⟩; exact ⟨rfl, o, h, rfl⟩
  · rintro ⟨rfl, o, h, rfl⟩; exact ⟨o, w, ⟨h, rfl⟩, rfl, rfl⟩

end Trumania

namespace Trumania
open Spec
namespace Frame

theorem zipIdx_filter_singleton {cols : List String} {name : String} {i n : Nat}
    (h : ((cols.zipIdx n).filter (fun x => decide (x.1 = name))).map Prod.snd = [i]) :
    n ≤ i ∧ ∀ (cells : List Cell) (c : Cell), cells[i - n]? = some c →
      (cols.zip cells).find? (fun x => decide (x.1 = name)) = some (name, c) := by
  induction cols generalizing n with
  | nil => simp at h
  | cons a cols ih =>
    rw [List.zipIdx_cons] at h
    by_cases ha : a = name
    · rw [List.filter_cons_of_pos (by simpa using ha)] at h
      simp only [List.map_cons, List.cons.injEq, List.map_eq_nil_iff] at h
      obtain ⟨rfl, -⟩ := h
      refine ⟨le_rfl, fun cells c hc => ?_⟩
      cases cells with
      | nil => simp at hc
      | cons b cells =>
        simp only [Nat.sub_self, List.getElem?_cons_zero, Option.some.injEq] at hc
        rw [List.zip_cons_cons, List.find?_cons_of_pos (by simpa using ha), ha, hc]
    · rw [List.filter_cons_of_neg (by simpa using ha)] at h
      obtain ⟨h1, h2⟩ := ih h
      refine ⟨by omega, fun cells c hc => ?_⟩
      cases cells with
      | nil => simp at hc
      | cons b cells =>
        have hi : i - n = (i - (n + 1)) + 1 := by omega
        rw [hi, List.getElem?_cons_succ] at hc
        rw [List.zip_cons_cons, List.find?_cons_of_neg (by simpa using ha)]
        exact h2 cells c hc

theorem pos_positions {f : Frame} {name : String} {i : Nat} (h : f.pos name = .ok i) :
    f.positions name = [i] := by
  rw [pos] at h
  split at h
  · rename_i heq; cases h; exact heq
  · cases h
  · cases h

theorem cell_of_pos {f : Frame} {name : String} {i : Nat} (h : f.pos name = .ok i) {r : Row}
    {c : Cell} (hc : cellAt i r = .ok c) : Spec.cell f r name = c := by
  obtain ⟨-, h2⟩ := zipIdx_filter_singleton (n := 0) (pos_positions h)
  have hg : r.cells[i]? = some c := by
    rw [cellAt] at hc
    split at hc
    · rename_i heq; cases hc; exact heq
    · cases hc
  rw [Spec.cell, h2 r.cells c (by simpa using hg)]

theorem col_eq_map {f : Frame} {name : String} {cs : List Cell} (h : f.col name = .ok cs) :
    cs = f.rows.map (Spec.cell f · name) := by
  rw [col] at h
  obtain ⟨i, h1, h3⟩ := bind_eq_ok.1 h
  have h2 := mapM_ok_iff.1 h3
  clear h h3
  generalize f.rows = rows at h2
  induction h2 with
  | nil => rfl
  | cons hx _ ih => rw [List.map_cons, cell_of_pos h1 hx, ih]

theorem cellsOf_eq (f : Frame) (name : String) :
    cellsOf f name = f.rows.map (Spec.cell f · name) := rfl

theorem mem_cols_of_pos {f : Frame} {name : String} {i : Nat} (h : f.pos name = .ok i) :
    name ∈ f.cols := by
  have := pos_positions h
  have hi : i ∈ f.positions name := by rw [this]; simp
  simp only [positions, List.mem_map, List.mem_filter, decide_eq_true_eq] at hi
  obtain ⟨⟨a, j⟩, ⟨h1, rfl⟩, -⟩ := hi
  obtain ⟨k, -, hk⟩ := List.mem_zipIdx' h1 |> fun h => (⟨j, h.1, h.2⟩ : ∃ k, _ ∧ _)
  simp only at hk ⊢
  rw [hk]
  exact List.getElem_mem _

/-- position of a column that appears once -/
theorem pos_of_nodup {f : Frame} {name : String} (hn : f.cols.Nodup) (h : name ∈ f.cols) :
    ∃ i, f.pos name = .ok i ∧ i < f.cols.length := by
  have key : ∀ (cols : List String) (n : Nat), cols.Nodup →
      (name ∉ cols → ((cols.zipIdx n).filter (fun x => decide (x.1 = name))) = []) ∧
      (name ∈ cols → ∃ i, n ≤ i ∧ i < n + cols.length ∧
        ((cols.zipIdx n).filter (fun x => decide (x.1 = name))).map Prod.snd = [i]) := by
    intro cols
    induction cols with
    | nil => intro n _; simp
    | cons a cols ih =>
      intro n hn
      rw [List.nodup_cons] at hn
      obtain ⟨h1, h2⟩ := ih (n + 1) hn.2
      constructor
      · intro hm
        rw [List.mem_cons, not_or] at hm
        rw [List.zipIdx_cons, List.filter_cons_of_neg (by simpa using fun e => hm.1 e.symm)]
        exact h1 hm.2
      · intro hm
        rw [List.zipIdx_cons]
        by_cases ha : a = name
        · subst ha
          rw [List.filter_cons_of_pos (by simp), h1 hn.1]
          exact ⟨n, le_rfl, by simp, rfl⟩
        · rw [List.filter_cons_of_neg (by simpa using ha)]
          have : name ∈ cols := by
            rw [List.mem_cons] at hm
            exact hm.resolve_left fun e => ha e.symm
          obtain ⟨i, hi1, hi2, hi3⟩ := h2 this
          refine ⟨i, by omega, ?_, hi3⟩
          rw [List.length_cons]; omega
  obtain ⟨i, -, hi, hp⟩ := (key f.cols 0 hn).2 h
  refine ⟨i, ?_, by omega⟩
  have : f.positions name = [i] := hp
  rw [pos, this]

theorem cellAt_of_rect {f : Frame} (hr : Rect f) {r : Row} (hm : r ∈ f.rows) {i : Nat}
    (hi : i < f.cols.length) : ∃ c, cellAt i r = .ok c := by
  have : i < r.cells.length := by rw [hr r hm]; exact hi
  rw [cellAt, List.getElem?_eq_getElem this]
  exact ⟨_, rfl⟩

theorem col_total {f : Frame} {name : String} (hr : Rect f) (hn : f.cols.Nodup)
    (h : name ∈ f.cols) : f.col name = .ok (f.rows.map (Spec.cell f · name)) := by
  obtain ⟨i, hi, hl⟩ := pos_of_nodup hn h
  rw [col, hi]
  change f.rows.mapM (cellAt i) = _
  rw [mapM_ok_iff, List.forall₂_map_right_iff, List.forall₂_same]
  intro r hm
  obtain ⟨c, hc⟩ := cellAt_of_rect hr hm hl
  rw [hc, cell_of_pos hi hc]

theorem select_ok {f out : Frame} {names : List String} (h : f.select names = .ok out) :
    out.cols = names ∧ out.rows = f.rows.map fun r => ⟨r.idx, names.map (Spec.cell f r)⟩ := by
  rw [select] at h
  obtain ⟨is, h1, h⟩ := bind_eq_ok.1 h
  obtain ⟨rows, h2, h⟩ := bind_eq_ok.1 h
  cases h
  refine ⟨rfl, ?_⟩
  have e1 := mapM_ok_iff.1 h1
  have e2 := mapM_ok_iff.1 h2
  clear * - e1 e2
  simp only
  generalize f.rows = rs at e2
  induction e2 with
  | nil => rfl
  | @cons r x rs xs hx _ ih =>
    obtain ⟨cs, h3, h4⟩ := bind_eq_ok.1 hx
    cases h4
    rw [List.map_cons, ih]
    congr 2
    have e3 := mapM_ok_iff.1 h3
    clear * - e1 e3
    induction e1 generalizing cs with
    | nil => cases e3; rfl
    | cons hp _ ih =>
      cases e3 with
      | cons hc hs => rw [List.map_cons, cell_of_pos hp hc, ih _ hs]

theorem select_index {f out : Frame} {names : List String} (h : f.select names = .ok out) :
    out.index = f.index := by
  simp [Frame.index, (select_ok h).2, Function.comp_def]

theorem select_rect {f out : Frame} {names : List String} (h : f.select names = .ok out) :
    Spec.Rect out := by
  intro r hr
  obtain ⟨h1, h2⟩ := select_ok h
  rw [h2] at hr
  obtain ⟨x, -, rfl⟩ := List.mem_map.1 hr
  simp [h1]

theorem select_total {f : Frame} {names : List String} (hr : Rect f) (hn : f.cols.Nodup)
    (h : ∀ c ∈ names, c ∈ f.cols) : ∃ out, f.select names = .ok out := by
  have hpos : ∃ is, names.mapM f.pos = Except.ok is ∧ ∀ i ∈ is, i < f.cols.length := by
    induction names with
    | nil => exact ⟨[], rfl, by simp⟩
    | cons a names ih =>
      obtain ⟨i, h1, h2⟩ := pos_of_nodup hn (h a (by simp))
      obtain ⟨is, h3, h4⟩ := ih (fun c hc => h c (by simp [hc]))
      refine ⟨i :: is, ?_, ?_⟩
      · rw [List.mapM_cons, h1, h3]; rfl
      · rintro j (_ | ⟨_, hj⟩)
        · exact h2
        · exact h4 j hj
  obtain ⟨is, h1, h2⟩ := hpos
  have hrow : ∀ r ∈ f.rows, ∃ cs, is.mapM (fun i => cellAt i r) = Except.ok cs := by
    intro r hm
    clear h1
    induction is with
    | nil => exact ⟨[], rfl⟩
    | cons i is ih =>
      obtain ⟨c, hc⟩ := cellAt_of_rect hr hm (h2 i (by simp))
      obtain ⟨cs, hcs⟩ := ih (fun j hj => h2 j (by simp [hj]))
      exact ⟨c :: cs, by rw [List.mapM_cons, hc, hcs]; rfl⟩
  have hrows : ∃ rows, f.rows.mapM (fun r => do
      .ok (Row.mk r.idx (← is.mapM fun i => cellAt i r))) = Except.ok rows := by
    generalize f.rows = rs at hrow
    induction rs with
    | nil => exact ⟨[], rfl⟩
    | cons r rs ih =>
      obtain ⟨cs, hcs⟩ := hrow r (by simp)
      obtain ⟨rows, hrows⟩ := ih (fun r hr => hrow r (by simp [hr]))
      exact ⟨⟨r.idx, cs⟩ :: rows, by rw [List.mapM_cons, hcs, hrows]; rfl⟩
  obtain ⟨rows, h3⟩ := hrows
  exact ⟨⟨names, rows⟩, bind_eq_ok.2 ⟨is, h1, bind_eq_ok.2 ⟨rows, h3, rfl⟩⟩⟩

/-! ### Columns of a merge -/

theorem mergedCols_disjoint {l r : List String} (h : ∀ c ∈ l, c ∉ r) : mergedCols l r = l ++ r := by
  rw [mergedCols]
  congr 1
  · conv => rhs; rw [← List.map_id l]
    exact List.map_congr_left fun c hc => by simp [h c hc]
  · conv => rhs; rw [← List.map_id r]
    exact List.map_congr_left fun c hc => by
      have : c ∉ l := fun hl => h c hl hc
      simp [this]

theorem find?_zip_append {l r : List String} {a b : List Cell} (hl : a.length = l.length)
    (name : String) :
    ((l ++ r).zip (a ++ b)).find? (fun x => decide (x.1 = name)) =
      (((l.zip a).find? (fun x => decide (x.1 = name))).or
        ((r.zip b).find? (fun x => decide (x.1 = name)))) := by
  rw [List.zip_append hl.symm, List.find?_append]

theorem find?_zip_none {l : List String} {a : List Cell} {name : String} (h : name ∉ l) :
    (l.zip a).find? (fun x => decide (x.1 = name)) = none := by
  rw [List.find?_eq_none]
  intro x hx
  have := (List.of_mem_zip hx).1
  simp only [decide_eq_true_eq]
  rintro rfl
  exact h this

theorem find?_zip_isSome {l : List String} {a : List Cell} (hl : a.length = l.length)
    {name : String} (h : name ∈ l) :
    ((l.zip a).find? (fun x => decide (x.1 = name))).isSome := by
  rw [List.find?_isSome]
  obtain ⟨i, hi, rfl⟩ := List.getElem_of_mem h
  refine ⟨(l[i], a[i]'(by omega)), ?_, by simp⟩
  rw [List.mem_iff_getElem]
  exact ⟨i, by simp [hl, hi], by simp⟩

theorem cell_append_left {f o : Frame} {a r : Row} {b : List Cell} {b' : List String}
    (hc : o.cols = f.cols ++ b')
    (hl : a.cells.length = f.cols.length) (hr : r.cells = a.cells ++ b) {name : String}
    (h : name ∈ f.cols) : Spec.cell o r name = Spec.cell f a name := by
  rw [Spec.cell, Spec.cell, hc, hr, find?_zip_append hl]
  have := find?_zip_isSome hl h
  cases hx : (f.cols.zip a.cells).find? (fun x => decide (x.1 = name)) with
  | none => rw [hx] at this; cases this
  | some x => rfl

theorem cell_append_right {f g o : Frame} {a b r : Row} (hc : o.cols = f.cols ++ g.cols)
    (hl : a.cells.length = f.cols.length) (hr : r.cells = a.cells ++ b.cells) {name : String}
    (h : name ∉ f.cols) : Spec.cell o r name = Spec.cell g b name := by
  rw [Spec.cell, Spec.cell, hc, hr, find?_zip_append hl, find?_zip_none h]
  rfl

end Frame
end Trumania
