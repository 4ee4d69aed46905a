import Verif.Props.Columns
import Verif.Props.Selection
import Verif.Props.SelectMany

/-!
# Property C92 (what the selection operations join to each row)
-/

namespace Trumania
open Spec World Relationship
variable {σ γ : Type} {env : Env σ γ}

/-- rows of an inner join with a frame of distinct labels -/
theorem mergeIndex_inner_rows {l r : Frame} (hn : r.index.Nodup) :
    (Frame.mergeIndex .inner l r).rows = l.rows.filterMap fun a =>
      (r.rows.find? (fun b => decide (b.idx = a.idx))).map fun b => ⟨a.idx, a.cells ++ b.cells⟩ := by
  simp only [Frame.mergeIndex]
  induction l.rows with
  | nil => rfl
  | cons a rows ih =>
    rw [List.flatMap_cons, ih, List.filterMap_cons]
    have hf : r.rows.find? (fun b => decide (b.idx = a.idx)) =
        (r.rows.filter (fun b => decide (b.idx = a.idx))).head? := by
      rw [← List.head?_filter]
    rcases Frame.filter_idx_nodup hn a.idx with ⟨-, h⟩ | ⟨b, -, -, h⟩ <;> rw [hf, h] <;> rfl

theorem find?_label {rows : List OneRow} (hn : (rows.map (·.label)).Nodup) {o : OneRow}
    (ho : o ∈ rows) : rows.find? (fun b => decide (b.label = o.label)) = some o := by
  induction rows with
  | nil => cases ho
  | cons a rows ih =>
    rw [List.map_cons, List.nodup_cons] at hn
    rcases List.mem_cons.1 ho with rfl | ho
    · exact List.find?_cons_of_pos (by simp)
    · rw [List.find?_cons_of_neg]
      · exact ih hn.2 ho
      · intro h
        simp only [decide_eq_true_eq] at h
        exact hn.1 (h ▸ List.mem_map.2 ⟨o, ho, rfl⟩)

theorem find?_handed {rows : List (Val × List Val)} (hn : (rows.map Prod.fst).Nodup)
    {a : Val × List Val} (ha : a ∈ rows) :
    rows.find? (fun b => decide (b.1 = a.1)) = some (a.1, handed rows a.1) := by
  induction rows with
  | nil => cases ha
  | cons b rows ih =>
    rw [List.map_cons, List.nodup_cons] at hn
    rcases List.mem_cons.1 ha with rfl | ha
    · rw [List.find?_cons_of_pos (by simp), handed, List.filter_cons_of_pos (by simp)]
      have : rows.filter (fun x => decide (x.1 = a.1)) = [] := by
        rw [List.filter_eq_nil_iff]
        intro x hx he
        simp only [decide_eq_true_eq] at he
        exact hn.1 (he ▸ List.mem_map.2 ⟨x, hx, rfl⟩)
      rw [this]
      simp
    · have hne : b.1 ≠ a.1 := fun h => hn.1 (h ▸ List.mem_map.2 ⟨a, ha, rfl⟩)
      rw [List.find?_cons_of_neg (by simpa using hne), ih hn.2 ha, handed, handed,
        List.filter_cons_of_neg (by simpa using hne)]

/-- **C92** `select_one`: the rows kept are those of the story data, in order, with the `to` selected for
the row added at the end. The selected `to` is one of the `from` of the row; a row without any gets an
empty cell, or is dropped if so asked. With `one_to_one`, no `to` is given twice, and the rows that are
dropped for that reason have a `to` that another row got. The relations of the relationship change only
by those that are popped: with `one_to_one` exactly those given to the rows, without it the same ones,
each at most as often as it is given. No other object changes. -/
theorem C92_select_one {rel : Nat} {fromField name : String} {o2o pop discard : Bool}
    {weight : Option (Dict Val Rat)} {data out : Frame} {logs : Logs} {w w' : World σ γ}
    (hn : data.index.Nodup) {r : Relationship σ} (hrel : w.rels[rel]? = some r)
    (hreach : Reachable env.R r) (o : Orders)
    (h : Ops.selectOne env rel fromField name o2o pop discard weight data w = .ok (out, logs) w') :
    logs = [] ∧ (name ∉ data.cols → out.cols = data.cols ++ [name]) ∧
    ∃ (r' : Relationship σ) (chosen : Row → Option (Option Val)),
      w' = { w with rels := w.rels.set rel r' } ∧ Reachable env.R r' ∧
      out.rows = data.rows.filterMap (fun x => (chosen x).map fun t =>
        ⟨x.idx, x.cells ++ [.scalar (t.getD .na)]⟩) ∧
      (∀ x ∈ data.rows, ∀ t, chosen x = some (some t) →
        ∃ wt, (idIn (cell data x fromField), t, wt) ∈ r.get_relations o) ∧
      (∀ x ∈ data.rows, chosen x = some none →
        discard = false ∧ ¬ Has (r.get_relations o) (idIn (cell data x fromField))) ∧
      (∀ x ∈ data.rows, chosen x = none →
        (discard = true ∧ ¬ Has (r.get_relations o) (idIn (cell data x fromField))) ∨
        (o2o = true ∧ ∃ t, ∃ y ∈ data.rows, y.idx ≠ x.idx ∧ chosen y = some (some t) ∧
          ∃ wt, (idIn (cell data x fromField), t, wt) ∈ r.get_relations o)) ∧
      (o2o = true → ∀ x ∈ data.rows, ∀ y ∈ data.rows, ∀ t, chosen x = some (some t) →
        chosen y = some (some t) → x = y) ∧
      (pop = false → (r'.get_relations o).Perm (r.get_relations o)) ∧
      (pop = true → ∃ removed, (r.get_relations o).Perm (r'.get_relations o ++ removed) ∧
        (∀ f t, (f, t) ∈ removed.map (fun x => (x.1, x.2.1)) ↔
          ∃ x ∈ data.rows, idIn (cell data x fromField) = f ∧ chosen x = some (some t)) ∧
        (removed.map fun x => (x.1, x.2.1)).Subperm (data.rows.filterMap fun x =>
          ((chosen x).bind id).map fun t => (idIn (cell data x fromField), t)) ∧
        (o2o = true → (removed.map fun x => (x.1, x.2.1)).Nodup)) := by
  obtain ⟨froms, r0, r', rows, h1, h2, h3, rfl, h5⟩ := selectOne_eq_ok h
  rw [hrel] at h2
  cases h2
  cases h5
  obtain ⟨rfl, -⟩ := idColumn_eq_map h1
  have hzip : data.index.zip (data.rows.map fun x => idIn (cell data x fromField)) =
      data.rows.map fun x => (x.idx, idIn (cell data x fromField)) := by
    rw [Frame.index, List.zip_map']
  rw [hzip] at h3
  have hn' : ((data.rows.map fun x => (x.idx, idIn (cell data x fromField))).map Prod.fst).Nodup := by
    rw [List.map_map]; exact hn
  obtain ⟨l1, l2⟩ := select_one_labels h3 hn'
  set reqs := data.rows.map fun x => (x.idx, idIn (cell data x fromField)) with hreqs
  obtain ⟨base, b1, b2, b3, b4, b5, b6⟩ : ∃ base : List OneRow,
      (∃ outs, base = outs.filterMap id ∧
        List.Forall₂ (Answers (r.get_relations o) discard) reqs outs) ∧
      (∀ row ∈ rows, row ∈ base) ∧ (o2o = false → rows = base) ∧
      (∀ row ∈ base, ∀ t, row.to_ = some t → ∃ row' ∈ rows, row'.to_ = some t) ∧
      (∀ row ∈ base, row.to_ = none → row ∈ rows) ∧
      (o2o = true → ((items rows).map Prod.snd).Nodup) := by
    cases o2o with
    | false =>
      exact ⟨rows, (C19_select_one_rows env.R hreach o h3).1, fun _ h => h, fun _ => rfl,
        fun row hr t ht => ⟨row, hr, ht⟩, fun _ h _ => h, by simp⟩
    | true =>
      obtain ⟨base, r₀, e0, e1, e2, e3, e4⟩ := C20_one_to_one env.R h3
      refine ⟨base, (C19_select_one_rows env.R hreach o e0).1, e2, by simp, e3, ?_, fun _ => e1⟩
      intro row hr ht
      have : row ∈ base.filter (fun x => x.to_.isNone) := List.mem_filter.2 ⟨hr, by simp [ht]⟩
      rw [← e4] at this
      exact (List.mem_filter.1 this).1
  obtain ⟨outs, rfl, hans⟩ := b1
  -- the row of a label
  have hrow : ∀ row ∈ outs.filterMap id, ∃ x ∈ data.rows, row.label = x.idx ∧
      row.from_ = idIn (cell data x fromField) ∧
      Answers (r.get_relations o) discard (x.idx, idIn (cell data x fromField)) (some row) := by
    intro row hr
    obtain ⟨out, hout, he⟩ := List.mem_filterMap.1 hr
    simp only [id] at he
    subst he
    obtain ⟨q, hq, ha⟩ := forall₂_exists_left hans hout
    obtain ⟨x, hx, rfl⟩ := List.mem_map.1 hq
    refine ⟨x, hx, ?_⟩
    by_cases hh : Has (r.get_relations o) (idIn (cell data x fromField))
    · obtain ⟨row', t, wt, e, e1, e2, -⟩ := ha.1 hh
      cases e
      exact ⟨e1, e2, ha⟩
    · have := ha.2 hh
      split at this
      · cases this
      · obtain ⟨row', e, e1, e2, -⟩ := this
        cases e
        exact ⟨e1, e2, ha⟩
  have hinj : ∀ x ∈ data.rows, ∀ y ∈ data.rows, x.idx = y.idx → x = y :=
    fun x hx y hy e => List.inj_on_of_nodup_map hn hx hy e
  set chosen : Row → Option (Option Val) := fun x =>
    (rows.find? (fun b => decide (b.label = x.idx))).map (·.to_) with hchosen
  have hch : ∀ row ∈ rows, ∀ x ∈ data.rows, row.label = x.idx → chosen x = some row.to_ := by
    intro row hr x _ he
    simp only [hchosen, ← he, find?_label l1 hr, Option.map_some]
  have hch' : ∀ x ∈ data.rows, ∀ u, chosen x = some u → ∃ row ∈ rows, row.label = x.idx ∧
      row.to_ = u ∧ row.from_ = idIn (cell data x fromField) ∧
      Answers (r.get_relations o) discard (x.idx, idIn (cell data x fromField)) (some row) := by
    intro x hx u hu
    obtain ⟨row, hf, hu⟩ := Option.map_eq_some_iff.1 hu
    have hm := List.mem_of_find?_eq_some hf
    have hl := List.find?_some hf
    simp only [decide_eq_true_eq] at hl
    obtain ⟨y, hy, e1, e2, e3⟩ := hrow row (b2 row hm)
    have := hinj x hx y hy (hl.symm.trans e1)
    subst this
    exact ⟨row, hm, hl, hu, e2, e3⟩
  have hnone : ∀ x, chosen x = none → ∀ row ∈ rows, row.label ≠ x.idx := by
    intro x hx row hr he
    simp only [hchosen, Option.map_eq_none_iff] at hx
    simpa [he] using List.find?_eq_none.1 hx row hr
  refine ⟨rfl, fun hname => ?_, r', chosen, rfl, .selectOne hreach h3, ?_, ?_, ?_, ?_, ?_, ?_, ?_⟩
  · exact Frame.mergedCols_disjoint (by rintro c hc hc'; simp at hc'; exact hname (hc' ▸ hc))
  · rw [mergeIndex_inner_rows (by simpa [Frame.index, Function.comp_def] using l1)]
    congr 1
    funext x
    simp only [hchosen, List.find?_map, Option.map_map]
    rfl
  · intro x hx t ht
    obtain ⟨row, hr, -, e2, -, ha⟩ := hch' x hx _ ht
    by_cases hh : Has (r.get_relations o) (idIn (cell data x fromField))
    · obtain ⟨row', t', wt, e, -, -, e3, e4⟩ := ha.1 hh
      cases e
      rw [e2] at e3
      cases e3
      exact ⟨wt, e4⟩
    · have := ha.2 hh
      split at this
      · cases this
      · obtain ⟨row', e, -, -, e3⟩ := this
        cases e
        rw [e2] at e3
        cases e3
  · intro x hx hc
    obtain ⟨row, hr, -, e2, -, ha⟩ := hch' x hx _ hc
    have hh : ¬ Has (r.get_relations o) (idIn (cell data x fromField)) := by
      intro hh
      obtain ⟨row', t', wt, e, -, -, e3, -⟩ := ha.1 hh
      cases e
      rw [e2] at e3
      cases e3
    refine ⟨?_, hh⟩
    have := ha.2 hh
    split at this
    · cases this
    · rename_i hd; simpa using hd
  · intro x hx hc
    have hno := hnone x hc
    obtain ⟨out, hout, ha⟩ := forall₂_exists_right hans
      (show (x.idx, idIn (cell data x fromField)) ∈ reqs from List.mem_map.2 ⟨x, hx, rfl⟩)
    by_cases hh : Has (r.get_relations o) (idIn (cell data x fromField))
    · obtain ⟨row, t, wt, rfl, e1, e2, e3, e4⟩ := ha.1 hh
      have hb : row ∈ outs.filterMap id := List.mem_filterMap.2 ⟨some row, hout, rfl⟩
      cases o2o with
      | false => exact absurd e1 (hno row (by rw [b3 rfl]; exact hb))
      | true =>
        obtain ⟨row', hr', ht'⟩ := b4 row hb t e3
        obtain ⟨y, hy, f1, -, -⟩ := hrow row' (b2 row' hr')
        refine Or.inr ⟨rfl, t, y, hy, ?_, by rw [hch row' hr' y hy f1, ht'], wt, e4⟩
        intro he
        exact hno row' hr' (f1.trans he)
    · have := ha.2 hh
      split at this
      · rename_i hd; exact Or.inl ⟨hd, hh⟩
      · obtain ⟨row, rfl, e1, -, e3⟩ := this
        have hb : row ∈ outs.filterMap id := List.mem_filterMap.2 ⟨some row, hout, rfl⟩
        exact absurd e1 (hno row (b5 row hb e3))
  · intro ho x hx y hy t ht ht'
    obtain ⟨row, hr, e1, e2, -, -⟩ := hch' x hx _ ht
    obtain ⟨row', hr', e1', e2', -, -⟩ := hch' y hy _ ht'
    have : row = row' := by
      have hnd := b6 ho
      clear * - hnd hr hr' e2 e2'
      induction rows with
      | nil => cases hr
      | cons a rows ih =>
        have hmem : ∀ b ∈ rows, b.to_ = some t → t ∈ (items rows).map Prod.snd := by
          intro b hb hbt
          exact List.mem_map.2 ⟨(b.from_, t), List.mem_filterMap.2 ⟨b, hb, by rw [hbt]; rfl⟩, rfl⟩
        have hsplit : items (a :: rows) = (a.to_.map fun t => (a.from_, t)).toList ++ items rows := by
          rw [items, List.filterMap_cons, items]
          cases a.to_ <;> rfl
        rw [hsplit, List.map_append, List.nodup_append] at hnd
        have hne : a.to_ = some t → ∀ b ∈ rows, b.to_ ≠ some t := by
          intro ha b hb hbt
          exact hnd.2.2 t (by rw [ha]; simp) t (hmem b hb hbt) rfl
        rcases List.mem_cons.1 hr with rfl | k <;> rcases List.mem_cons.1 hr' with rfl | k'
        · rfl
        · exact absurd e2' (hne e2 _ k')
        · exact absurd e2 (hne e2' _ k)
        · exact ih k k' hnd.2.1
    subst this
    exact hinj x hx y hy (e1.symm.trans e1')
  · intro hp
    obtain ⟨-, outs', hs⟩ := select_one_ok env.R hreach.gwf h3
    rw [get_relations_perm_iff, hs.keep hp]
    intro f
    rw [get_relations_none_rowsOf]
  · intro hp
    subst hp
    obtain ⟨removed, f1, f2, f3, -, f5⟩ := C21_pop_removes_returned env.R hreach o o h3
    refine ⟨removed, f1, fun f t => ?_, ?_, fun ho => ?_⟩
    · rw [← f2, items, List.mem_filterMap]
      constructor
      · rintro ⟨row, hr, he⟩
        cases hto : row.to_ with
        | none => rw [hto] at he; cases he
        | some u =>
          rw [hto] at he
          simp only [Option.map_some, Option.some.injEq, Prod.mk.injEq] at he
          obtain ⟨rfl, rfl⟩ := he
          obtain ⟨x, hx, e1, e2, -⟩ := hrow row (b2 row hr)
          exact ⟨x, hx, e2.symm, by rw [hch row hr x hx e1, hto]⟩
      · rintro ⟨x, hx, rfl, hc⟩
        obtain ⟨row, hr, -, e2, e3, -⟩ := hch' x hx _ hc
        exact ⟨row, hr, by rw [e2, e3]; rfl⟩
    · refine f3.trans ?_
      have hsub : (rows.filterMap fun b => b.to_.map fun t => (b.label, b.from_, t)).Subperm
          (data.rows.filterMap fun x => ((chosen x).bind id).map fun t =>
            (x.idx, idIn (cell data x fromField), t)) := by
        refine List.subperm_of_subset ?_ ?_
        · refine List.Nodup.of_map Prod.fst (List.Sublist.nodup ?_ l1)
          rw [List.map_filterMap]
          have : (rows.filterMap fun x => Option.map Prod.fst
              (x.to_.map fun t => (x.label, x.from_, t))) =
              (rows.filter fun x => x.to_.isSome).map (·.label) := by
            clear * -
            induction rows with
            | nil => rfl
            | cons b rows ih => cases hb : b.to_ <;> simpa [hb] using ih
          rw [this]
          exact List.filter_sublist.map _
        · intro y hy
          obtain ⟨row, hr, he⟩ := List.mem_filterMap.1 hy
          obtain ⟨t, ht, rfl⟩ := Option.map_eq_some_iff.1 he
          obtain ⟨x, hx, e1, e2, -⟩ := hrow row (b2 row hr)
          exact List.mem_filterMap.2 ⟨x, hx, by rw [hch row hr x hx e1, ht, e1, e2]; rfl⟩
      obtain ⟨l, hl1, hl2⟩ := hsub
      have : (_ : List (Val × Val)).Subperm _ := ⟨l.map Prod.snd, hl1.map _, hl2.map _⟩
      rw [List.map_filterMap, List.map_filterMap] at this
      simpa [items, Function.comp_def, Option.map_map] using this
    · rw [f5 ho]
      exact List.Nodup.of_map _ (b6 ho)

/-- **C92** `select_many`: the rows kept are those of the story data, in order, with the list selected for
the row added at the end; rows whose list would be empty are dropped if so asked, and only then. No list
is longer than the quantity of its row; the lists given to all the rows of a `from` are, together, made
of relations of this `from`, each used once at most, and as many as these rows ask for or as there are.
When a `from` can serve all its rows, each of them gets exactly its quantity.
Without `pop` the relationship keeps its relations; with it, and if no two rows have the same `from`, it
loses exactly those selected (with a repeated `from` see C26); no other object changes. -/
theorem C92_select_many {rel : Nat} {fromField name qtyField : String} {pop discard : Bool}
    {data out : Frame} {logs : Logs} {w w' : World σ γ}
    (hn : data.index.Nodup) {r : Relationship σ} (hrel : w.rels[rel]? = some r)
    (hreach : Reachable env.R r) (o : Orders) {qty : Row → Nat}
    (hq : ∀ x ∈ data.rows, cell data x qtyField = .num (qty x : Rat))
    (h : Ops.selectMany env rel fromField name qtyField pop discard data w = .ok (out, logs) w') :
    logs = [] ∧ (name ∉ data.cols → out.cols = data.cols ++ [name]) ∧
    ∃ (r' : Relationship σ) (given : Row → List Val),
      w' = { w with rels := w.rels.set rel r' } ∧ Reachable env.R r' ∧
      out.rows = (data.rows.filter fun x => decide (discard = true → given x ≠ [])).map
        (fun x => ⟨x.idx, x.cells ++ [.list (given x)]⟩) ∧
      (∀ x ∈ data.rows, (given x).length ≤ qty x) ∧
      (∀ f, ((data.rows.filter fun x => decide (idIn (cell data x fromField) = f)).flatMap given).Subperm
        (tosOf (r.get_relations o) f)) ∧
      (∀ f, ((data.rows.filter fun x => decide (idIn (cell data x fromField) = f)).flatMap
          given).length =
        min ((data.rows.filter fun x => decide (idIn (cell data x fromField) = f)).map qty).sum
          (tosOf (r.get_relations o) f).length) ∧
      (∀ x ∈ data.rows, ((data.rows.filter fun y =>
          decide (idIn (cell data y fromField) = idIn (cell data x fromField))).map qty).sum ≤
          (tosOf (r.get_relations o) (idIn (cell data x fromField))).length →
        (given x).length = qty x) ∧
      (pop = false → (r'.get_relations o).Perm (r.get_relations o)) ∧
      (pop = true → (data.rows.map fun x => idIn (cell data x fromField)).Nodup →
        ∃ removed, (r.get_relations o).Perm (r'.get_relations o ++ removed) ∧
          (removed.map fun x => (x.1, x.2.1)).Perm
            (data.rows.flatMap fun x => (given x).map fun t =>
              (idIn (cell data x fromField), t))) := by
  obtain ⟨froms, qties, r0, r', rows, h1, h0, h2, h3, rfl, h5⟩ := selectMany_eq_ok h
  rw [hrel] at h2
  cases h2
  cases h5
  obtain ⟨rfl, -⟩ := idColumn_eq_map h1
  have hqt : qties = data.rows.map fun x => ((qty x : Nat) : Int) := by
    obtain ⟨cs, e1, e2⟩ := bind_eq_ok.1 h0
    have e1 := Frame.col_eq_map e1
    subst e1
    have e2 := mapM_ok_iff.1 e2
    rw [List.forall₂_map_left_iff] at e2
    clear * - e2 hq
    generalize data.rows = rows at e2 hq
    induction e2 with
    | nil => rfl
    | @cons x q rows qs hx _ ih =>
      rw [List.map_cons, ← ih fun y hy => hq y (by simp [hy])]
      rw [hq x (by simp)] at hx
      simp only [Ops.asInt] at hx
      rw [if_pos (Rat.den_natCast _)] at hx
      cases hx
      rw [Rat.num_natCast]
  subst hqt
  have hzip : data.index.zip ((data.rows.map fun x => idIn (cell data x fromField)).zip
        (data.rows.map fun x => ((qty x : Nat) : Int))) =
      data.rows.map fun x => (x.idx, idIn (cell data x fromField), ((qty x : Nat) : Int)) := by
    rw [Frame.index, List.zip_map', List.zip_map']
  rw [hzip] at h3
  set reqs := data.rows.map fun x => (x.idx, idIn (cell data x fromField), ((qty x : Nat) : Int)) with hreqs
  have hnl : (reqs.map (·.1)).Nodup := by rw [hreqs, List.map_map]; exact hn
  have hq0 : ∀ q ∈ reqs, 0 ≤ q.2.2 := by
    intro q hq
    obtain ⟨x, -, rfl⟩ := List.mem_map.1 hq
    exact Int.natCast_nonneg _
  obtain ⟨l1, l2⟩ := select_many_labels h3 hnl
  obtain ⟨res, r1, e0, e1, e2, e3, e4⟩ :=
    C24_select_many_quantities env.R hreach o reqs hnl hq0 pop discard
  rw [h3] at e0
  cases e0
  obtain ⟨k1, k2⟩ := C25_select_many_labels env.R hreach hnl hq0 h3
  have hfrom : ∀ f, handedFrom reqs rows f =
      (data.rows.filter fun x => decide (idIn (cell data x fromField) = f)).flatMap
        fun x => handed rows x.idx := by
    intro f
    rw [handedFrom, hreqs, List.filter_map, List.flatMap_map]
    rfl
  have hasked : ∀ f, asked reqs f =
      ((((data.rows.filter fun x => decide (idIn (cell data x fromField) = f)).map qty).sum : Nat) :
        Int) := by
    intro f
    rw [asked, hreqs, List.filter_map, List.map_map]
    simp only [Function.comp_def]
    generalize data.rows.filter _ = ds
    induction ds with
    | nil => rfl
    | cons x ds ih =>
      simp only [List.map_cons, List.sum_cons] at ih ⊢
      rw [ih]
      push_cast
      rfl
  refine ⟨rfl, fun hname => ?_, r', fun x => handed rows x.idx, rfl,
    .selectMany hnl hq0 hreach h3, ?_, ?_, ?_, ?_, ?_, ?_, ?_⟩
  · exact Frame.mergedCols_disjoint (by rintro c hc hc'; simp at hc'; exact hname (hc' ▸ hc))
  · rw [mergeIndex_inner_rows (by simpa [Frame.index, Function.comp_def] using l1)]
    have hmem : ∀ x ∈ data.rows, x.idx ∈ rows.map Prod.fst ↔
        (discard = true → handed rows x.idx ≠ []) := by
      intro x hx
      have hxr : x.idx ∈ reqs.map (·.1) := by
        rw [hreqs, List.map_map]; exact List.mem_map.2 ⟨x, hx, rfl⟩
      cases discard with
      | false => simpa using (k1 rfl).mem_iff.2 hxr
      | true =>
        rw [(k2 rfl).2.2]
        simp only [hxr, true_and, forall_const]
    generalize data.rows = ds at hmem
    induction ds with
    | nil => rfl
    | cons x ds ih =>
      have := ih fun y hy => hmem y (by simp [hy])
      simp only [List.find?_map, Option.map_map] at this ⊢
      rw [List.filterMap_cons, this]
      have hx := hmem x (by simp)
      by_cases hk : x.idx ∈ rows.map Prod.fst
      · rw [List.filter_cons_of_pos (by rw [decide_eq_true_eq]; exact hx.1 hk), List.map_cons]
        obtain ⟨a, ha, hax⟩ := List.mem_map.1 hk
        have h6 := find?_handed l1 ha
        rw [hax] at h6
        simp only [Function.comp_def, h6, Option.map_some]
      · rw [List.filter_cons_of_neg (by simpa using fun e => hk (hx.2 e))]
        have : rows.find? (fun b => decide (b.1 = x.idx)) = none :=
          List.find?_eq_none.2 fun b hb hbe => hk (by
            simp only [decide_eq_true_eq] at hbe
            exact hbe ▸ List.mem_map.2 ⟨b, hb, rfl⟩)
        simp only [Function.comp_def, this, Option.map_none]
  · intro x hx
    have := e3 _ (show (x.idx, idIn (cell data x fromField), ((qty x : Nat) : Int)) ∈ reqs from
      List.mem_map.2 ⟨x, hx, rfl⟩)
    exact Int.ofNat_le.1 this
  · intro f
    rw [← hfrom]
    exact e1 f
  · intro f
    have := e2 f
    rw [hfrom, hasked] at this
    exact_mod_cast this
  · intro x hx hle
    have := e4 _ (show (x.idx, idIn (cell data x fromField), ((qty x : Nat) : Int)) ∈ reqs from
      List.mem_map.2 ⟨x, hx, rfl⟩) (by rw [hasked]; exact Int.ofNat_le.2 hle)
    exact Int.ofNat_inj.1 this
  · intro hp
    obtain ⟨res', r1, out, g1, hs⟩ := select_many_spec env.R hreach.gwf hnl hq0 pop discard
    rw [h3] at g1
    cases g1
    rw [get_relations_perm_iff, hs.keep hp]
    intro f
    rw [get_relations_none_rowsOf]
  · intro hp hfn
    subst hp
    obtain ⟨removed, f1, f2⟩ := C26_select_many_pop_partial env.R hreach o o hnl hq0
      (by rw [hreqs, List.map_map]; exact hfn) h3
    refine ⟨removed, f1, f2.trans (List.Perm.of_eq ?_)⟩
    rw [hreqs, List.flatMap_map]

/-! ### Non-vacuity -/

/-- what two calls of `add_relations` build -/
def exLinks : Relationship Nat :=
  ⟨1, 1, [(.str "x", ⟨[.str "1"], [1]⟩), (.str "y", ⟨[.str "2", .str "3", .str "2"], [1, 3, 3]⟩)]⟩

theorem exLinks_reachable : Reachable exEnv.R exLinks := by
  refine .add Orders.a (f := [.str "y", .str "y"]) (t := [.str "3", .str "2"]) (w := .scalar 3)
    (.add Orders.a (f := [.str "x", .str "y"]) (t := [.str "1", .str "2"]) (w := .scalar 1)
      (r' := ⟨1, 1, [(.str "x", ⟨[.str "1"], [1]⟩), (.str "y", ⟨[.str "2"], [1]⟩)]⟩)
      (.new 1) ?_) ?_ <;> decide +kernel

def exLinked : World Nat (AnyGen Nat) := { exWorld with rels := [exLinks] }

example : ∃ r, exLinked.rels[0]? = some r ∧ Reachable exEnv.R r := ⟨_, rfl, exLinks_reachable⟩

/-- two rows have the same `from`, one has a `from` without relation: it is dropped -/
example : ((Ops.selectOne exEnv 0 "FRIEND" "TO" false true true none exCalls).value? exLinked).map
      (fun x => (x.1.index, x.1.cols, (cellsOf x.1 "TO").length)) =
    some ([.str "a", .str "b", .str "c"], ["CALLER", "FRIEND", "SHORT", "TO"], 3) := by
  decide +kernel

/-- one to one: the two rows of "y" get two different `to`, the one of "z" an empty cell -/
example : ((Ops.selectOne exEnv 0 "FRIEND" "TO" true true false none exCalls).value? exLinked).isSome
    := by
  decide +kernel

/-- quantities 2, 0 and 3 of "y", "x" and "z" -/
example : ∀ x ∈ exCounts.rows, cell exCounts x "N" =
    .num (((if x.idx = .str "a" then 2 else if x.idx = .str "b" then 0 else 3 : Nat) : Nat) : Rat) := by
  decide +kernel

example : (exCounts.rows.map fun x => idIn (cell exCounts x "CALLER")).Nodup := by decide +kernel

example : ((Ops.selectMany exEnv 0 "CALLER" "TOS" "N" true false exCounts).value? exLinked).map
      (fun x => (x.1.index, (cellsOf x.1 "TOS").map fun c => (c.asList.toOption.getD []).length)) =
    some ([.str "a", .str "b", .str "c"], [2, 0, 0]) := by decide +kernel

example : ((Ops.selectMany exEnv 0 "CALLER" "TOS" "N" true true exCounts).value? exLinked).map
      (fun x => x.1.index) = some [.str "a"] := by decide +kernel

end Trumania
