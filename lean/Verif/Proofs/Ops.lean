import Verif.Spec.BuiltIn
import Verif.Proofs.Frame
import Verif.Proofs.Labels
import Verif.Proofs.Chain

/-! Helper lemmas on the built-in operations. -/

namespace Trumania
open Spec World
variable {σ γ : Type} {env : Env σ γ} {F Z : Nat → Prop}

/-- the output of a column adder: one column indexed like the story data -/
theorem columnAdder_spec {name : String} {op : Op (World σ γ)} (hop : ColumnAdder env name op)
    {data : Frame} {out : Frame × Logs} {w w' : World σ γ} (h : op data w = .ok out w') :
    ∃ added values, Frame.ofColumn data.index name values = .ok added ∧
      out = (data.mergeIndex .left added, []) := by
  cases hop with
  | randomValues g q =>
    obtain ⟨o, h1, rfl⟩ := addColumns_eq_ok.1 h
    obtain ⟨v, w1, -, h2⟩ := Act.bind_eq_ok.1 h1
    exact ⟨o, v, (Act.ofPy_eq_ok.1 h2).1, rfl⟩
  | randomValuesFromField g f =>
    obtain ⟨o, h1, rfl⟩ := addColumns_eq_ok.1 h
    obtain ⟨_, w1, -, h2⟩ := Act.bind_eq_ok.1 h1
    obtain ⟨v, w2, -, h3⟩ := Act.bind_eq_ok.1 h2
    exact ⟨o, v, (Act.ofPy_eq_ok.1 h3).1, rfl⟩
  | timestamp r f =>
    obtain ⟨o, h1, rfl⟩ := addColumns_eq_ok.1 h
    obtain ⟨_, w1, -, h2⟩ := Act.bind_eq_ok.1 h1
    obtain ⟨_, w2, -, h3⟩ := Act.bind_eq_ok.1 h2
    obtain ⟨_, w3, -, h4⟩ := Act.bind_eq_ok.1 h3
    exact ⟨o, _, (Act.ofPy_eq_ok.1 h4).1, rfl⟩
  | neighbourhoodSize rel f =>
    obtain ⟨o, h1, rfl⟩ := addColumns_eq_ok.1 h
    obtain ⟨_, w1, -, h2⟩ := Act.bind_eq_ok.1 h1
    obtain ⟨_, w2, -, h3⟩ := Act.bind_eq_ok.1 h2
    exact ⟨o, _, (Act.ofPy_eq_ok.1 h3).1, rfl⟩
  | applySeries s f =>
    obtain ⟨o, h1, rfl⟩ := addColumns_eq_ok.1 h
    obtain ⟨h2, -⟩ := Act.ofPy_eq_ok.1 h1
    obtain ⟨_, -, h3⟩ := bind_eq_ok.1 h2
    obtain ⟨_, -, h4⟩ := bind_eq_ok.1 h3
    exact ⟨o, _, h4, rfl⟩

theorem sideEffect_spec {op : Op (World σ γ)} (hop : SideEffect env F Z op)
    {data : Frame} {out : Frame × Logs} {w w' : World σ γ} (h : op data w = .ok out w') :
    out = (data, []) := by
  cases hop <;>
    simp only [Ops.relAdd, Ops.relAddGrouped, Ops.relRemove, Ops.onRel, Ops.attrUpdate, Ops.attrAdd,
      Ops.popUpdate, Ops.forceActNext, Ops.resetTimers, Ops.transitToState,
      Ops.maybeBackToDefault] at h <;>
    exact (sideEffect_eq_ok.1 h).2

theorem zipIdx_map_idx (l : List Val) (f : Val × Nat → List Cell) :
    (l.zipIdx.map fun x => (⟨x.1, f x⟩ : Row)).map (·.idx) = l := by
  rw [List.map_map]
  simp [Function.comp_def]

theorem lookupOutput_index {p : Population} {i : String} {sel : Dict String String} {data o : Frame}
    (h : Ops.lookupOutput p i sel data = .ok o) : o.index = data.index := by
  rw [Ops.lookupOutput.eq_def] at h
  cases hd : data.rows with
  | nil =>
    rw [hd] at h
    cases h
    simp [Frame.index, hd]
  | cons r rs =>
    rw [hd] at h
    obtain ⟨k, -, h⟩ := bind_eq_ok.1 h
    obtain ⟨c, -, h⟩ := bind_eq_ok.1 h
    cases c with
    | list _ =>
      simp only [Ops.lookupSequences] at h
      obtain ⟨_, -, h⟩ := bind_eq_ok.1 h
      obtain ⟨_, -, h⟩ := bind_eq_ok.1 h
      obtain ⟨_, -, h⟩ := bind_eq_ok.1 h
      cases h
      exact zipIdx_map_idx _ _
    | scalar _ =>
      simp only [Ops.lookupScalars] at h
      obtain ⟨_, -, h⟩ := bind_eq_ok.1 h
      obtain ⟨_, -, h⟩ := bind_eq_ok.1 h
      split at h
      · cases h
      · cases h
        exact zipIdx_map_idx _ _

/-- the rows of `mergeLists` for one from -/
def listRows (rows : List Row) (froms : List Val) (selected : List (Val × List Val)) (f : Val) :
    List Row :=
  match Dict.get? selected f with
  | none => []
  | some tos => ((rows.zip froms).filter (fun x => decide (x.2 = f))).map fun x =>
      ⟨x.1.idx, x.1.cells ++ [.list tos]⟩

theorem zip_filter_idx {rows : List Row} {froms : List Val} (hl : froms.length = rows.length)
    (hn : (rows.map (·.idx)).Nodup) (selected : List (Val × List Val)) {fs : List Val}
    (hfs : fs.Nodup) :
    ((fs.flatMap (listRows rows froms selected)).map (·.idx)).Nodup ∧
    ∀ i ∈ (fs.flatMap (listRows rows froms selected)).map (·.idx), i ∈ rows.map (·.idx) := by
  have hz : ((rows.zip froms).map (·.1.idx)).Nodup := by
    have : (rows.zip froms).map (·.1.idx) = ((rows.zip froms).map Prod.fst).map (·.idx) := by
      rw [List.map_map]; rfl
    rw [this, List.map_fst_zip (by omega)]
    exact hn
  have hpart : ∀ f, (listRows rows froms selected f).map (·.idx) =
      (if (Dict.get? selected f).isSome then
        ((rows.zip froms).filter (fun x => decide (x.2 = f))).map (·.1.idx) else []) := by
    intro f
    rw [listRows]
    cases Dict.get? selected f with
    | none => rfl
    | some t => simp [Function.comp_def]
  rw [List.map_flatMap]
  simp only [hpart]
  constructor
  · rw [List.nodup_flatMap]
    constructor
    · intro f _
      split
      · exact hz.sublist (List.filter_sublist.map _)
      · exact List.nodup_nil
    · refine hfs.imp fun {a b} hab => ?_
      intro i hi hj
      simp only at hi hj
      split at hi
      · split at hj
        · obtain ⟨x, hx, rfl⟩ := List.mem_map.1 hi
          obtain ⟨y, hy, he⟩ := List.mem_map.1 hj
          rw [List.mem_filter] at hx hy
          have := List.inj_on_of_nodup_map hz hy.1 hx.1 he
          subst this
          simp only [decide_eq_true_eq] at hx hy
          exact hab (hx.2.symm.trans hy.2)
        · cases hj
      · cases hi
  · intro i hi
    obtain ⟨f, -, hi⟩ := List.mem_flatMap.1 hi
    split at hi
    · obtain ⟨x, hx, rfl⟩ := List.mem_map.1 hi
      exact List.mem_map.2 ⟨x.1, (List.of_mem_zip (List.mem_of_mem_filter hx)).1, rfl⟩
    · cases hi

theorem selectAll_eq_ok {rel : Nat} {f name : String} {data : Frame} {out : Frame × Logs}
    {w w' : World σ γ} (h : Ops.selectAll env rel f name data w = .ok out w') :
    ∃ froms r, Ops.idColumn data f = .ok froms ∧ w.rels[rel]? = some r ∧ w = w' ∧
      out = (Ops.mergeLists data froms name (r.select_all_horizontal env.orders (uniq froms)),
        []) := by
  rw [Ops.selectAll] at h
  obtain ⟨froms, w1, h1, h⟩ := Act.bind_eq_ok.1 h
  obtain ⟨r, w2, h2, h⟩ := Act.bind_eq_ok.1 h
  rw [Act.ofPy_eq_ok] at h1
  rw [getRel_eq_ok] at h2
  obtain ⟨h1, rfl⟩ := h1
  obtain ⟨h2, rfl⟩ := h2
  rw [Act.pure_eq_ok] at h
  exact ⟨froms, r, h1, h2, h.2, h.1.symm⟩

/-- what `SelectOne` does -/
theorem selectOne_eq_ok {rel : Nat} {f name : String} {o p d : Bool}
    {weight : Option (Dict Val Rat)} {data : Frame} {out : Frame × Logs}
    {w w' : World σ γ} (h : Ops.selectOne env rel f name o p d weight data w = .ok out w') :
    ∃ froms r r' rows, Ops.idColumn data f = .ok froms ∧ w.rels[rel]? = some r ∧
      r.select_one env.R (some (data.index.zip froms)) p d o weight = .ok (rows, r') ∧
      w' = { w with rels := w.rels.set rel r' } ∧
      out = (data.mergeIndex .inner
        ⟨[name], rows.map fun x => ⟨x.label, [.scalar (x.to_.getD .na)]⟩⟩, []) := by
  obtain ⟨out', h0, rfl⟩ := addColumns_eq_ok.1 h
  clear h
  obtain ⟨froms, w1, h1, h⟩ := Act.bind_eq_ok.1 h0
  obtain ⟨r, w2, h2, h⟩ := Act.bind_eq_ok.1 h
  obtain ⟨⟨rows, r'⟩, w3, h3, h⟩ := Act.bind_eq_ok.1 h
  obtain ⟨_, w4, h4, h⟩ := Act.bind_eq_ok.1 h
  rw [Act.ofPy_eq_ok] at h1 h3
  rw [getRel_eq_ok] at h2
  rw [setRel_eq_ok] at h4
  obtain ⟨h1, rfl⟩ := h1
  obtain ⟨h2, rfl⟩ := h2
  obtain ⟨h3, rfl⟩ := h3
  obtain ⟨h5, rfl⟩ := Act.pure_eq_ok.1 h
  exact ⟨froms, r, r', rows, h1, h2, h3, rfl, by rw [← h5]⟩

/-- what `SelectMany` does -/
theorem selectMany_eq_ok {rel : Nat} {f name q : String} {p d : Bool}
    {data : Frame} {out : Frame × Logs}
    {w w' : World σ γ} (h : Ops.selectMany env rel f name q p d data w = .ok out w') :
    ∃ froms qties r r' rows, Ops.idColumn data f = .ok froms ∧
      (do (← data.col q).mapM Ops.asInt) = Except.ok qties ∧ w.rels[rel]? = some r ∧
      r.select_many env.R (data.index.zip (froms.zip qties)) p d = .ok (rows, r') ∧
      w' = { w with rels := w.rels.set rel r' } ∧
      out = (data.mergeIndex .inner ⟨[name], rows.map fun x => ⟨x.1, [.list x.2]⟩⟩, []) := by
  obtain ⟨out', h0, rfl⟩ := addColumns_eq_ok.1 h
  clear h
  obtain ⟨froms, w1, h1, h⟩ := Act.bind_eq_ok.1 h0
  obtain ⟨qties, w1', h1', h⟩ := Act.bind_eq_ok.1 h
  obtain ⟨r, w2, h2, h⟩ := Act.bind_eq_ok.1 h
  obtain ⟨⟨rows, r'⟩, w3, h3, h⟩ := Act.bind_eq_ok.1 h
  obtain ⟨_, w4, h4, h⟩ := Act.bind_eq_ok.1 h
  rw [Act.ofPy_eq_ok] at h1 h1' h3
  rw [getRel_eq_ok] at h2
  rw [setRel_eq_ok] at h4
  obtain ⟨h1, rfl⟩ := h1
  obtain ⟨h1', rfl⟩ := h1'
  obtain ⟨h2, rfl⟩ := h2
  obtain ⟨h3, rfl⟩ := h3
  obtain ⟨h5, rfl⟩ := Act.pure_eq_ok.1 h
  exact ⟨froms, qties, r, r', rows, h1, h1', h2, h3, rfl, by rw [← h5]⟩

/-- every built-in operation keeps the index unique and adds no label -/
theorem builtIn_index {op : Op (World σ γ)} (hop : BuiltIn env F Z op) :
    ∀ {data : Frame} {out : Frame × Logs} {w w' : World σ γ}, op data w = .ok out w' →
      data.index.Nodup → out.1.index.Nodup ∧ ∀ i ∈ out.1.index, i ∈ data.index := by
  have hsub : ∀ {data o : Frame} {how : JoinKind}, o.index.Nodup → data.index.Nodup →
      (data.mergeIndex how o).index.Nodup ∧ ∀ i ∈ (data.mergeIndex how o).index, i ∈ data.index :=
    fun ho hd => ⟨hd.sublist (Frame.mergeIndex_index_sublist ho),
      fun i hi => (Frame.mergeIndex_index_sublist ho).subset hi⟩
  induction hop with
  | adder hop =>
    intro data out w w' h hn
    obtain ⟨added, values, h1, rfl⟩ := columnAdder_spec hop h
    exact hsub (by rw [(Frame.ofColumn_ok h1).1]; exact hn) hn
  | effect hop =>
    intro data out w w' h hn
    rw [sideEffect_spec hop h]
    exact ⟨hn, fun _ h => h⟩
  | fieldLogger logId cols exploded =>
    intro data out w w' h hn
    rw [Ops.fieldLogger] at h
    obtain ⟨_, w1, -, h⟩ := Act.bind_eq_ok.1 h
    rw [Act.pure_eq_ok] at h
    rw [← h.1]
    exact ⟨hn, fun _ h => h⟩
  | dropRow field =>
    intro data out w w' h hn
    obtain ⟨-, o, h0, rfl⟩ := transform_eq_ok.1 h
    rw [Ops.dropRows] at h0
    obtain ⟨c, -, h⟩ := bind_eq_ok.1 h0
    obtain ⟨b, -, h⟩ := bind_eq_ok.1 h
    cases h
    have := (Frame.mask_rows_sublist data (b.map (!·))).map (·.idx)
    exact ⟨hn.sublist this, fun i hi => this.subset hi⟩
  | applyFrame sources namedAs f hf =>
    intro data out w w' h hn
    obtain ⟨o, h0, rfl⟩ := addColumns_eq_ok.1 h
    clear h
    obtain ⟨s, hs, h⟩ := bind_eq_ok.1 (Act.ofPy_eq_ok.1 h0).1
    obtain ⟨r, h1, h⟩ := bind_eq_ok.1 h
    cases h
    exact hsub (hf s r (by rw [Frame.select_index hs]; exact hn) h1) hn
  | selectOne rel f name o p d weight =>
    intro data out w w' h hn
    obtain ⟨froms, r, r', rows, h1, -, h3, -, rfl⟩ := selectOne_eq_ok h
    refine hsub ?_ hn
    have := (select_one_labels h3 (by
      rw [List.map_fst_zip (by rw [Frame.index_length, idColumn_length h1])]; exact hn)).1
    simpa [Frame.index, Function.comp_def] using this
  | selectAll rel f name =>
    intro data out w w' h hn
    obtain ⟨froms, r, h1, -, -, rfl⟩ := selectAll_eq_ok h
    exact zip_filter_idx (idColumn_length h1) hn _ (uniq_nodup _)
  | selectMany rel f name q p d =>
    intro data out w w' h hn
    obtain ⟨froms, qties, r, r', rows, h1, h2, -, h3, -, rfl⟩ := selectMany_eq_ok h
    refine hsub ?_ hn
    have := (select_many_labels h3 (hn.sublist (zip_fst_sublist _ _))).1
    simpa [Frame.index, Function.comp_def] using this
  | lookup pop i sel =>
    intro data out w w' h hn
    obtain ⟨o, h0, rfl⟩ := addColumns_eq_ok.1 h
    clear h
    obtain ⟨p, w1, -, h⟩ := Act.bind_eq_ok.1 h0
    refine hsub ?_ hn
    rw [lookupOutput_index (Act.ofPy_eq_ok.1 h).1]
    exact hn
  | chain ops _ ih =>
    intro data out w w' h hn
    rw [World.chain] at h
    have : ∀ {l : List (Op (World σ γ))} {acc : Frame × Logs} {w : World σ γ},
        (∀ op ∈ l, op ∈ ops) → runOps env.logSet acc l w = .ok out w' → acc.1.index.Nodup →
        out.1.index.Nodup ∧ ∀ i ∈ out.1.index, i ∈ acc.1.index := by
      intro l
      induction l with
      | nil =>
        intro acc w _ h hn
        rw [runOps, Act.pure_eq_ok] at h
        rw [← h.1]
        exact ⟨hn, fun _ h => h⟩
      | cons op l ihl =>
        intro acc w hl h hn
        rw [runOps, Act.bind_eq_ok] at h
        obtain ⟨acc1, w1, h1, h⟩ := h
        obtain ⟨supp, h2, -⟩ := executeOperation_eq_ok h1
        obtain ⟨e1, e2⟩ := ih op (hl op (by simp)) h2 hn
        obtain ⟨e3, e4⟩ := ihl (fun o ho => hl o (by simp [ho])) h e1
        exact ⟨e3, fun i hi => e2 i (e4 i hi)⟩
    exact this (fun _ h => h) h hn

end Trumania
