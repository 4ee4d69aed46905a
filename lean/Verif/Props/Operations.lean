import Verif.Proofs.OpsRespect
import Verif.Props.Selection
import Verif.Spec.ExampleWorld

/-!
# Properties C28 (operation), C43, C44, C46 (operations and the rows of story data)
-/

namespace Trumania
open Spec World
variable {σ γ : Type} {env : Env σ γ}

/-! ### C43 -/

/-- **C43** whatever an `AddColumns` operation builds, if its output is indexed like the story data
and this index is unique, then rows, order, index and old cells are kept and the new cells are
appended by position. -/
theorem C43_rows_kept {W : Type} {how : JoinKind} {build : Frame → Act W Frame}
    {data added out : Frame} {logs : Logs} {w w' : W} (hn : data.index.Nodup)
    (hb : build data w = .ok added w') (hi : added.index = data.index)
    (h : Ops.addColumns how build data w = .ok (out, logs) w') :
    logs = [] ∧ out.index = data.index ∧ Appended data added out := by
  obtain ⟨o, h1, h2⟩ := addColumns_eq_ok.1 h
  rw [hb] at h1
  cases h1
  cases h2
  have hl : added.rows.length = data.rows.length := by
    rw [← Frame.index_length, ← Frame.index_length, hi]
  have hr := Frame.mergeIndex_same_rows (how := how) hi hn
  obtain ⟨h3, h4⟩ := Frame.zipWith_appended hl hr
  refine ⟨rfl, ?_, h3, hl, h4⟩
  cases how with
  | left => exact Frame.mergeIndex_left_index (by rw [hi]; exact hn)
  | inner =>
    rw [Frame.mergeIndex_inner_index (by rw [hi]; exact hn), hi]
    exact List.filter_eq_self.2 (by simp)

/-- the fields of `out`, when the added ones are new -/
theorem appended_fields {data added out : Frame} (hr : Rect data)
    (hc : out.cols = data.cols ++ added.cols) (h : Appended data added out) :
    (∀ name ∈ data.cols, cellsOf out name = cellsOf data name) ∧
    (∀ name, name ∉ data.cols → cellsOf out name = cellsOf added name) := by
  obtain ⟨h1, h2, h3⟩ := h
  constructor
  · intro name hname
    rw [Frame.cellsOf_eq, Frame.cellsOf_eq]
    refine List.ext_getElem (by simp [h1]) fun k hk1 hk2 => ?_
    rw [List.length_map] at hk1 hk2
    rw [List.getElem_map, List.getElem_map]
    obtain ⟨-, h5⟩ := h3 k _ _ _ (List.getElem?_eq_getElem hk2)
      (List.getElem?_eq_getElem (by omega)) (List.getElem?_eq_getElem hk1)
    exact Frame.cell_append_left hc (hr _ (List.getElem_mem _)) h5 hname
  · intro name hname
    rw [Frame.cellsOf_eq, Frame.cellsOf_eq]
    refine List.ext_getElem (by simp [h1, h2]) fun k hk1 hk2 => ?_
    rw [List.length_map] at hk1 hk2
    rw [List.getElem_map, List.getElem_map]
    obtain ⟨-, h5⟩ := h3 k _ _ _ (List.getElem?_eq_getElem (by omega))
      (List.getElem?_eq_getElem hk2) (List.getElem?_eq_getElem hk1)
    exact Frame.cell_append_right hc (hr _ (List.getElem_mem _)) h5 hname

/-- **C43** by field: if the added columns are new, every old field keeps its values and every new
one has the values built. -/
theorem C43_fields_kept {W : Type} {how : JoinKind} {build : Frame → Act W Frame}
    {data added out : Frame} {logs : Logs} {w w' : W} (hn : data.index.Nodup) (hr : Rect data)
    (hd : ∀ c ∈ data.cols, c ∉ added.cols)
    (hb : build data w = .ok added w') (hi : added.index = data.index)
    (h : Ops.addColumns how build data w = .ok (out, logs) w') :
    out.cols = data.cols ++ added.cols ∧
    (∀ name ∈ data.cols, cellsOf out name = cellsOf data name) ∧
    (∀ name ∈ added.cols, cellsOf out name = cellsOf added name) := by
  have happ := (C43_rows_kept hn hb hi h).2.2
  obtain ⟨o, h1, h2⟩ := addColumns_eq_ok.1 h
  rw [hb] at h1
  cases h1
  cases h2
  have hc := Frame.mergedCols_disjoint hd
  obtain ⟨h3, h4⟩ := appended_fields hr hc happ
  exact ⟨hc, h3, fun name hname => h4 name fun hl => hd name hl hname⟩

/-- cells of a one-column frame -/
theorem cellsOf_ofColumn {ids : List Val} {name : String} {values : List Cell} {f : Frame}
    (h : Frame.ofColumn ids name values = .ok f) : cellsOf f name = values := by
  obtain ⟨-, hc, hr, hl⟩ := Frame.ofColumn_ok h
  rw [Frame.cellsOf_eq, hr]
  refine List.ext_getElem (by simp [hl]) fun k hk1 hk2 => ?_
  rw [List.getElem_map, List.getElem_zipWith, Spec.cell, hc]
  simp

/-- **C43** for the built-in operations that add one column: the rows, their order, their index and
the old cells are kept, each row getting one more cell; if the column is new, the old fields keep
their values. -/
theorem C43_built_in {name : String} {op : Op (World σ γ)} (hop : ColumnAdder env name op)
    {data out : Frame} {logs : Logs} {w w' : World σ γ} (hn : data.index.Nodup)
    (h : op data w = .ok (out, logs) w') :
    logs = [] ∧ out.index = data.index ∧
    (∃ values : List Cell, values.length = data.rows.length ∧
      (∀ (k : Nat) (a r : Row) (v : Cell), data.rows[k]? = some a → out.rows[k]? = some r →
        values[k]? = some v → r.idx = a.idx ∧ r.cells = a.cells ++ [v]) ∧
      (Rect data → name ∉ data.cols → cellsOf out name = values)) ∧
    (Rect data → name ∉ data.cols → out.cols = data.cols ++ [name] ∧
      ∀ f ∈ data.cols, cellsOf out f = cellsOf data f) := by
  obtain ⟨added, values, h1, h2⟩ := columnAdder_spec hop h
  cases h2
  obtain ⟨e1, e2, e3, e4⟩ := Frame.ofColumn_ok h1
  have hlen : values.length = data.rows.length := by rw [e4, Frame.index_length]
  have hl : added.rows.length = data.rows.length := by
    rw [← Frame.index_length, ← Frame.index_length, e1]
  have hr := Frame.mergeIndex_same_rows (how := .left) e1 hn
  obtain ⟨h3, h4⟩ := Frame.zipWith_appended hl hr
  have hcols : name ∉ data.cols → (data.mergeIndex .left added).cols = data.cols ++ added.cols := by
    intro hname
    refine Frame.mergedCols_disjoint fun c hc hc' => ?_
    rw [e2, List.mem_singleton] at hc'
    exact hname (hc' ▸ hc)
  refine ⟨rfl, Frame.mergeIndex_left_index (by rw [e1]; exact hn), ⟨values, hlen, ?_, ?_⟩, ?_⟩
  · intro k a r v ha hr' hv
    have hb : added.rows[k]? = some ⟨a.idx, [v]⟩ := by
      rw [e3, List.getElem?_zipWith, hv]
      simp [Frame.index, ha]
    exact h4 k a _ r ha hb hr'
  · intro hrect hname
    rw [(appended_fields hrect (hcols hname) ⟨h3, hl, h4⟩).2 name hname, cellsOf_ofColumn h1]
  · intro hrect hname
    refine ⟨by rw [hcols hname, e2], (appended_fields hrect (hcols hname) ⟨h3, hl, h4⟩).1⟩

/-- **C43** `generate` adds, row by row, the values returned by one call of the generator asking one
value per row. -/
theorem C43_generate {g : GenRef} {name : String} {data out : Frame} {logs : Logs}
    {w w' : World σ γ} (hn : data.index.Nodup) (hr : Rect data) (hname : name ∉ data.cols)
    (h : Ops.randomValues env g name none data w = .ok (out, logs) w') :
    World.generate env g (data.rows.length : Rat) w = .ok (cellsOf out name) w' := by
  obtain ⟨o, h1, h2⟩ := addColumns_eq_ok.1 h
  obtain ⟨v, w1, h3, h4⟩ := Act.bind_eq_ok.1 h1
  obtain ⟨e4, rfl⟩ := Act.ofPy_eq_ok.1 h4
  have := C43_fields_kept (how := .left) (logs := logs) hn hr (added := o) (out := out)
    (fun c hc hc' => hname (by
      rw [(Frame.ofColumn_ok e4).2.1, List.mem_singleton] at hc'; exact hc' ▸ hc)) h1
    (Frame.ofColumn_ok e4).1 h
  rw [this.2.2 name (by rw [(Frame.ofColumn_ok e4).2.1]; simp), cellsOf_ofColumn e4]
  exact h3

/-- **C43** `generate(observed_field=...)` adds, row by row, the values returned by one call of the
dependent generator on the values of the observed field. -/
theorem C43_generate_from_field {g : GenRef} {name observed : String} {data out : Frame}
    {logs : Logs} {w w' : World σ γ} (hn : data.index.Nodup) (hr : Rect data)
    (hname : name ∉ data.cols)
    (h : Ops.randomValuesFromField env g name observed data w = .ok (out, logs) w') :
    World.observe env g (cellsOf data observed) w = .ok (cellsOf out name) w' := by
  obtain ⟨o, h1, h2⟩ := addColumns_eq_ok.1 h
  obtain ⟨obs, w1, h5, h6⟩ := Act.bind_eq_ok.1 h1
  obtain ⟨v, w2, h3, h4⟩ := Act.bind_eq_ok.1 h6
  obtain ⟨e5, rfl⟩ := Act.ofPy_eq_ok.1 h5
  obtain ⟨e4, rfl⟩ := Act.ofPy_eq_ok.1 h4
  have := C43_fields_kept (how := .left) (logs := logs) hn hr (added := o) (out := out)
    (fun c hc hc' => hname (by
      rw [(Frame.ofColumn_ok e4).2.1, List.mem_singleton] at hc'; exact hc' ▸ hc)) h1
    (Frame.ofColumn_ok e4).1 h
  rw [this.2.2 name (by rw [(Frame.ofColumn_ok e4).2.1]; simp), cellsOf_ofColumn e4]
  rw [Frame.cellsOf_eq, ← Frame.col_eq_map e5]
  exact h3

/-! ### C44 -/

/-- **C44** each built-in operation maps story data with a unique index to story data with a unique
index made of members that were there. -/
theorem C44_one_operation {F Z : Nat → Prop} {op : Op (World σ γ)} (hop : BuiltIn env F Z op)
    {data out : Frame} {logs : Logs} {w w' : World σ γ} (hn : data.index.Nodup)
    (h : op data w = .ok (out, logs) w') :
    out.index.Nodup ∧ ∀ i ∈ out.index, i ∈ data.index := builtIn_index hop h hn

/-- **C44** at each point of any sequence of built-in operations -/
theorem C44_at_each_point {F Z : Nat → Prop} {ops : List (Op (World σ γ))}
    (hops : ∀ op ∈ ops, BuiltIn env F Z op) {data out : Frame} {ls : List Logs}
    {w w' : World σ γ} (hn : data.index.Nodup) (h : Runs ops data w out ls w') :
    out.index.Nodup ∧ ∀ i ∈ out.index, i ∈ data.index := by
  induction h with
  | nil => exact ⟨hn, fun _ h => h⟩
  | cons h _ ih =>
    obtain ⟨h1, h2⟩ := C44_one_operation (hops _ (by simp)) hn h
    obtain ⟨h3, h4⟩ := ih (fun o ho => hops o (by simp [ho])) h1
    exact ⟨h3, fun i hi => h2 i (h4 i hi)⟩

/-- **C44** in the execution of a story of built-in operations, the story data after any number of
them has a unique index made of members that act in this execution. -/
theorem C44_in_execution {F Z : Nat → Prop} {pre post : List (Op (World σ γ))}
    (hops : ∀ op ∈ pre ++ post, BuiltIn env F Z op) {s : Story σ}
    (hids : (s.timer.map (·.id)).Nodup) {i : Nat} {w w' : World σ γ} {out : Frame} {ls : List Logs}
    (h : Runs pre ⟨[s.idField], actingRows s⟩ (started w i s) out ls w') :
    out.index.Nodup ∧ ∀ id ∈ out.index, Acts s id := by
  refine C44_at_each_point (fun o ho => hops o (by simp [ho])) ?_ h
  simp only [Frame.index, actingRows]
  have : ∀ l : List TimerRow, ((l.filterMap fun r =>
      if r.remaining = some 0 then some (⟨r.id, [.scalar r.id]⟩ : Row) else none).map
      (·.idx)).Sublist (l.map (·.id)) := by
    intro l
    induction l with
    | nil => simp
    | cons r l ih =>
      by_cases hr : r.remaining = some 0
      · simpa [hr] using ih
      · rw [List.filterMap_cons, if_neg hr, List.map_cons]
        exact ih.cons _
  exact hids.sublist (this _)

/-- **C44** every execution that ends and in which somebody acts runs its operations on such a story
data, whichever place `pre ++ post` one looks at. -/
theorem C44_of_execute {F Z : Nat → Prop} {pre post : List (Op (World σ γ))}
    (hops : ∀ op ∈ pre ++ post, BuiltIn env F Z op) {s : Story σ}
    (hids : (s.timer.map (·.id)).Nodup) {i : Nat} {w w' : World σ γ} {logs : Logs}
    (hs : w.stories[i]? = some s) (ha : ∃ id, Acts s id)
    (h : execute env (pre ++ post) i w = .ok logs w') :
    ∃ mid out ls ls' w1 w2, Runs pre ⟨[s.idField], actingRows s⟩ (started w i s) mid ls w1 ∧
      Runs post mid w1 out ls' w2 ∧ mid.index.Nodup ∧ ∀ id ∈ mid.index, Acts s id := by
  obtain ⟨s', w2, -, -, hs', ⟨s'', hs'', hchain⟩, -⟩ := execute_ok h
  rw [hs] at hs' hs''
  cases hs'
  cases hs''
  have hne : actingRows s ≠ [] := by
    obtain ⟨id, hid⟩ := ha
    intro h0
    simp [Acts, h0] at hid
  rcases hchain with ⟨h0, -⟩ | ⟨-, data, hc⟩
  · exact absurd h0 hne
  rcases runs_or_raises pre ⟨[s.idField], actingRows s⟩ (started w i s) with
    ⟨mid, ls, w1, h1⟩ | ⟨e, w1, h1⟩
  · rcases runs_or_raises post mid w1 with ⟨out, ls', w3, h2⟩ | ⟨e, w3, h2⟩
    · exact ⟨mid, out, ls, ls', w1, w3, h1, h2, C44_in_execution hops hids h1⟩
    · rw [chain, runOps_of_raises (Spec.Raises.append_right h1 h2)] at hc
      cases hc
  · rw [chain, runOps_of_raises (Spec.Raises.append_left h1)] at hc
    cases hc

/-- **C44** operations with side effects only do not change the rows -/
theorem C44_side_effects {F Z : Nat → Prop} {op : Op (World σ γ)} (hop : SideEffect env F Z op)
    {data out : Frame} {logs : Logs} {w w' : World σ γ} (h : op data w = .ok (out, logs) w') :
    out = data ∧ logs = [] := by
  have := sideEffect_spec hop h
  cases this
  exact ⟨rfl, rfl⟩

/-- **C44** loggers do not change the rows, nor the world -/
theorem C44_loggers {W : Type} {logId : String} {cols exploded : List String} {data out : Frame}
    {logs : Logs} {w w' : W} (h : Ops.fieldLogger logId cols exploded data w = .ok (out, logs) w') :
    out = data ∧ w' = w := by
  obtain ⟨_, w1, h1, h⟩ := Act.bind_eq_ok.1 h
  obtain ⟨-, rfl⟩ := Act.ofPy_eq_ok.1 h1
  obtain ⟨h2, rfl⟩ := Act.pure_eq_ok.1 h
  cases h2
  exact ⟨rfl, rfl⟩

/-- **C44** lookups do not change the rows: same members in the same order with their cells, to which
the looked up values are appended; they do not change the world either. -/
theorem C44_lookups {pop : Nat} {idField : String} {sel : Dict String String} {data out : Frame}
    {logs : Logs} {w w' : World σ γ} (hn : data.index.Nodup)
    (h : Ops.lookup pop idField sel data w = .ok (out, logs) w') :
    w' = w ∧ logs = [] ∧ out.index = data.index ∧ ∃ added, Appended data added out := by
  obtain ⟨o, h0, h1⟩ := addColumns_eq_ok.1 h
  obtain ⟨p, w1, h2, h3⟩ := Act.bind_eq_ok.1 h0
  obtain ⟨-, rfl⟩ := getPop_eq_ok.1 h2
  obtain ⟨h4, rfl⟩ := Act.ofPy_eq_ok.1 h3
  obtain ⟨e1, e2, e3⟩ := C43_rows_kept hn h0 (lookupOutput_index h4) h
  exact ⟨rfl, e1, e2, o, e3⟩

/-! ### C46 -/

/-- **C46** `DropRow` keeps exactly the rows whose condition is false, in order and unmodified; it
logs nothing and changes no object. -/
theorem C46_drop_row {W : Type} {field : String} {data out : Frame} {logs : Logs} {w w' : W}
    (h : Ops.dropRow field data w = .ok (out, logs) w') :
    w' = w ∧ logs = [] ∧ out.cols = data.cols ∧
    out.rows = data.rows.filter (fun r => decide (cell data r field = .bool false)) ∧
    ∀ r ∈ data.rows, ∃ b, cell data r field = .bool b := by
  obtain ⟨rfl, o, h1, h2⟩ := transform_eq_ok.1 h
  cases h2
  rw [Ops.dropRows] at h1
  obtain ⟨cells, h2, h3⟩ := bind_eq_ok.1 h1
  obtain ⟨conds, h4, h5⟩ := bind_eq_ok.1 h3
  cases h5
  have e2 := Frame.col_eq_map h2
  subst e2
  have e4 := mapM_ok_iff.1 h4
  rw [List.forall₂_map_left_iff] at e4
  clear h h1 h2 h3 h4
  refine ⟨rfl, rfl, rfl, ?_, ?_⟩
  · simp only [Frame.mask]
    generalize data.rows = rows at e4
    induction e4 with
    | nil => rfl
    | @cons r b rows conds hr _ ih =>
      rw [List.map_cons, List.zip_cons_cons]
      have hb : cell data r field = .bool b := by
        cases hc : cell data r field with
        | list vs => rw [hc] at hr; cases hr
        | scalar v =>
          rw [hc] at hr
          cases v <;> cases hr
          rfl
      cases b
      · rw [List.filter_cons_of_pos (by simp), List.filter_cons_of_pos (by simp [hb]),
          List.map_cons, ih]
      · rw [List.filter_cons_of_neg (by simp), List.filter_cons_of_neg (by simp [hb]), ih]
  · intro r hr
    obtain ⟨b, -, hb⟩ := forall₂_exists_right e4 hr
    refine ⟨b, ?_⟩
    cases hc : cell data r field with
    | list vs => rw [hc] at hb; cases hb
    | scalar v =>
      rw [hc] at hb
      cases v <;> cases hb
      rfl

/-- **C46** `DropRow` does not raise if its field is a column of booleans -/
theorem C46_total {W : Type} {field : String} {data : Frame} (w : W) (hr : Rect data)
    (hn : data.cols.Nodup) (hf : field ∈ data.cols)
    (hb : ∀ r ∈ data.rows, ∃ b, cell data r field = .bool b) :
    ∃ out, Ops.dropRow field data w = .ok (out, []) w := by
  have h1 := Frame.col_total hr hn hf
  have h2 : ∃ conds, (data.rows.map (cell data · field)).mapM Cell.asBool = Except.ok conds := by
    clear h1
    generalize data.rows = rows at hb
    induction rows with
    | nil => exact ⟨[], rfl⟩
    | cons r rows ih =>
      obtain ⟨b, hbr⟩ := hb r (by simp)
      obtain ⟨cs, hcs⟩ := ih fun r hr => hb r (by simp [hr])
      exact ⟨b :: cs, by rw [List.map_cons, List.mapM_cons, hbr, hcs]; rfl⟩
  obtain ⟨conds, h2⟩ := h2
  exact ⟨_, transform_eq_ok.2 ⟨rfl, _, bind_eq_ok.2 ⟨_, h1, bind_eq_ok.2 ⟨_, h2, rfl⟩⟩, rfl⟩⟩

/-! ### C28 -/

/-- grouping a list by key rearranges it -/
theorem group_perm {α : Type} (zs : List (α × Val)) {fs : List Val} (hn : fs.Nodup) :
    (fs.flatMap fun f => zs.filter (fun x => decide (x.2 = f))).Perm
      (zs.filter fun x => decide (x.2 ∈ fs)) := by
  induction fs with
  | nil => simp
  | cons a fs ih =>
    rw [List.nodup_cons] at hn
    rw [List.flatMap_cons]
    refine (List.Perm.append_left _ (ih hn.2)).trans ?_
    have h := List.filter_append_perm (fun x : α × Val => decide (x.2 = a))
      (zs.filter fun x => decide (x.2 ∈ a :: fs))
    refine List.Perm.trans (List.Perm.of_eq ?_) h
    rw [List.filter_filter, List.filter_filter]
    congr 1
    · apply List.filter_congr
      intro x _
      by_cases hx : x.2 = a <;> simp [hx]
    · apply List.filter_congr
      intro x _
      by_cases hx : x.2 = a
      · simp [hx, hn.1]
      · simp [hx]

/-- **C28** the `select_all` operation joins the list of all the tos on every row whose from has
relations, and drops the other rows; pandas groups the rows by from. -/
theorem C28_select_all_operation {rel : Nat} {fromField name : String} {data out : Frame}
    {logs : Logs} {w w' : World σ γ}
    (h : Ops.selectAll env rel fromField name data w = .ok (out, logs) w') (env' : Orders) :
    w' = w ∧ logs = [] ∧ (name ∉ data.cols → out.cols = data.cols ++ [name]) ∧
    (name ∈ data.cols → out.cols =
      data.cols.map (fun c => if c = name then c ++ "_x" else c) ++ [name ++ "_y"]) ∧
    ∃ r, w.rels[rel]? = some r ∧ ∃ tos : Val → List Val,
      (∀ f, (tos f).Perm (Spec.tosOf (r.get_relations env') f)) ∧
      out.rows.Perm ((data.rows.filter fun x => decide (tos (idIn (cell data x fromField)) ≠ [])).map
        fun x => ⟨x.idx, x.cells ++ [.list (tos (idIn (cell data x fromField)))]⟩) := by
  obtain ⟨froms, r, h1, h2, h3, h4⟩ := selectAll_eq_ok h
  cases h4
  subst h3
  refine ⟨rfl, rfl, fun hn => ?_, fun hn => ?_, r, h2, ?_⟩
  · simp only [Ops.mergeLists]
    rw [Frame.mergedCols_disjoint (by rintro c hc hc'; simp at hc'; exact hn (hc' ▸ hc))]
  · simp [Ops.mergeLists, Frame.mergedCols, hn]
  obtain ⟨e1, e2, e3⟩ := C28_select_all_horizontal r env.orders env' (uniq froms)
  generalize r.select_all_horizontal env.orders (uniq froms) = sel at e1 e2 e3
  have hfroms : froms = data.rows.map fun x => idIn (cell data x fromField) := by
    rw [Ops.idColumn] at h1
    obtain ⟨cs, h5, h6⟩ := bind_eq_ok.1 h1
    have h5 := Frame.col_eq_map h5
    subst h5
    have h6 := mapM_ok_iff.1 h6
    rw [List.forall₂_map_left_iff] at h6
    clear * - h6
    generalize data.rows = rows at h6
    induction h6 with
    | nil => rfl
    | @cons x v rows vs hx _ ih =>
      rw [List.map_cons, ← ih]
      congr 1
      cases hc : cell data x fromField with
      | list _ => rw [hc] at hx; cases hx
      | scalar u => rw [hc] at hx; cases hx; rfl
  have hnone : ∀ f ∈ froms, Dict.get? sel f = none → Spec.tosOf (r.get_relations env') f = [] := by
    intro f hf hg
    rw [Dict.get?_eq_none_iff] at hg
    rw [Spec.tosOf, List.map_eq_nil_iff, List.filter_eq_nil_iff]
    intro x hx hxf
    simp only [decide_eq_true_eq] at hxf
    apply hg
    exact (e2 f).2 ⟨mem_uniq.2 hf, x.2.1, x.2.2, by rw [← hxf]; exact hx⟩
  have hsome : ∀ f t, Dict.get? sel f = some t →
      t.Perm (Spec.tosOf (r.get_relations env') f) ∧ t ≠ [] := by
    intro f t hg
    have hm := Dict.get?_mem hg
    have hp := e3 _ hm
    refine ⟨hp, fun h0 => ?_⟩
    subst h0
    obtain ⟨-, to_, wt, hc⟩ := (e2 f).1 (List.mem_map.2 ⟨_, hm, rfl⟩)
    have h7 : Spec.tosOf (r.get_relations env') f = [] := hp.symm.eq_nil
    have h8 : to_ ∈ Spec.tosOf (r.get_relations env') f :=
      List.mem_map.2 ⟨(f, to_, wt), List.mem_filter.2 ⟨hc, by simp⟩, rfl⟩
    rw [h7] at h8
    cases h8
  refine ⟨fun f => (Dict.get? sel f).getD (Spec.tosOf (r.get_relations env') f), ?_, ?_⟩
  · intro f
    cases hg : Dict.get? sel f with
    | none => simp [hg]
    | some t => simpa [hg] using (hsome f t hg).1
  · -- the rows of one from, as a filterMap
    let join : Row × Val → Option Row := fun x =>
      (Dict.get? sel x.2).map fun tos => ⟨x.1.idx, x.1.cells ++ [.list tos]⟩
    have hrow : ∀ f, listRows data.rows froms sel f =
        ((data.rows.zip froms).filter (fun x => decide (x.2 = f))).filterMap join := by
      intro f
      rw [listRows]
      have : ∀ l : List (Row × Val), (∀ x ∈ l, x.2 = f) → l.filterMap join =
          match Dict.get? sel f with
          | none => []
          | some tos => l.map fun x => ⟨x.1.idx, x.1.cells ++ [.list tos]⟩ := by
        intro l
        induction l with
        | nil => intro _; cases Dict.get? sel f <;> rfl
        | cons x l ih =>
          intro hl
          rw [List.filterMap_cons, ih fun y hy => hl y (by simp [hy])]
          simp only [join, hl x (by simp)]
          cases Dict.get? sel f <;> rfl
      rw [this _ fun x hx => by simpa using (List.mem_filter.1 hx).2]
      cases Dict.get? sel f <;> rfl
    have hout : (Ops.mergeLists data froms name sel).rows =
        ((uniq froms).flatMap fun f =>
          (data.rows.zip froms).filter (fun x => decide (x.2 = f))).filterMap join := by
      rw [List.filterMap_flatMap]
      simp only [← hrow]
      rfl
    rw [hout]
    refine ((group_perm (data.rows.zip froms) (uniq_nodup froms)).filterMap join).trans
      (List.Perm.of_eq ?_)
    have hall : (data.rows.zip froms).filter (fun x => decide (x.2 ∈ uniq froms)) =
        data.rows.zip froms := by
      rw [List.filter_eq_self]
      intro x hx
      simpa [mem_uniq] using (List.of_mem_zip hx).2
    rw [hall]
    have hz : data.rows.zip froms = data.rows.map fun x => (x, idIn (cell data x fromField)) := by
      rw [hfroms]
      clear * -
      generalize data.rows = rows
      induction rows with
      | nil => rfl
      | cons x rows ih => simp [ih]
    rw [hz, List.filterMap_map]
    have hmem : ∀ x ∈ data.rows, idIn (cell data x fromField) ∈ froms := fun x hx => by
      rw [hfroms]; exact List.mem_map.2 ⟨x, hx, rfl⟩
    clear hout hall hz hfroms h1 h
    generalize data.rows = rows at hmem
    induction rows with
    | nil => rfl
    | cons x rows ih =>
      have hi := ih fun y hy => hmem y (by simp [hy])
      rw [List.filterMap_cons]
      simp only [Function.comp_apply, join]
      cases hg : Dict.get? sel (idIn (cell data x fromField)) with
      | none =>
        have h0 := hnone _ (hmem x (by simp)) hg
        rw [List.filter_cons_of_neg (by simp [hg, h0])]
        exact hi
      | some t =>
        have h0 := (hsome _ _ hg).2
        rw [List.filter_cons_of_pos (by simp [hg, h0]), List.map_cons]
        simp only [hg, Option.map_some, Option.getD_some]
        exact congrArg _ hi

/-! ### Non-vacuity -/

/-- two callers and their friends -/
def exCalls : Frame := ⟨["CALLER", "FRIEND", "SHORT"],
  [⟨.str "a", [.str "a", .str "y", .bool true]⟩, ⟨.str "b", [.str "b", .str "x", .bool false]⟩,
   ⟨.str "c", [.str "c", .str "y", .bool false]⟩, ⟨.str "d", [.str "d", .str "z", .bool true]⟩]⟩

def exRels : World Nat (AnyGen Nat) := { exWorld with
  rels := [⟨7, 5, [(.str "x", ⟨[.str "1"], [1]⟩), (.str "y", ⟨[.str "2", .str "2"], [1, 3]⟩)]⟩] }

example : exCalls.index.Nodup ∧ Rect exCalls ∧ exCalls.cols.Nodup := by
  refine ⟨by decide +kernel, ?_, by decide +kernel⟩
  unfold Rect
  decide +kernel

example : ((Ops.randomValues exEnv (.ref 0) "ID" none exCalls).value? exRels).map
      (fun x => cellsOf x.1 "ID") =
    some [.str "id_000", .str "id_001", .str "id_002", .str "id_003"] := by decide +kernel

example : ((Ops.dropRow "SHORT" exCalls).value? exRels).map (·.1.index) =
    some [.str "b", .str "c"] := by decide +kernel

/-- the rows come out grouped by from, the row of "d" is dropped -/
example : ((Ops.selectAll exEnv 0 "FRIEND" "NUMS" exCalls).value? exRels).map
      (fun x => (x.1.index, cellsOf x.1 "NUMS")) =
    some ([.str "a", .str "c", .str "b"],
      [.list [.str "2", .str "2"], .list [.str "2", .str "2"], .list [.str "1"]]) := by
  decide +kernel

/-- a chain of built-in operations on which C44 says something -/
example : BuiltIn exEnv (fun _ => True) (fun _ => True) (World.chain exEnv.logSet
    [Ops.randomValues exEnv (.ref 0) "ID" none, Ops.dropRow "SHORT",
     Ops.selectOne exEnv 0 "FRIEND" "NUM" true true true none,
     Ops.forceActNext 1 "CALLER" none]) := by
  refine .chain _ fun op hop => ?_
  simp only [List.mem_cons, List.not_mem_nil, or_false] at hop
  rcases hop with rfl | rfl | rfl | rfl
  · exact .adder (.randomValues _ _)
  · exact .dropRow _
  · exact .selectOne _ _ _ _ _ _ _
  · exact .effect (.forceActNext _ _ _ trivial)

example : ((World.chain exEnv.logSet
    [Ops.randomValues exEnv (.ref 0) "ID" none, Ops.dropRow "SHORT",
     Ops.selectOne exEnv 0 "FRIEND" "NUM" true true true none,
     Ops.forceActNext 1 "CALLER" none] exCalls).value? exRels).map (·.1.index) =
    some [.str "b", .str "c"] := by decide +kernel

end Trumania
