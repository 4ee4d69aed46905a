import Verif.Props.Columns
import Verif.Props.Lookup
import Verif.Props.SelectOps
import Verif.Proofs.Fields

/-! Helper lemmas: the rows of a frame seen as records, found by their label. -/

namespace Trumania
open Spec World
variable {σ γ : Type} {env : Env σ γ}

/-- the cell of the row with the label `i` -/
def valueAt (f : Frame) (i : Val) (name : String) : Cell :=
  match f.rows.find? (fun r => decide (r.idx = i)) with
  | some r => cell f r name
  | none => .na

/-- `out` has some of the records of `data`, each with the fields `new` on top -/
structure Grows (new : List String) (data out : Frame) : Prop where
  cols : out.cols = data.cols ++ new
  rect : Rect out
  nodup : out.index.Nodup
  labels : ∀ i ∈ out.index, i ∈ data.index
  kept : ∀ i ∈ out.index, ∀ c ∈ data.cols, valueAt out i c = valueAt data i c

theorem mem_index {f : Frame} {i : Val} : i ∈ f.index ↔ ∃ r ∈ f.rows, r.idx = i := by
  simp [Frame.index]

theorem valueAt_row {f : Frame} (hn : f.index.Nodup) {r : Row} (hr : r ∈ f.rows) (c : String) :
    valueAt f r.idx c = cell f r c := by
  rw [valueAt]
  cases hf : f.rows.find? (fun x => decide (x.idx = r.idx)) with
  | none => simpa using List.find?_eq_none.1 hf r hr
  | some x =>
    have h1 := List.mem_of_find?_eq_some hf
    have h2 : x.idx = r.idx := by simpa using List.find?_some hf
    obtain rfl : x = r := List.inj_on_of_nodup_map hn h1 hr h2
    rfl

theorem Grows.refl {data : Frame} (hr : Rect data) (hn : data.index.Nodup) : Grows [] data data :=
  ⟨by simp, hr, hn, fun _ h => h, fun _ _ _ _ => rfl⟩

theorem Grows.trans {a b : List String} {d e f : Frame} (h : Grows a d e) (h' : Grows b e f) :
    Grows (a ++ b) d f := by
  refine ⟨by rw [h'.cols, h.cols, List.append_assoc], h'.rect, h'.nodup, fun i hi => h.labels i (h'.labels i hi),
    fun i hi c hc => ?_⟩
  rw [h'.kept i hi c (by rw [h.cols]; simp [hc]), h.kept i (h'.labels i hi) c hc]

theorem Grows.of_rows {new : List String} {data out : Frame} (hr : Rect data) (hn : data.index.Nodup)
    (cols : out.cols = data.cols ++ new) (hnd : out.index.Nodup)
    (rows : ∀ y ∈ out.rows, ∃ x ∈ data.rows, y.idx = x.idx ∧
      ∃ b : List Cell, b.length = new.length ∧ y.cells = x.cells ++ b) : Grows new data out := by
  refine ⟨cols, fun y hy => ?_, hnd, fun i hi => ?_, fun i hi c hc => ?_⟩
  · obtain ⟨x, hx, -, b, hb, e⟩ := rows y hy
    rw [e, cols, List.length_append, List.length_append, hr x hx, hb]
  · obtain ⟨y, hy, rfl⟩ := mem_index.1 hi
    obtain ⟨x, hx, e, -⟩ := rows y hy
    exact mem_index.2 ⟨x, hx, e.symm⟩
  · obtain ⟨y, hy, rfl⟩ := mem_index.1 hi
    obtain ⟨x, hx, e, b, -, e'⟩ := rows y hy
    rw [valueAt_row hnd hy, e, valueAt_row hn hx]
    exact Frame.cell_append_left cols (hr x hx) e' hc

theorem mergeIndex_appends {how : JoinKind} {l r : Frame} (hr : Rect r) :
    ∀ y ∈ (l.mergeIndex how r).rows, ∃ x ∈ l.rows, y.idx = x.idx ∧
      ∃ b : List Cell, b.length = r.cols.length ∧ y.cells = x.cells ++ b := by
  intro r' h'
  simp only [Frame.mergeIndex, List.mem_flatMap] at h'
  obtain ⟨a, ha, h'⟩ := h'
  refine ⟨a, ha, ?_⟩
  split at h'
  · cases how with
    | left =>
      simp only [List.mem_singleton] at h'
      subst h'
      exact ⟨rfl, _, by simp, rfl⟩
    | inner => simp at h'
  · rw [List.mem_map] at h'
    obtain ⟨b, hb, rfl⟩ := h'
    rename_i ms hms
    have hb' : b ∈ r.rows.filter (fun b => decide (b.idx = a.idx)) := hb
    exact ⟨rfl, b.cells, hr b (List.mem_of_mem_filter hb'), rfl⟩

theorem Grows.of_merge {how : JoinKind} {data added : Frame} (hr : Rect data) (hn : data.index.Nodup)
    (hra : Rect added) (hna : added.index.Nodup) (hd : ∀ c ∈ data.cols, c ∉ added.cols) :
    Grows added.cols data (data.mergeIndex how added) :=
  .of_rows hr hn (Frame.mergedCols_disjoint hd) ((Frame.mergeIndex_index_sublist hna).nodup hn)
    (mergeIndex_appends hra)

/-- a column that is added, by label -/
theorem valueAt_added {name : String} {values : List Cell} {data out : Frame} (hn : data.index.Nodup)
    (h : AddsColumn name values data out) {k : Nat} {x : Row} {v : Cell} (hx : data.rows[k]? = some x)
    (hv : values[k]? = some v) : valueAt out x.idx name = v := by
  have hk : data.index[k]? = some x.idx := by rw [Frame.index, List.getElem?_map, hx]; rfl
  rw [← h.index, Frame.index, List.getElem?_map] at hk
  cases hy : out.rows[k]? with
  | none => rw [hy] at hk; cases hk
  | some y =>
    rw [hy] at hk
    have hid : y.idx = x.idx := Option.some.inj hk
    rw [← hid, valueAt_row (h.index ▸ hn) (List.mem_of_getElem? hy)]
    have hc := h.added
    rw [Frame.cellsOf_eq] at hc
    rw [← hc, List.getElem?_map, hy] at hv
    exact Option.some.inj hv

/-- one column, computed row by row -/
theorem valueAt_forall {name : String} {values : List Cell} {data out : Frame} (hn : data.index.Nodup)
    (h : AddsColumn name values data out) {P : Row → Cell → Prop} (hf : List.Forall₂ P data.rows values) :
    ∀ x ∈ data.rows, P x (valueAt out x.idx name) := by
  intro x hx
  obtain ⟨k, hk⟩ := List.mem_iff_getElem?.1 hx
  have hlt : k < data.rows.length := (List.getElem?_eq_some_iff.1 hk).1
  have hlt' : k < values.length := hf.length_eq ▸ hlt
  have hv : values[k]? = some values[k] := List.getElem?_eq_getElem hlt'
  rw [valueAt_added hn h hk hv]
  have := (List.forall₂_iff_get.1 hf).2 k hlt hlt'
  rw [List.get_eq_getElem, List.get_eq_getElem, (List.getElem?_eq_some_iff.1 hk).2] at this
  exact this

/-! ### The operations -/

theorem grows_adder {name : String} {op : Op (World σ γ)} (hop : ColumnAdder env name op) {data out : Frame}
    {logs : Logs} {w w' : World σ γ} (hr : Rect data) (hn : data.index.Nodup) (hname : name ∉ data.cols)
    (h : op data w = .ok (out, logs) w') : logs = [] ∧ Grows [name] data out ∧ out.index = data.index := by
  obtain ⟨added, values, h1, h2⟩ := columnAdder_spec hop h
  cases h2
  obtain ⟨e1, e2, -, -⟩ := Frame.ofColumn_ok h1
  have := Grows.of_merge (how := .left) (added := added) hr hn (ofColumn_rect h1) (by rw [e1]; exact hn)
    (by rw [e2]; intro c hc hc'; rw [List.mem_singleton] at hc'; exact hname (hc' ▸ hc))
  rw [e2] at this
  exact ⟨rfl, this, Frame.mergeIndex_left_index (by rw [e1]; exact hn)⟩

theorem grows_series (env : Env σ γ) {sources : List String} {name : String} {f : List (List Cell) → Py (List Cell)}
    {data out : Frame} {logs : Logs} {w w' : World σ γ} (hr : Rect data) (hn : data.index.Nodup)
    (hname : name ∉ data.cols) (h : Ops.applySeries sources name f data w = .ok (out, logs) w') :
    w' = w ∧ logs = [] ∧ Grows [name] data out ∧ out.index = data.index ∧
      ∃ values, f (sources.map (cellsOf data)) = .ok values ∧ AddsColumn name values data out := by
  obtain ⟨rfl, rfl, values, h1, h2⟩ := C91_apply_series hn hr hname h
  obtain ⟨-, g, e⟩ := grows_adder (env := env) (.applySeries sources f) hr hn hname h
  exact ⟨rfl, rfl, g, e, values, h1, h2⟩

theorem getElem?_index {f : Frame} {k : Nat} {x : Row} (h : f.rows[k]? = some x) : f.index[k]? = some x.idx := by
  rw [Frame.index, List.getElem?_map, h]
  rfl

theorem getElem?_of_index {f : Frame} {k : Nat} {i : Val} (h : f.index[k]? = some i) :
    ∃ x, f.rows[k]? = some x ∧ x.idx = i := by
  rw [Frame.index, List.getElem?_map] at h
  cases hx : f.rows[k]? with
  | none => rw [hx] at h; cases h
  | some x => rw [hx] at h; exact ⟨x, rfl, Option.some.inj h⟩

theorem grows_lookup {pop : Nat} {idField : String} {sel : Dict String String} {data out : Frame}
    {logs : Logs} {w w' : World σ γ} {p : Population} (hp : w.pops[pop]? = some p)
    (hwf : Population.WF p) (hr : Rect data) (hn : data.index.Nodup)
    (hsel : (sel.map Prod.snd).Nodup) (hnew : ∀ s ∈ sel, s.2 ∉ data.cols)
    (h : Ops.lookup pop idField sel data w = .ok (out, logs) w') :
    w' = w ∧ logs = [] ∧ Grows (sel.map Prod.snd) data out ∧ out.index = data.index ∧
    ∀ i ∈ out.index, ∀ s ∈ sel,
      ∃ a, attributeOf p s.1 a ∧ LooksUp a (valueAt data i idField) (valueAt out i s.2) := by
  obtain ⟨rfl, rfl, e1, e2, e3, e4⟩ := C56_lookup hp hwf hn hr hsel hnew h
  have hnd : out.index.Nodup := e1 ▸ hn
  obtain ⟨o, h0, h1⟩ := addColumns_eq_ok.1 h
  cases h1
  obtain ⟨p', w1, h2, h3⟩ := Act.bind_eq_ok.1 h0
  obtain ⟨e5, rfl⟩ := getPop_eq_ok.1 h2
  obtain ⟨e6, -⟩ := Act.ofPy_eq_ok.1 h3
  obtain rfl : p' = p := Option.some.inj (e5.symm.trans hp)
  obtain ⟨hc, -⟩ := lookupOutput_cells hwf hsel e6
  have hidx := lookupOutput_index e6
  refine ⟨rfl, rfl, ?_, e1, fun i hi s hs => ?_⟩
  · have := Grows.of_merge (how := .left) (added := o) hr hn (lookupOutput_cols hsel e6).1
      (by rw [hidx]; exact hn) (by
        intro c hc1 hc2
        rw [hc] at hc2
        obtain ⟨s, hs, rfl⟩ := List.mem_map.1 hc2
        exact hnew s hs hc1)
    rwa [hc] at this
  · obtain ⟨y, hy, rfl⟩ := mem_index.1 hi
    obtain ⟨k, hk⟩ := List.mem_iff_getElem?.1 hy
    obtain ⟨x, hx, hxi⟩ := getElem?_of_index (f := data) (e1 ▸ getElem?_index hk)
    obtain ⟨a, ha, hl⟩ := e4 k x y hx hk s hs
    refine ⟨a, ha, ?_⟩
    rw [valueAt_row hnd hy, ← hxi, valueAt_row hn (List.mem_of_getElem? hx)]
    exact hl

/-- a frame computed by a user function that gives one row per row, with the same labels -/
theorem grows_frame {sources namedAs : List String} {f : Frame → Py Frame} {data out : Frame}
    {logs : Logs} {w w' : World σ γ} (hr : Rect data) (hn : data.index.Nodup)
    (hnew : ∀ c ∈ data.cols, c ∉ namedAs)
    (hf : ∀ d r, f d = .ok r → r.index = d.index ∧ Rect r ∧ r.cols.Nodup ∧ namedAs.length = r.cols.length)
    (h : Ops.applyFrame sources namedAs f data w = .ok (out, logs) w') :
    w' = w ∧ logs = [] ∧ Grows namedAs data out ∧ out.index = data.index ∧
    ∃ result, f ⟨sources, data.rows.map fun r => ⟨r.idx, sources.map (cell data r)⟩⟩ = .ok result ∧
      ∀ (k : Nat) x y, data.rows[k]? = some x → result.rows[k]? = some y → ∀ c ∈ namedAs,
        valueAt out x.idx c = cell ⟨namedAs, result.rows⟩ y c := by
  obtain ⟨rfl, rfl, result, h1, h2⟩ := C91_apply_frame hn hr hnew h
  obtain ⟨k1, k2, k3, k4⟩ := hf _ _ h1
  have hidx : result.index = data.index := by
    rw [k1, Frame.index, Frame.index, List.map_map]
    rfl
  obtain ⟨e1, e2, e3, e4⟩ := h2 hidx k3 k4
  have hnd : out.index.Nodup := e1 ▸ hn
  have hlen : out.rows.length = data.rows.length := by rw [← Frame.index_length, ← Frame.index_length, e1]
  have hlen' : result.rows.length = data.rows.length := by rw [← Frame.index_length, ← Frame.index_length, hidx]
  have key : ∀ (k : Nat) x y z, data.rows[k]? = some x → result.rows[k]? = some y → out.rows[k]? = some z →
      z.idx = x.idx ∧ z.cells = x.cells ++ y.cells := by
    intro k x y z hx hy hz
    exact e3.2.2 k x y z hx hy hz
  refine ⟨rfl, rfl, .of_rows hr hn e2 hnd fun z hz => ?_, e1, result, h1, fun k x y hx hy c hc => ?_⟩
  · obtain ⟨k, hk⟩ := List.mem_iff_getElem?.1 hz
    have hlt := (List.getElem?_eq_some_iff.1 hk).1
    have hx := List.getElem?_eq_getElem (l := data.rows) (i := k) (by omega)
    have hy := List.getElem?_eq_getElem (l := result.rows) (i := k) (by omega)
    obtain ⟨e5, e6⟩ := key k _ _ _ hx hy hk
    exact ⟨_, List.mem_of_getElem? hx, e5, _, by rw [k2 _ (List.mem_of_getElem? hy), k4], e6⟩
  · have hlt := (List.getElem?_eq_some_iff.1 hx).1
    have hz := List.getElem?_eq_getElem (l := out.rows) (i := k) (by omega)
    obtain ⟨e5, e6⟩ := key k _ _ _ hx hy hz
    rw [← e5, valueAt_row hnd (List.mem_of_getElem? hz)]
    exact Frame.cell_append_right (g := ⟨namedAs, result.rows⟩) e2 (hr x (List.mem_of_getElem? hx)) e6
      fun hc' => hnew c hc' hc

/-- a selection of one related member: the records that get one, or get none without being dropped -/
theorem grows_selectOne {rel : Nat} {fromField name : String} {o2o pop discard : Bool}
    {weight : Option (Dict Val Rat)} {data out : Frame} {logs : Logs} {w w' : World σ γ}
    (hr : Rect data) (hn : data.index.Nodup) (hname : name ∉ data.cols) {r : Relationship σ}
    (hrel : w.rels[rel]? = some r) (hreach : Relationship.Reachable env.R r) (o : Orders)
    (h : Ops.selectOne env rel fromField name o2o pop discard weight data w = .ok (out, logs) w') :
    logs = [] ∧ Grows [name] data out ∧ w'.pops = w.pops ∧
    (∀ i ∈ out.index, ∃ t, valueAt out i name = .scalar t ∧
      ((∃ wt, (idIn (valueAt data i fromField), t, wt) ∈ r.get_relations o) ∨
        (t = .na ∧ ¬ Has (r.get_relations o) (idIn (valueAt data i fromField))))) ∧
    (o2o = true → ∀ i ∈ out.index, ∀ j ∈ out.index, ∀ t, t ≠ .na → valueAt out i name = .scalar t →
      valueAt out j name = .scalar t → i = j) := by
  obtain ⟨rfl, hcols, r', chosen, rfl, -, hrows, h1, h2, -, h3, -, -⟩ := C92_select_one hn hrel hreach o h
  have hcols := hcols hname
  have hmem : ∀ y ∈ out.rows, ∃ x ∈ data.rows, ∃ t, chosen x = some t ∧
      y = ⟨x.idx, x.cells ++ [.scalar (t.getD .na)]⟩ := by
    intro y hy
    rw [hrows, List.mem_filterMap] at hy
    obtain ⟨x, hx, hy⟩ := hy
    cases hc : chosen x with
    | none => rw [hc] at hy; cases hy
    | some t => rw [hc] at hy; cases hy; exact ⟨x, hx, t, hc, rfl⟩
  have hnd : out.index.Nodup := by
    have : out.index.Sublist data.index := by
      rw [Frame.index, Frame.index, hrows]
      clear * -
      induction data.rows with
      | nil => exact .slnil
      | cons x l ih =>
        rw [List.filterMap_cons]
        cases hc : chosen x with
        | none => exact ih.cons _
        | some t => exact ih.cons_cons _
    exact this.nodup hn
  have hg : Grows [name] data out := .of_rows hr hn hcols hnd fun y hy => by
    obtain ⟨x, hx, t, -, rfl⟩ := hmem y hy
    exact ⟨x, hx, rfl, _, rfl, rfl⟩
  have hval : ∀ y ∈ out.rows, ∃ x ∈ data.rows, ∃ t, chosen x = some t ∧ y.idx = x.idx ∧
      valueAt out y.idx name = .scalar (t.getD .na) := by
    intro y hy
    obtain ⟨x, hx, t, hc, e⟩ := hmem y hy
    refine ⟨x, hx, t, hc, by rw [e], ?_⟩
    rw [valueAt_row hnd hy]
    rw [Frame.cell_append_right (f := data) (g := ⟨[name], []⟩) (a := x)
      (b := ⟨x.idx, [.scalar (t.getD .na)]⟩) hcols (hr x hx) (by rw [e]) hname]
    simp [cell]
  refine ⟨rfl, hg, rfl, fun i hi => ?_, fun ho i hi j hj t ht h4 h5 => ?_⟩
  · obtain ⟨y, hy, rfl⟩ := mem_index.1 hi
    obtain ⟨x, hx, t, hc, e1, e2⟩ := hval y hy
    refine ⟨_, e2, ?_⟩
    rw [e1, valueAt_row hn hx]
    cases t with
    | none => exact .inr ⟨rfl, (h2 x hx hc).2⟩
    | some t => exact .inl (h1 x hx t hc)
  · obtain ⟨y, hy, rfl⟩ := mem_index.1 hi
    obtain ⟨z, hz, rfl⟩ := mem_index.1 hj
    obtain ⟨x, hx, u, hc, e1, e2⟩ := hval y hy
    obtain ⟨x', hx', u', hc', e1', e2'⟩ := hval z hz
    rw [e2] at h4
    rw [e2'] at h5
    cases u with
    | none => exact absurd (by injection h4 with h4; exact h4.symm) ht
    | some u =>
      cases u' with
      | none => exact absurd (by injection h5 with h5; exact h5.symm) ht
      | some u' =>
        injection h4 with h4
        injection h5 with h5
        have h4 : u = t := h4
        have h5 : u' = t := h5
        subst h4 h5
        rw [e1, e1', h3 ho x hx x' hx' _ hc hc']

/-- the list of all the related members: the records whose member has some -/
theorem grows_selectAll {rel : Nat} {fromField name : String} {data out : Frame}
    {logs : Logs} {w w' : World σ γ} (hr : Rect data) (hn : data.index.Nodup) (hname : name ∉ data.cols)
    (o : Orders) (h : Ops.selectAll env rel fromField name data w = .ok (out, logs) w') :
    w' = w ∧ logs = [] ∧ Grows [name] data out ∧ ∃ r, w.rels[rel]? = some r ∧
    ∀ i ∈ out.index, ∃ l, valueAt out i name = .list l ∧ l ≠ [] ∧
      l.Perm (tosOf (r.get_relations o) (idIn (valueAt data i fromField))) := by
  obtain ⟨rfl, rfl, hcols, -, r, hrel, tos, h1, h2⟩ := C28_select_all_operation h o
  have hcols := hcols hname
  have hmem : ∀ y ∈ out.rows, ∃ x ∈ data.rows, tos (idIn (cell data x fromField)) ≠ [] ∧
      y = ⟨x.idx, x.cells ++ [.list (tos (idIn (cell data x fromField)))]⟩ := by
    intro y hy
    obtain ⟨x, hx, rfl⟩ := List.mem_map.1 (h2.mem_iff.1 hy)
    rw [List.mem_filter] at hx
    exact ⟨x, hx.1, by simpa using hx.2, rfl⟩
  have hnd : out.index.Nodup := by
    have := (h2.map (·.idx)).nodup_iff.2 (by
      rw [List.map_map]
      exact ((List.filter_sublist (l := data.rows)).map _).nodup hn)
    exact this
  have hg : Grows [name] data out := .of_rows hr hn hcols hnd fun y hy => by
    obtain ⟨x, hx, -, rfl⟩ := hmem y hy
    exact ⟨x, hx, rfl, _, rfl, rfl⟩
  refine ⟨rfl, rfl, hg, r, hrel, fun i hi => ?_⟩
  obtain ⟨y, hy, rfl⟩ := mem_index.1 hi
  obtain ⟨x, hx, hne, e⟩ := hmem y hy
  have e1 : y.idx = x.idx := by rw [e]
  refine ⟨_, ?_, hne, ?_⟩
  · rw [valueAt_row hnd hy]
    rw [Frame.cell_append_right (f := data) (g := ⟨[name], []⟩) (a := x)
      (b := ⟨x.idx, [.list (tos (idIn (cell data x fromField)))]⟩) hcols (hr x hx) (by rw [e]) hname]
    simp [cell]
  · rw [e1, valueAt_row hn hx]
    exact h1 _

end Trumania
