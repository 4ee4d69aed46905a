import Verif.Proofs.Frame
import Verif.Spec.ExampleWorld

/-!
# Property C45 (FieldLogger)
-/

namespace Trumania
open Spec
variable {W : Type}

theorem fieldLogger_eq_ok {logId : String} {cols exploded : List String} {data : Frame}
    {out : Frame × Logs} {w w' : W} :
    Ops.fieldLogger logId cols exploded data w = .ok out w' ↔
      ∃ logged, Ops.loggedData cols exploded data = .ok logged ∧ out = (data, [(logId, logged)]) ∧
        w = w' := by
  simp only [Ops.fieldLogger, Act.bind_eq_ok, Act.ofPy_eq_ok, Act.pure_eq_ok]
  constructor
  · rintro ⟨l, w1, ⟨h, rfl⟩, rfl, rfl⟩; exact ⟨l, h, rfl, rfl⟩
  · rintro ⟨l, h, rfl, rfl⟩; exact ⟨l, w, ⟨h, rfl⟩, rfl, rfl⟩

/-- **C45** without selection, the logs are the story data; the story data is not changed and nothing
else is logged. -/
theorem C45_all_columns (logId : String) (data : Frame) (w : W) :
    Ops.fieldLogger logId [] [] data w = .ok (data, [(logId, data)]) w := rfl

/-- **C45** with selected columns: one line per row in order, with exactly these columns -/
theorem C45_selected_columns {logId : String} {cols : List String} (hc : cols ≠ [])
    {data out : Frame} {logs : Logs} {w w' : W}
    (h : Ops.fieldLogger logId cols [] data w = .ok (out, logs) w') :
    w' = w ∧ out = data ∧ ∃ logged, logs = [(logId, logged)] ∧ logged.cols = cols ∧
      logged.index = data.index ∧
      logged.rows.map (·.cells) = data.rows.map fun r => cols.map (cell data r) := by
  obtain ⟨logged, h1, h2, rfl⟩ := fieldLogger_eq_ok.1 h
  cases h2
  simp only [Ops.loggedData, Ops.explode, Ops.loggerCols, List.append_nil, if_true] at h1
  have h1 : (if cols = [] then Except.ok data else data.select cols) = .ok logged := h1
  rw [if_neg hc] at h1
  obtain ⟨e1, e2⟩ := Frame.select_ok h1
  refine ⟨rfl, rfl, logged, rfl, e1, ?_, ?_⟩
  · simp [Frame.index, e2]
  · simp [e2]

/-- **C45** selecting known columns never raises -/
theorem C45_selected_columns_total {logId : String} {cols : List String} {data : Frame} (w : W)
    (hr : Rect data) (hn : data.cols.Nodup) (hc : ∀ c ∈ cols, c ∈ data.cols) :
    ∃ logged, Ops.fieldLogger logId cols [] data w = .ok (data, [(logId, logged)]) w := by
  by_cases h : cols = []
  · subst h; exact ⟨data, rfl⟩
  · obtain ⟨logged, h1⟩ := Frame.select_total hr hn hc
    refine ⟨logged, fieldLogger_eq_ok.2 ⟨logged, ?_, rfl, rfl⟩⟩
    simp only [Ops.loggedData, Ops.explode, Ops.loggerCols, List.append_nil, if_true]
    change (if cols = [] then Except.ok data else data.select cols) = .ok logged
    rw [if_neg h, h1]

/-! ### Exploded columns -/

/-- the row of `explodeRow` for the element `k` -/
def explodedRow (lists : List Nat) (ls : List (List Val)) (r : Row) (k : Nat) : Row :=
  { r with cells := r.cells.zipIdx.map fun x =>
      match (lists.zip ls).find? (fun y => decide (y.1 = x.2)) with
      | some y => Ops.explodedCell y.2 k
      | none => x.1 }

theorem explodeRow_ok {lists : List Nat} {r : Row} {rows : List Row}
    (h : Ops.explodeRow lists r = .ok rows) :
    ∃ ls, List.Forall₂ (fun i l => Frame.cellAt i r = .ok (.list l)) lists ls ∧
      (∀ l ∈ ls, l.length = (ls.headD []).length) ∧
      rows = (List.range (ls.headD []).length).map (explodedRow lists ls r) := by
  rw [Ops.explodeRow] at h
  obtain ⟨ls, h1, h⟩ := bind_eq_ok.1 h
  have h1 := mapM_ok_iff.1 h1
  have h2 : List.Forall₂ (fun i l => Frame.cellAt i r = .ok (.list l)) lists ls := by
    refine h1.imp fun i l hl => ?_
    obtain ⟨c, h3, h4⟩ := bind_eq_ok.1 hl
    cases c with
    | scalar v => cases h4
    | list vs => cases h4; exact h3
  simp only at h
  split at h
  · rename_i hall
    cases h
    refine ⟨ls, h2, ?_, rfl⟩
    intro l hl
    simpa using List.all_eq_true.1 hall l hl
  · cases h

/-- reading a cell of the exploded row: by position in the columns -/
theorem cell_explodedRow {data : Frame} {exploded : List String} {lists : List Nat} {r : Row}
    {ls : List (List Val)} {k : Nat}
    (hp : List.Forall₂ (fun c i => data.pos c = .ok i) exploded lists)
    (hl : List.Forall₂ (fun i l => Frame.cellAt i r = .ok (.list l)) lists ls)
    {c : String} {i : Nat} (hc : data.pos c = .ok i) {v : Cell} (hv : Frame.cellAt i r = .ok v) :
    Frame.cellAt i (explodedRow lists ls r k) = .ok
      (if c ∈ exploded then .scalar ((listIn v).getD k .na) else v) := by
  have hg : r.cells[i]? = some v := by
    rw [Frame.cellAt] at hv
    split at hv
    · rename_i heq; cases hv; exact heq
    · cases hv
  have hcell : (explodedRow lists ls r k).cells[i]? = some
      (match (lists.zip ls).find? (fun y => decide (y.1 = i)) with
      | some y => Ops.explodedCell y.2 k
      | none => v) := by
    simp only [explodedRow, List.getElem?_map, List.getElem?_zipIdx, hg]
    simp
  rw [Frame.cellAt, hcell]
  simp only
  congr 1
  by_cases hm : c ∈ exploded
  · rw [if_pos hm]
    -- `i` is one of the exploded positions
    have : ∃ l, (lists.zip ls).find? (fun y => decide (y.1 = i)) = some (i, l) ∧ v = .list l := by
      clear hcell
      induction hp generalizing ls with
      | nil => cases hm
      | @cons c' i' exploded lists hci _ ih =>
        cases hl with
        | @cons _ l _ ls hil hls =>
          rw [List.zip_cons_cons]
          by_cases hi : i' = i
          · subst hi
            refine ⟨l, List.find?_cons_of_pos (by simp), ?_⟩
            rw [hv] at hil
            cases hil
            rfl
          · rw [List.find?_cons_of_neg (by simpa using hi)]
            refine ih hls ?_
            rw [List.mem_cons] at hm
            refine hm.resolve_left fun e => hi ?_
            subst e
            rw [hc] at hci
            cases hci
            rfl
    obtain ⟨l, h1, rfl⟩ := this
    rw [h1]
    rfl
  · rw [if_neg hm]
    have : (lists.zip ls).find? (fun y => decide (y.1 = i)) = none := by
      rw [List.find?_eq_none]
      intro y hy
      have hy := (List.of_mem_zip hy).1
      simp only [decide_eq_true_eq]
      intro hyi
      obtain ⟨c', hc', hpc⟩ := forall₂_exists_left hp hy
      apply hm
      -- the column at a position is unique
      have e1 := Frame.pos_positions hpc
      have e2 := Frame.pos_positions hc
      rw [hyi] at e1
      have m1 : i ∈ data.positions c' := by rw [e1]; simp
      have m2 : i ∈ data.positions c := by rw [e2]; simp
      simp only [Frame.positions, List.mem_map, List.mem_filter, decide_eq_true_eq] at m1 m2
      obtain ⟨⟨a, j⟩, ⟨ha, rfl⟩, rfl⟩ := m1
      obtain ⟨⟨b, j'⟩, ⟨hb, rfl⟩, hj⟩ := m2
      simp only at hj hc' ⊢
      subst hj
      have q1 := (List.mem_zipIdx' ha).2
      have q2 := (List.mem_zipIdx' hb).2
      rw [q2, ← q1]
      exact hc'
    rw [this]

theorem pos_of_select {f out : Frame} {names : List String} (h : f.select names = .ok out) :
    ∃ is, List.Forall₂ (fun c i => f.pos c = .ok i) names is ∧
      ∀ r ∈ f.rows, ∀ i ∈ is, ∃ v, Frame.cellAt i r = .ok v := by
  rw [Frame.select] at h
  obtain ⟨is, h1, h⟩ := bind_eq_ok.1 h
  obtain ⟨rows, h2, h⟩ := bind_eq_ok.1 h
  refine ⟨is, mapM_ok_iff.1 h1, fun r hr i hi => ?_⟩
  have h2 := mapM_ok_iff.1 h2
  obtain ⟨x, -, hx⟩ := forall₂_exists_right h2 hr
  obtain ⟨cs, h3, -⟩ := bind_eq_ok.1 hx
  obtain ⟨v, -, hv⟩ := forall₂_exists_right (mapM_ok_iff.1 h3) hi
  exact ⟨v, hv⟩

theorem pos_congr {f g : Frame} (h : f.cols = g.cols) (c : String) : f.pos c = g.pos c := by
  rw [Frame.pos, Frame.pos, Frame.positions, Frame.positions, h]

/-- **C45** (partial) with exploded columns, when the logger returns: one line per list element, in
order, with the selected fields repeated; the lists of one row have the same length; the story data is
not changed. Missing: the logger raises when the story data is empty, or when all the lists are empty
and other columns are selected (`C45_counterexample_empty`, `C45_counterexample_no_element`), where no
line should be logged. -/
theorem C45_exploded_partial {logId : String} {cols exploded : List String} (he : exploded ≠ [])
    {data out : Frame} {logs : Logs} {w w' : W}
    (h : Ops.fieldLogger logId cols exploded data w = .ok (out, logs) w') :
    w' = w ∧ out = data ∧ ∃ logged, logs = [(logId, logged)] ∧ logged.cols = cols ++ exploded ∧
      (∀ r ∈ data.rows, ∀ c ∈ exploded, ∃ vs, cell data r c = .list vs ∧
        vs.length = (listIn (cell data r (exploded.headD ""))).length) ∧
      logged.rows.map (·.cells) = data.rows.flatMap (explodedLines data cols exploded) := by
  obtain ⟨logged, h1, h2, rfl⟩ := fieldLogger_eq_ok.1 h
  cases h2
  refine ⟨rfl, rfl, logged, rfl, ?_⟩
  rw [Ops.loggedData] at h1
  obtain ⟨e, h2, h3⟩ := bind_eq_ok.1 h1
  have hne : Ops.loggerCols cols exploded ≠ [] := by
    simp [Ops.loggerCols, he]
  rw [if_neg hne] at h3
  obtain ⟨e1, e2⟩ := Frame.select_ok h3
  rw [Ops.explode, if_neg he] at h2
  split at h2
  · cases h2
  obtain ⟨lists, h4, h5⟩ := bind_eq_ok.1 h2
  obtain ⟨rows, h6, h7⟩ := bind_eq_ok.1 h5
  have hpos := mapM_ok_iff.1 h4
  have hrows := mapM_ok_iff.1 h6
  have hall : ∀ r ∈ data.rows, ∃ ls,
      List.Forall₂ (fun i l => Frame.cellAt i r = .ok (.list l)) lists ls ∧
      (∀ l ∈ ls, l.length = (ls.headD []).length) := by
    intro r hr
    obtain ⟨rs, -, hx⟩ := forall₂_exists_right hrows hr
    obtain ⟨ls, q1, q2, -⟩ := explodeRow_ok hx
    exact ⟨ls, q1, q2⟩
  -- the lists of a row, by column
  have hlist : ∀ r ∈ data.rows, ∀ (ls : List (List Val)),
      List.Forall₂ (fun i l => Frame.cellAt i r = .ok (.list l)) lists ls →
      List.Forall₂ (fun c l => cell data r c = .list l) exploded ls := by
    intro r _ ls hls
    clear * - hpos hls
    induction hpos generalizing ls with
    | nil => cases hls; exact .nil
    | cons hp _ ih =>
      cases hls with
      | cons hl hls => exact .cons (Frame.cell_of_pos hp hl) (ih _ hls)
  have hhead : ∀ r ∈ data.rows, ∀ (ls : List (List Val)),
      List.Forall₂ (fun c l => cell data r c = .list l) exploded ls →
      listIn (cell data r (exploded.headD "")) = ls.headD [] := by
    intro r _ ls hls
    cases hls with
    | nil => exact absurd rfl he
    | cons hc _ => simp only [List.headD_cons]; rw [hc]; rfl
  refine ⟨e1, ?_, ?_⟩
  · intro r hr c hc
    obtain ⟨ls, q1, q2⟩ := hall r hr
    have q3 := hlist r hr ls q1
    obtain ⟨vs, hvs, q4⟩ := forall₂_exists_right q3 hc
    exact ⟨vs, q4, by rw [hhead r hr ls q3]; exact q2 vs hvs⟩
  · rw [e2, List.map_map]
    simp only [Function.comp_def]
    have hcols : rows.flatten ≠ [] → e.cols = data.cols := by
      intro hf
      rw [if_neg hf] at h7
      cases h7
      rfl
    have herows : e.rows = rows.flatten := by
      split at h7
      · rename_i hf; cases h7; exact hf.symm
      · cases h7; rfl
    obtain ⟨is, hsel, hcells⟩ := pos_of_select h3
    -- the lines of one row
    have key : ∀ r ∈ data.rows, ∀ rs, Ops.explodeRow lists r = .ok rs → (∀ x ∈ rs, x ∈ e.rows) →
        rs.map (fun x => (Ops.loggerCols cols exploded).map (cell e x)) =
          explodedLines data cols exploded r := by
      intro r hr rs hrs hsub
      obtain ⟨ls, q1, q2, rfl⟩ := explodeRow_ok hrs
      rw [explodedLines, hhead r hr ls (hlist r hr ls q1), List.map_map]
      apply List.map_congr_left
      intro k hk
      rw [Function.comp_apply]
      have hmem : explodedRow lists ls r k ∈ e.rows := hsub _ (List.mem_map.2 ⟨k, hk, rfl⟩)
      have hec : e.cols = data.cols := hcols (by
        rw [← herows]; exact List.ne_nil_of_mem hmem)
      apply List.map_congr_left
      intro c hc
      obtain ⟨i, hi, hpi⟩ := forall₂_exists_right hsel hc
      obtain ⟨v', hv'⟩ := hcells _ hmem i hi
      have hpd : data.pos c = .ok i := by rw [← pos_congr hec]; exact hpi
      -- the original cell
      have hlen : (explodedRow lists ls r k).cells.length = r.cells.length := by
        simp [explodedRow]
      obtain ⟨v, hv⟩ : ∃ v, Frame.cellAt i r = .ok v := by
        have hlt : i < r.cells.length := by
          rw [← hlen]
          rw [Frame.cellAt] at hv'
          split at hv'
          · rename_i heq; exact (List.getElem?_eq_some_iff.1 heq).1
          · cases hv'
        exact ⟨r.cells[i], by rw [Frame.cellAt, List.getElem?_eq_getElem hlt]⟩
      rw [Frame.cell_of_pos hpi (cell_explodedRow hpos q1 hpd hv), Frame.cell_of_pos hpd hv]
    rw [herows]
    have hsub : ∀ rs ∈ rows, ∀ x ∈ rs, x ∈ e.rows := fun rs hrs x hx => by
      rw [herows]; exact List.mem_flatten.2 ⟨rs, hrs, hx⟩
    have hdata : ∀ r ∈ data.rows, r ∈ data.rows := fun _ h => h
    clear h6 h5 h2 hall hcols herows h7 h1 h h4
    revert hdata hsub
    generalize hd : data.rows = drows at hrows
    rw [hd] at key
    intro hsub hdata
    have : ∀ (l : List Row) (m : List (List Row)), List.Forall₂ (fun a b =>
        Ops.explodeRow lists a = .ok b) l m → (∀ r ∈ l, r ∈ drows) → (∀ rs ∈ m, rs ∈ rows) →
        m.flatten.map (fun x => (Ops.loggerCols cols exploded).map (cell e x)) =
          l.flatMap (explodedLines data cols exploded) := by
      intro l m hlm
      induction hlm with
      | nil => intro _ _; rfl
      | @cons r rs l m hr _ ih =>
        intro g1 g2
        rw [List.flatten_cons, List.map_append, List.flatMap_cons,
          key r (g1 r (by simp)) rs hr (hsub rs (g2 rs (by simp))),
          ih (fun r hr => g1 r (by simp [hr])) fun r hr => g2 r (by simp [hr])]
    exact this drows rows hrows (fun _ h => h) fun _ h => h

/-- **C45** with exploded columns the logger does not raise if the columns are known, each row holds
lists of the same length in them, and some list is not empty. -/
theorem C45_exploded_total {logId : String} {cols exploded : List String} (he : exploded ≠ [])
    {data : Frame} (w : W) (hr : Rect data) (hn : data.cols.Nodup)
    (hc : ∀ c ∈ cols ++ exploded, c ∈ data.cols)
    (hl : ∀ r ∈ data.rows, ∃ n, ∀ c ∈ exploded, ∃ vs, cell data r c = .list vs ∧ vs.length = n)
    (hsome : ∃ r ∈ data.rows, ∃ c ∈ exploded, cell data r c ≠ .list []) :
    ∃ logged, Ops.fieldLogger logId cols exploded data w = .ok (data, [(logId, logged)]) w := by
  obtain ⟨r0, hr0, c0, hc0, hne0⟩ := hsome
  -- positions of the exploded columns
  have hpos : ∃ lists, exploded.mapM data.pos = Except.ok lists ∧
      List.Forall₂ (fun c i => data.pos c = .ok i ∧ i < data.cols.length) exploded lists := by
    have hx : ∀ c ∈ exploded, c ∈ data.cols := fun c h => hc c (by simp [h])
    clear hc hl hc0 he
    induction exploded with
    | nil => exact ⟨[], rfl, .nil⟩
    | cons a l ih =>
      obtain ⟨i, h1, h2⟩ := Frame.pos_of_nodup hn (hx a (by simp))
      obtain ⟨is, h3, h4⟩ := ih fun c hc => hx c (by simp [hc])
      exact ⟨i :: is, by rw [List.mapM_cons, h1, h3]; rfl, .cons ⟨h1, h2⟩ h4⟩
  obtain ⟨lists, h1, h2⟩ := hpos
  have hp2 : List.Forall₂ (fun c i => data.pos c = .ok i) exploded lists := h2.imp fun _ _ h => h.1
  -- each row explodes
  have hrow : ∀ r ∈ data.rows, ∃ rs, Ops.explodeRow lists r = .ok rs ∧
      (∀ x ∈ rs, x.cells.length = r.cells.length) ∧
      ∀ c ∈ exploded, rs.length = (listIn (cell data r c)).length := by
    intro r hm
    obtain ⟨n, hn'⟩ := hl r hm
    have hls : ∃ ls, lists.mapM (fun i => do (← Frame.cellAt i r).asList) = Except.ok ls ∧
        List.Forall₂ (fun c l => cell data r c = .list l) exploded ls ∧ ∀ l ∈ ls, l.length = n := by
      clear hp2 h1 hc hl hc0 he
      induction h2 with
      | nil => exact ⟨[], rfl, .nil, by simp⟩
      | @cons c i _ _ hci _ ih =>
        obtain ⟨ls, q1, q2, q3⟩ := ih fun c hc => hn' c (by simp [hc])
        obtain ⟨v, hv⟩ := Frame.cellAt_of_rect hr hm hci.2
        obtain ⟨vs, q4, q5⟩ := hn' c (by simp)
        have hvs : v = .list vs := by rw [← q4]; exact (Frame.cell_of_pos hci.1 hv).symm
        subst hvs
        refine ⟨vs :: ls, ?_, .cons q4 q2, ?_⟩
        · rw [List.mapM_cons, q1, hv]; rfl
        · rintro l (_ | ⟨_, h⟩)
          · exact q5
          · exact q3 l h
    obtain ⟨ls, q1, q2, q3⟩ := hls
    have hn0 : (ls.headD []).length = n := by
      cases q2 with
      | nil => exact absurd rfl he
      | cons _ _ => exact q3 _ (by simp)
    refine ⟨(List.range n).map (explodedRow lists ls r), ?_, ?_, ?_⟩
    · rw [Ops.explodeRow, q1]
      simp only [bind_ok]
      rw [if_pos, hn0]
      · rfl
      · rw [List.all_eq_true]
        intro l hl'
        simp only [decide_eq_true_eq]
        rw [q3 l hl', hn0]
    · intro x hx
      obtain ⟨k, -, rfl⟩ := List.mem_map.1 hx
      simp [explodedRow]
    · intro c hc
      obtain ⟨vs, q4, q5⟩ := hn' c hc
      rw [q4]
      simp [listIn, q5]
  have hall : ∃ rows, data.rows.mapM (Ops.explodeRow lists) = Except.ok rows ∧
      (∀ rs ∈ rows, ∀ x ∈ rs, x.cells.length = data.cols.length) ∧
      ∀ r ∈ data.rows, ∀ c ∈ exploded, cell data r c ≠ .list [] → rows.flatten ≠ [] := by
    have : ∀ m : List Row, (∀ r ∈ m, r ∈ data.rows) → (∀ r ∈ m, r.cells.length = data.cols.length) →
      ∃ rows, m.mapM (Ops.explodeRow lists) = Except.ok rows ∧
      (∀ rs ∈ rows, ∀ x ∈ rs, x.cells.length = data.cols.length) ∧
      ∀ r ∈ m, ∀ c ∈ exploded, cell data r c ≠ .list [] → rows.flatten ≠ [] := by
      intro m
      induction m with
      | nil => intro _ _; exact ⟨[], rfl, by simp, by simp⟩
      | cons r m ih =>
        intro g1 g2
        obtain ⟨rows, q1, q2, q3⟩ := ih (fun r hr => g1 r (by simp [hr]))
          fun r hr => g2 r (by simp [hr])
        obtain ⟨rs, p1, p2, p3⟩ := hrow r (g1 r (by simp))
        refine ⟨rs :: rows, by rw [List.mapM_cons, p1, q1]; rfl, ?_, ?_⟩
        · rintro rs' (_ | ⟨_, h⟩) x hx
          · rw [p2 x hx, g2 r (by simp)]
          · exact q2 rs' h x hx
        · intro r' hr' c hc hcne
          rw [List.flatten_cons]
          rcases List.mem_cons.1 hr' with rfl | hr'
          · intro h0
            rw [List.append_eq_nil_iff] at h0
            have := p3 c hc
            rw [h0.1] at this
            obtain ⟨n, hn'⟩ := hl r' (g1 r' (by simp))
            obtain ⟨vs, e1, e2⟩ := hn' c hc
            rw [e1] at this hcne
            simp only [listIn, List.length_nil] at this
            exact hcne (by rw [List.length_eq_zero_iff.1 this.symm])
          · intro h0
            rw [List.append_eq_nil_iff] at h0
            exact q3 r' hr' c hc hcne h0.2
    exact this data.rows (fun _ h => h) hr
  obtain ⟨rows, h3, h4, h5⟩ := hall
  have hne := h5 r0 hr0 c0 hc0 hne0
  obtain ⟨logged, h6⟩ := Frame.select_total (f := ⟨data.cols, rows.flatten⟩)
    (names := Ops.loggerCols cols exploded) (fun x hx => by
      obtain ⟨rs, hrs, hx⟩ := List.mem_flatten.1 hx
      exact h4 rs hrs x hx) hn hc
  refine ⟨logged, fieldLogger_eq_ok.2 ⟨logged, ?_, rfl, rfl⟩⟩
  refine bind_eq_ok.2 ⟨⟨data.cols, rows.flatten⟩, ?_, ?_⟩
  · rw [Ops.explode, if_neg he, if_neg (List.ne_nil_of_mem hr0)]
    refine bind_eq_ok.2 ⟨lists, h1, bind_eq_ok.2 ⟨rows, h3, ?_⟩⟩
    rw [if_neg hne]
  · rw [if_neg (by simp [Ops.loggerCols, he])]
    exact h6

/-- **C45** false in general: exploding columns of an empty story data raises, instead of logging
nothing. Story data is empty, for instance, after a `DropRow` that drops all rows. -/
theorem C45_counterexample_empty (logId : String) (cols : List String) (c : String)
    (names : List String) (w : W) :
    Ops.fieldLogger logId cols [c] ⟨names, []⟩ w = .error .valueError w := rfl

/-- **C45** false in general: when all the lists are empty, logging another column raises -/
theorem C45_counterexample_no_element (w : W) :
    Ops.fieldLogger "log" ["a"] ["l"] ⟨["a", "l"], [⟨.num 0, [.num 1, .list []]⟩]⟩ w =
      .error .keyError w := rfl

/-! ### Non-vacuity -/

def exCart : Frame := ⟨["WHO", "ITEMS", "PRICES"],
  [⟨.str "a", [.str "ann", .list [.str "x", .str "y"], .list [.num 1, .num 2]]⟩,
   ⟨.str "b", [.str "bob", .list [], .list []]⟩,
   ⟨.str "c", [.str "cat", .list [.str "z"], .list [.num 3]]⟩]⟩

example : (Ops.fieldLogger "l" ["PRICES", "WHO"] [] exCart).value? exWorld = some (exCart,
    [("l", ⟨["PRICES", "WHO"], [⟨.str "a", [.list [.num 1, .num 2], .str "ann"]⟩,
      ⟨.str "b", [.list [], .str "bob"]⟩, ⟨.str "c", [.list [.num 3], .str "cat"]⟩]⟩)]) := by
  decide +kernel

example : (Ops.fieldLogger "l" ["WHO"] ["ITEMS", "PRICES"] exCart).value? exWorld = some (exCart,
    [("l", ⟨["WHO", "ITEMS", "PRICES"], [⟨.str "a", [.str "ann", .str "x", .num 1]⟩,
      ⟨.str "a", [.str "ann", .str "y", .num 2]⟩, ⟨.str "c", [.str "cat", .str "z", .num 3]⟩]⟩)]) := by
  decide +kernel

end Trumania
