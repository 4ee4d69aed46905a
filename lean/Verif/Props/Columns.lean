import Verif.Proofs.Columns
import Verif.Props.Clock
import Verif.Props.Generators
import Verif.Props.Relationship

/-!
# Property C91 (what the operations that add a column write in each row)
-/

namespace Trumania
open Spec World
variable {σ γ : Type} {env : Env σ γ}

/-! ### Random values -/

/-- **C91** `generate`: the values of one call of the generator, one per row, in the order of the rows. -/
theorem C91_random_values {g : GenRef} {name : String} {data out : Frame} {logs : Logs}
    {w w' : World σ γ} (hn : data.index.Nodup) (hr : Rect data) (hname : name ∉ data.cols)
    (h : Ops.randomValues env g name none data w = .ok (out, logs) w') :
    logs = [] ∧ ∃ values, AddsColumn name values data out ∧
      World.generate env g (data.rows.length : Rat) w = .ok values w' := by
  obtain ⟨o, h1, h2⟩ := addColumns_eq_ok.1 h
  cases h2
  obtain ⟨v, w1, h3, h4⟩ := Act.bind_eq_ok.1 h1
  obtain ⟨h5, rfl⟩ := Act.ofPy_eq_ok.1 h4
  exact ⟨rfl, v, addsColumn_of_merge hn hr hname h5, h3⟩

/-- **C91** `generate` with a quantity field: each row gets as many of the generated values as its
quantity says; the lists of all the rows, one after the other, are the values of one call of the
generator asking for all of them. -/
theorem C91_bulk_values {g : GenRef} {name field : String} {data out : Frame} {logs : Logs}
    {w w' : World σ γ} (hn : data.index.Nodup) (hr : Rect data) (hname : name ∉ data.cols)
    (h : Ops.randomValues env g name (some field) data w = .ok (out, logs) w') :
    logs = [] ∧ ∃ (qties : List Nat) (lists : List (List Val)) (flat : List Cell),
      List.Forall₂ HoldsCount (cellsOf data field) qties ∧
      AddsColumn name (lists.map Cell.list) data out ∧
      World.generate env g (qties.sum : Nat) w = .ok flat w' ∧
      (flat.length = qties.sum →
        List.Forall₂ (fun l n => l.length = n) lists qties ∧
        lists.flatten.map Cell.scalar = flat) := by
  obtain ⟨o, h1, h2⟩ := addColumns_eq_ok.1 h
  cases h2
  obtain ⟨v, w1, h3, h4⟩ := Act.bind_eq_ok.1 h1
  obtain ⟨h5, rfl⟩ := Act.ofPy_eq_ok.1 h4
  rw [Ops.randomCells] at h3
  obtain ⟨qties, w2, h6, h7⟩ := Act.bind_eq_ok.1 h3
  obtain ⟨k6, rfl⟩ := Act.ofPy_eq_ok.1 h6
  obtain ⟨flat, w3, h8, h9⟩ := Act.bind_eq_ok.1 h7
  obtain ⟨vals, w4, h10, h11⟩ := Act.bind_eq_ok.1 h9
  obtain ⟨k10, rfl⟩ := Act.ofPy_eq_ok.1 h10
  obtain ⟨rfl, rfl⟩ := Act.pure_eq_ok.1 h11
  obtain ⟨cs, h12, h13⟩ := bind_eq_ok.1 k6
  refine ⟨rfl, qties, sliceBulk vals qties, flat, ?_, addsColumn_of_merge hn hr hname h5,
    by exact_mod_cast h8, ?_⟩
  · rw [Frame.cellsOf_eq, ← Frame.col_eq_map h12]
    exact (mapM_ok_iff.1 h13).imp fun _ _ h => asNat_ok h
  · intro hl
    have e := mapM_ok_iff.1 k10
    have hflat : vals.map Cell.scalar = flat := by
      clear * - e
      induction e with
      | nil => rfl
      | cons h _ ih => rw [List.map_cons, ih, asVal_ok h]
    obtain ⟨f1, f2⟩ := sliceBulk_spec vals qties (by rw [← hl, ← hflat, List.length_map])
    refine ⟨?_, by rw [f2, hflat]⟩
    rw [← List.forall₂_map_left_iff (f := List.length), f1, List.forall₂_eq_eq_eq]

/-- **C91** `generate` with an observed field: the values of one call of the dependent generator on the
values of this field. -/
theorem C91_random_values_from_field {g : GenRef} {name observed : String} {data out : Frame}
    {logs : Logs} {w w' : World σ γ} (hn : data.index.Nodup) (hr : Rect data)
    (hname : name ∉ data.cols)
    (h : Ops.randomValuesFromField env g name observed data w = .ok (out, logs) w') :
    logs = [] ∧ ∃ values, AddsColumn name values data out ∧
      World.observe env g (cellsOf data observed) w = .ok values w' := by
  obtain ⟨o, h1, h2⟩ := addColumns_eq_ok.1 h
  cases h2
  obtain ⟨obs, w1, h5, h6⟩ := Act.bind_eq_ok.1 h1
  obtain ⟨v, w2, h3, h4⟩ := Act.bind_eq_ok.1 h6
  obtain ⟨e5, rfl⟩ := Act.ofPy_eq_ok.1 h5
  obtain ⟨e4, rfl⟩ := Act.ofPy_eq_ok.1 h4
  refine ⟨rfl, v, addsColumn_of_merge hn hr hname e4, ?_⟩
  rw [Frame.cellsOf_eq, ← Frame.col_eq_map e5]
  exact h3

/-! ### Timestamps -/

/-- **C91** `timestamp(random=False)`: the date of the clock in every row; nothing changes. -/
theorem C91_fixed_timestamps {name : String} {fmt : Int → Cell} {data out : Frame} {logs : Logs}
    {w w' : World σ γ} (hn : data.index.Nodup) (hr : Rect data) (hname : name ∉ data.cols)
    (h : Ops.timestamp env name false fmt data w = .ok (out, logs) w') :
    w' = w ∧ logs = [] ∧
      AddsColumn name (data.rows.map fun _ => fmt w.clock.current) data out := by
  obtain ⟨o, h1, h2⟩ := addColumns_eq_ok.1 h
  cases h2
  obtain ⟨_, w1, h3, h4⟩ := Act.bind_eq_ok.1 h1
  cases h3
  obtain ⟨⟨ts, c⟩, w2, h5, h6⟩ := Act.bind_eq_ok.1 h4
  obtain ⟨k5, rfl⟩ := Act.ofPy_eq_ok.1 h5
  obtain ⟨_, w3, h7, h8⟩ := Act.bind_eq_ok.1 h6
  cases h7
  obtain ⟨k8, rfl⟩ := Act.ofPy_eq_ok.1 h8
  rw [Clock.getTimestamp, if_neg (by simp)] at k5
  cases k5
  refine ⟨rfl, rfl, ?_⟩
  have := addsColumn_of_merge hn hr hname k8
  rwa [List.map_replicate, ← List.map_const'] at this

/-- **C91** `timestamp(random=True)`: a date in every row, a whole number of seconds after the date of
the clock and before its next date; nothing changes but the random state of the clock, which is the
one after this draw. -/
theorem C91_random_timestamps {name : String} {fmt : Int → Cell} {data out : Frame} {logs : Logs}
    {w w' : World σ γ} (hn : data.index.Nodup) (hr : Rect data) (hname : name ∉ data.cols)
    (hstep : 0 ≤ w.clock.step)
    (h : Ops.timestamp env name true fmt data w = .ok (out, logs) w') :
    logs = [] ∧
    ∃ (secs : List Nat) (state : σ), secs.length = data.rows.length ∧
      env.R.randint w.clock.state (w.clock.step / 1000000000).toNat data.rows.length =
        (secs, state) ∧
      w' = { w with clock := { w.clock with state := state } } ∧
      (∀ k ∈ secs, (k : Int) * 1000000000 < w.clock.step) ∧
      AddsColumn name (secs.map fun (k : Nat) => fmt (w.clock.current + (k : Int) * 1000000000))
        data out := by
  obtain ⟨o, h1, h2⟩ := addColumns_eq_ok.1 h
  cases h2
  obtain ⟨_, w1, h3, h4⟩ := Act.bind_eq_ok.1 h1
  cases h3
  obtain ⟨⟨ts, c⟩, w2, h5, h6⟩ := Act.bind_eq_ok.1 h4
  obtain ⟨k5, rfl⟩ := Act.ofPy_eq_ok.1 h5
  obtain ⟨_, w3, h7, h8⟩ := Act.bind_eq_ok.1 h6
  cases h7
  obtain ⟨k8, rfl⟩ := Act.ofPy_eq_ok.1 h8
  obtain ⟨f1, f2, -, -, -⟩ := C10_random_timestamps env.R _ _ _ hstep ts k5
  rw [Clock.getTimestamp, if_pos rfl] at k5
  obtain ⟨⟨secs, s'⟩, h9, h10⟩ := bind_eq_ok.1 k5
  cases h10
  rw [Rng.choice] at h9
  split at h9
  · cases h9
  rw [pyInt_totalSeconds _ hstep] at h9
  have h9 := Except.ok.inj h9
  rw [List.length_map] at f1
  refine ⟨rfl, secs, s', f1, h9, rfl, ?_, ?_⟩
  · intro k hk
    obtain ⟨k', e, hlt⟩ := f2 _ (List.mem_map_of_mem hk)
    simp only [nsPerSec] at e hlt
    omega
  · have := addsColumn_of_merge hn hr hname k8
    rwa [List.map_map] at this

/-! ### Sizes -/

/-- **C91** `get_neighbourhood_size`: the number of the relations of the from named by each row. -/
theorem C91_neighbourhood_size {R : Rng σ} {rel : Nat} {fromField name : String} {data out : Frame}
    {logs : Logs} {w w' : World σ γ} (hn : data.index.Nodup) (hr : Rect data)
    (hname : name ∉ data.cols) (env' : Orders)
    (h : Ops.neighbourhoodSize rel fromField name data w = .ok (out, logs) w')
    (r : Relationship σ) (hrel : w.rels[rel]? = some r) (hreach : Relationship.Reachable R r) :
    w' = w ∧ logs = [] ∧ AddsColumn name (data.rows.map fun x => .num
      (((r.get_relations env').countP fun t => decide (t.1 = idIn (cell data x fromField)) : Nat) : Rat))
      data out := by
  obtain ⟨o, h1, h2⟩ := addColumns_eq_ok.1 h
  cases h2
  obtain ⟨froms, w1, h3, h4⟩ := Act.bind_eq_ok.1 h1
  obtain ⟨k3, rfl⟩ := Act.ofPy_eq_ok.1 h3
  obtain ⟨r', w2, h5, h6⟩ := Act.bind_eq_ok.1 h4
  rw [getRel_eq_ok, hrel] at h5
  obtain ⟨h5, rfl⟩ := h5
  cases h5
  obtain ⟨h8, rfl⟩ := Act.ofPy_eq_ok.1 h6
  refine ⟨rfl, rfl, ?_⟩
  have := addsColumn_of_merge hn hr hname h8
  obtain ⟨rfl, -⟩ := idColumn_eq_map k3
  rw [List.map_map] at this
  convert this using 1
  refine List.map_congr_left fun x hx => ?_
  rw [Function.comp_apply, C17_neighbourhood_size R hreach env',
    if_pos (List.mem_map.2 ⟨x, hx, rfl⟩)]
  rfl

/-! ### Apply -/

/-- **C91** `Apply` on series: the values that the user function computes from the values of the source
fields. -/
theorem C91_apply_series {sources : List String} {name : String}
    {f : List (List Cell) → Py (List Cell)} {data out : Frame} {logs : Logs} {w w' : World σ γ}
    (hn : data.index.Nodup) (hr : Rect data) (hname : name ∉ data.cols)
    (h : Ops.applySeries sources name f data w = .ok (out, logs) w') :
    w' = w ∧ logs = [] ∧ ∃ values, f (sources.map (cellsOf data)) = .ok values ∧
      AddsColumn name values data out := by
  obtain ⟨o, h1, h2⟩ := addColumns_eq_ok.1 h
  cases h2
  obtain ⟨h3, rfl⟩ := Act.ofPy_eq_ok.1 h1
  obtain ⟨cols, h4, h5⟩ := bind_eq_ok.1 h3
  obtain ⟨values, h6, h7⟩ := bind_eq_ok.1 h5
  refine ⟨rfl, rfl, values, ?_, addsColumn_of_merge hn hr hname h7⟩
  have : cols = sources.map (cellsOf data) := by
    have e := mapM_ok_iff.1 h4
    clear * - e
    induction e with
    | nil => rfl
    | cons h _ ih => rw [List.map_cons, ← ih, Frame.col_eq_map h, Frame.cellsOf_eq]
  rw [← this]
  exact h6

/-- the columns of a frame whose distinct columns are all given a new name -/
theorem renamed_all {r : Frame} {namedAs : List String} (hn : r.cols.Nodup)
    (hl : namedAs.length = r.cols.length) : Ops.renamed r namedAs = { r with cols := namedAs } := by
  have key : ∀ (cols names : List String) (acc : Dict String String), cols.Nodup →
      names.length = cols.length →
      (∀ c, c ∉ cols → Dict.get? ((cols.zip names).foldl (fun d x => d.set x.1 x.2) acc) c =
        Dict.get? acc c) ∧
      cols.map (fun c => (Dict.get? ((cols.zip names).foldl (fun d x => d.set x.1 x.2) acc) c).getD c) =
        names := by
    intro cols
    induction cols with
    | nil => intro names acc _ hl; simp_all
    | cons a cols ih =>
      intro names acc hn hl
      cases names with
      | nil => simp at hl
      | cons b names =>
        rw [List.nodup_cons] at hn
        obtain ⟨i1, i2⟩ := ih names (acc.set a b) hn.2 (by simpa using hl)
        rw [List.zip_cons_cons, List.foldl_cons]
        constructor
        · intro c hc
          rw [List.mem_cons, not_or] at hc
          rw [i1 c hc.2, Dict.get?_set, if_neg (Ne.symm hc.1)]
        · rw [List.map_cons, i2, i1 a hn.1, Dict.get?_set, if_pos rfl]
          rfl
  rw [Ops.renamed]
  simp only [(key r.cols namedAs [] hn hl).2]

/-- **C91** `Apply` on frames: the user function gets the source fields of all the rows, and the cells
of each row of its result, under the given names, are added to the row of the same label. -/
theorem C91_apply_frame {sources namedAs : List String} {f : Frame → Py Frame} {data out : Frame}
    {logs : Logs} {w w' : World σ γ} (hn : data.index.Nodup) (hr : Rect data)
    (hnew : ∀ c ∈ data.cols, c ∉ namedAs)
    (h : Ops.applyFrame sources namedAs f data w = .ok (out, logs) w') :
    w' = w ∧ logs = [] ∧ ∃ result, f ⟨sources, data.rows.map fun r =>
        ⟨r.idx, sources.map (cell data r)⟩⟩ = .ok result ∧
      (result.index = data.index → result.cols.Nodup → namedAs.length = result.cols.length →
        out.index = data.index ∧ out.cols = data.cols ++ namedAs ∧ Appended data result out ∧
        ∀ c ∈ data.cols, cellsOf out c = cellsOf data c) := by
  obtain ⟨o, h1, h2⟩ := addColumns_eq_ok.1 h
  cases h2
  obtain ⟨h3, rfl⟩ := Act.ofPy_eq_ok.1 h1
  obtain ⟨sel, h4, h5⟩ := bind_eq_ok.1 h3
  obtain ⟨result, h6, h7⟩ := bind_eq_ok.1 h5
  obtain ⟨e1, e2⟩ := Frame.select_ok h4
  have hsel : sel = ⟨sources, data.rows.map fun r => ⟨r.idx, sources.map (cell data r)⟩⟩ := by
    cases sel; simp only at e1 e2; rw [e1, e2]
  refine ⟨rfl, rfl, result, by rw [← hsel]; exact h6, fun hi hc hl => ?_⟩
  rw [renamed_all hc hl] at h7
  cases h7
  have hi' : (⟨namedAs, result.rows⟩ : Frame).index = data.index := hi
  have hl' : result.rows.length = data.rows.length := by
    rw [← Frame.index_length, ← Frame.index_length, hi]
  obtain ⟨g1, g2⟩ := Frame.zipWith_appended hl' 
    (Frame.mergeIndex_same_rows (how := .left) (r := ⟨namedAs, result.rows⟩) hi' hn)
  have hcols := Frame.mergedCols_disjoint hnew
  exact ⟨Frame.mergeIndex_left_index (by rw [hi']; exact hn), hcols, ⟨g1, hl', g2⟩,
    (appended_fields (added := ⟨namedAs, result.rows⟩) hr hcols ⟨g1, hl', g2⟩).1⟩

/-- **C91** `Apply` with `copy_if`: the value of the source field in the rows whose condition is true, an
empty cell in the other rows. -/
theorem C91_copy_if {cond source name : String} {data out : Frame} {logs : Logs} {w w' : World σ γ}
    (hn : data.index.Nodup) (hr : Rect data) (hname : name ∉ data.cols)
    (h : Ops.applyFrame [cond, source] [name] Ops.copyIf data w = .ok (out, logs) w') :
    w' = w ∧ logs = [] ∧
    (∀ r ∈ data.rows, ∃ b, cell data r cond = .bool b) ∧
    AddsColumn name (data.rows.map fun r => keptIf (cell data r cond) (cell data r source))
      data out := by
  obtain ⟨rfl, rfl, result, h1, h2⟩ := C91_apply_frame hn hr
    (by intro c hc hc'; rw [List.mem_singleton] at hc'; exact hname (hc' ▸ hc)) h
  simp only [Ops.copyIf] at h1
  obtain ⟨cs, h3, h4⟩ := bind_eq_ok.1 h1
  obtain ⟨bs, h5, h6⟩ := bind_eq_ok.1 h4
  obtain ⟨vs, h7, h8⟩ := bind_eq_ok.1 h6
  obtain ⟨e1, e2, e3, e4⟩ := Frame.ofColumn_ok h8
  have hne : cond ≠ source := by
    rintro rfl
    rw [Frame.col] at h3
    obtain ⟨i, h9, -⟩ := bind_eq_ok.1 h3
    have := Frame.pos_positions h9
    simp [Frame.positions, List.zipIdx] at this
  have hcell1 : ∀ r : Row, Spec.cell (⟨[cond, source], data.rows.map fun r =>
      ⟨r.idx, [cond, source].map (cell data r)⟩⟩ : Frame) ⟨r.idx, [cond, source].map (cell data r)⟩ cond =
      cell data r cond := by intro r; simp [Spec.cell]
  have hcell2 : ∀ r : Row, Spec.cell (⟨[cond, source], data.rows.map fun r =>
      ⟨r.idx, [cond, source].map (cell data r)⟩⟩ : Frame) ⟨r.idx, [cond, source].map (cell data r)⟩ source =
      cell data r source := by
    intro r
    rw [Spec.cell]
    simp only [List.map_cons, List.map_nil, List.zip_cons_cons, List.zip_nil_right]
    rw [List.find?_cons_of_neg (by simpa using hne), List.find?_cons_of_pos (by simp)]
  have hcs : cs = data.rows.map (cell data · cond) := by
    rw [Frame.col_eq_map h3, List.map_map]
    exact List.map_congr_left fun r _ => hcell1 r
  have hvs : vs = data.rows.map (cell data · source) := by
    rw [Frame.col_eq_map h7, List.map_map]
    exact List.map_congr_left fun r _ => hcell2 r
  have hb : List.Forall₂ (fun (r : Row) (b : Bool) => cell data r cond = .bool b) data.rows bs := by
    have := mapM_ok_iff.1 h5
    rw [hcs, List.forall₂_map_left_iff] at this
    exact this.imp fun _ _ h => asBool_ok h
  refine ⟨rfl, rfl, fun r hr => ?_, ?_⟩
  · obtain ⟨b, -, e⟩ := forall₂_exists_right hb hr
    exact ⟨b, e⟩
  · have hi : result.index = data.index := by
      rw [e1, Frame.index, Frame.index, List.map_map]
      rfl
    obtain ⟨f1, f2, f3, f4⟩ := h2 hi (by rw [e2]; simp) (by rw [e2]; rfl)
    refine ⟨f1, f2, f4, ?_⟩
    rw [(appended_fields (added := { result with cols := [name] }) hr f2 f3).2 name hname]
    have hval : List.zipWith (fun (b : Bool) v => if b then v else Cell.na) bs vs =
        data.rows.map fun r => keptIf (cell data r cond) (cell data r source) := by
      rw [hvs]
      clear * - hb
      generalize data.rows = rows at hb
      induction hb with
      | nil => rfl
      | @cons r b rows bs h _ ih =>
        rw [List.map_cons, List.zipWith_cons_cons, ih, List.map_cons, h]
        cases b <;> simp [keptIf]
    have e5 : Frame.ofColumn data.index name (data.rows.map fun r =>
        keptIf (cell data r cond) (cell data r source)) = .ok { result with cols := [name] } := by
      rw [← hval, Frame.ofColumn, if_pos (by rw [e4, ← e1, hi]), ← hi, e1, ← e3]
    exact cellsOf_ofColumn e5

/-! ### Non-vacuity -/

/-- calls with a number of messages -/
def exCounts : Frame := ⟨["CALLER", "N", "LONG"],
  [⟨.str "a", [.str "y", .num 2, .bool true]⟩, ⟨.str "b", [.str "x", .num 0, .bool false]⟩,
   ⟨.str "c", [.str "z", .num 3, .bool true]⟩]⟩

example : exCounts.index.Nodup ∧ Rect exCounts ∧ "IDS" ∉ exCounts.cols := by
  refine ⟨by decide +kernel, ?_, by decide +kernel⟩
  unfold Rect
  decide +kernel

example : ((Ops.randomValues exEnv (.ref 0) "IDS" (some "N") exCounts).value? exRels).map
      (fun x => cellsOf x.1 "IDS") =
    some [.list [.str "id_000", .str "id_001"], .list [],
      .list [.str "id_002", .str "id_003", .str "id_004"]] := by decide +kernel

example : ((Ops.timestamp exEnv "T" true (fun n => .num n) exCounts).value? exRels).isSome ∧
    ((Ops.timestamp exEnv "T" false (fun n => .num n) exCounts).value? exRels).map
      (fun x => cellsOf x.1 "T") = some [.num 0, .num 0, .num 0] := by decide +kernel

example : ((Ops.neighbourhoodSize 0 "CALLER" "K" exCounts).value? exRels).map
      (fun x => cellsOf x.1 "K") = some [.num 2, .num 1, .num 0] := by decide +kernel

example : ((Ops.applyFrame ["LONG", "CALLER"] ["COPY"] Ops.copyIf exCounts).value? exRels).map
      (fun x => cellsOf x.1 "COPY") = some [.str "y", .na, .str "z"] := by decide +kernel

example : ((Ops.applySeries ["N", "CALLER"] "V" (fun cs => .ok (cs.headD [])) exCounts).value?
      exRels).map (fun x => cellsOf x.1 "V") = some [.num 2, .num 0, .num 3] := by decide +kernel

example : ((Ops.randomValuesFromField exEnv (.bulk (.ref 0)) "V" "N" exCounts).value?
      exRels).map (fun x => cellsOf x.1 "V") =
    some [.list [.str "id_000", .str "id_001"], .list [],
      .list [.str "id_002", .str "id_003", .str "id_004"]] := by decide +kernel

end Trumania
