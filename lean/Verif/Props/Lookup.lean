import Verif.Props.Operations
import Verif.Props.Population

/-!
# Property C56 (lookup of attributes)
-/

namespace Trumania
open Spec World
variable {σ γ : Type} {env : Env σ γ}

theorem cell_of_nodup {f : Frame} {r : Row} {name : String} {c : Cell} (hn : f.cols.Nodup) {j : Nat}
    (h1 : f.cols[j]? = some name) (h2 : r.cells[j]? = some c) : cell f r name = c := by
  rw [cell]
  generalize f.cols = cols at hn h1
  generalize r.cells = cells at h2
  induction cols generalizing cells j with
  | nil => simp at h1
  | cons x cols ih =>
    cases cells with
    | nil => simp at h2
    | cons y cells =>
      rw [List.nodup_cons] at hn
      rw [List.zip_cons_cons, List.find?_cons]
      cases j with
      | zero =>
        simp only [List.getElem?_cons_zero, Option.some.injEq] at h1 h2
        simp [h1, h2]
      | succ j =>
        simp only [List.getElem?_cons_succ] at h1 h2
        have : x ≠ name := by
          rintro rfl
          exact hn.1 (List.mem_of_getElem? h1)
        simp only [this, decide_false]
        exact ih hn.2 h1 cells h2

theorem foldl_mergedCols {sel : List (String × String)} (acc : List String)
    (hn : (acc ++ sel.map Prod.snd).Nodup) :
    sel.foldl (fun cols s => Frame.mergedCols cols [s.2]) acc = acc ++ sel.map Prod.snd := by
  induction sel generalizing acc with
  | nil => simp
  | cons s sel ih =>
    have hd : s.2 ∉ acc := by
      intro hm
      rw [List.nodup_append] at hn
      exact hn.2.2 _ hm _ (by simp) rfl
    rw [List.foldl_cons, Frame.mergedCols_disjoint (by
      intro c hc hc'
      rw [List.mem_singleton] at hc'
      exact hd (hc' ▸ hc)), ih]
    · simp
    · simpa using hn

theorem foldl_set_nodup {ν : Type} {l : List (String × ν)} (acc : Dict String ν)
    (hn : ((acc ++ l).map Prod.fst).Nodup) :
    l.foldl (fun (d : Dict String ν) c => d.set c.1 c.2) acc = acc ++ l := by
  induction l generalizing acc with
  | nil => simp
  | cons x l ih =>
    have hset : Dict.set acc x.1 x.2 = acc ++ [x] := by
      have hx : x.1 ∉ acc.map Prod.fst := by
        intro hm
        rw [List.map_append, List.nodup_append] at hn
        exact hn.2.2 _ hm _ (by simp) rfl
      clear * - hx
      induction acc with
      | nil => simp [Dict.set]
      | cons y acc ih =>
        rw [List.map_cons, List.mem_cons, not_or] at hx
        obtain ⟨k, v⟩ := y
        rw [Dict.set, if_neg (Ne.symm hx.1), ih hx.2]
        rfl
    rw [List.foldl_cons, hset, ih]
    · simp
    · simpa using hn

/-- what the values looked up for one row must be: the value of the member its id field names, or the
list of the values of the members it lists, in the same order -/
def LooksUp (a : Attribute) : Cell → Cell → Prop
  | .scalar v, c => Holds a v c
  | .list vs, c => ∃ cs, c = .list cs ∧ List.Forall₂ (fun v x => Holds a v (.scalar x)) vs cs

theorem idColumn_forall {data : Frame} {field : String} {ids : List Val}
    (h : Ops.idColumn data field = .ok ids) :
    List.Forall₂ (fun r i => cell data r field = .scalar i) data.rows ids := by
  rw [Ops.idColumn] at h
  obtain ⟨cs, h1, h2⟩ := bind_eq_ok.1 h
  rw [Frame.col_eq_map h1, mapM_ok_iff, List.forall₂_map_left_iff] at h2
  refine h2.imp ?_
  intro r i h
  cases hc : cell data r field with
  | list vs => rw [hc] at h; cases h
  | scalar v => rw [hc] at h; cases h; rfl

/-- the frame built by a lookup -/
theorem lookupOutput_cells {p : Population} (hp : Population.WF p) {idField : String}
    {sel : Dict String String} (hsel : (sel.map Prod.snd).Nodup) {data o : Frame}
    (h : Ops.lookupOutput p idField sel data = .ok o) :
    o.cols = sel.map Prod.snd ∧ ∀ (k : Nat) r r', data.rows[k]? = some r → o.rows[k]? = some r' →
      ∀ s ∈ sel, ∃ a, attributeOf p s.1 a ∧ LooksUp a (cell data r idField) (cell o r' s.2) := by
  rw [Ops.lookupOutput.eq_def] at h
  cases hd : data.rows with
  | nil =>
    rw [hd] at h
    cases h
    exact ⟨rfl, by simp⟩
  | cons r0 rs =>
    rw [hd] at h
    rw [← hd]
    clear hd
    obtain ⟨k0, -, h⟩ := bind_eq_ok.1 h
    obtain ⟨c0, -, h⟩ := bind_eq_ok.1 h
    cases c0 with
    | scalar v0 =>
      simp only [Ops.lookupScalars] at h
      obtain ⟨ids, h1, h⟩ := bind_eq_ok.1 h
      obtain ⟨vals, h2, h⟩ := bind_eq_ok.1 h
      split at h
      · cases h
      cases h
      rw [foldl_mergedCols [] (by simpa using hsel), List.nil_append]
      refine ⟨rfl, ?_⟩
      intro k r r' hr hr' s hs
      rw [mapM_ok_iff] at h2
      obtain ⟨j, hj⟩ := List.mem_iff_getElem?.1 hs
      have hjl : j < vals.length := by
        rw [← h2.length_eq]
        exact (List.getElem?_eq_some_iff.1 hj).1
      have hv := Forall₂_get h2 hj (List.getElem?_eq_getElem hjl)
      rw [Population.getAttributeValues] at hv
      obtain ⟨a, ha, hv⟩ := bind_eq_ok.1 hv
      have haa := Dict.get?_mem (Population.get_eq_ok.1 ha)
      refine ⟨a, haa, ?_⟩
      rw [Attribute.getValues_ok_iff (hp.values _ haa)] at hv
      have hid := idColumn_forall h1
      have hkl : k < ids.length := by
        rw [← hid.length_eq]
        exact (List.getElem?_eq_some_iff.1 hr).1
      have hcell := Forall₂_get hid hr (List.getElem?_eq_getElem hkl)
      rw [hcell]
      have hkv : k < vals[j].length := by rw [← hv.length_eq]; exact hkl
      have hval := Forall₂_get hv (List.getElem?_eq_getElem hkl) (List.getElem?_eq_getElem hkv)
      have hr'' : r'.cells = vals.map fun v => v.getD k Cell.na := by
        rw [List.getElem?_map, List.getElem?_zipIdx] at hr'
        simp only [Option.map_map, Option.map_eq_some_iff] at hr'
        obtain ⟨i, -, rfl⟩ := hr'
        simp
      have : cell ⟨sel.map Prod.snd, data.index.zipIdx.map fun x =>
          ⟨x.1, vals.map fun v => v.getD x.2 Cell.na⟩⟩ r' s.2 = vals[j][k] := by
        refine cell_of_nodup (j := j) hsel ?_ ?_
        · simp [hj]
        · rw [hr'']
          simp [hjl, hkv]
      show Holds a _ _
      rw [this]
      exact hval
    | list vs0 =>
      simp only [Ops.lookupSequences] at h
      obtain ⟨cells, h0, h⟩ := bind_eq_ok.1 h
      obtain ⟨lists, h1, h⟩ := bind_eq_ok.1 h
      obtain ⟨cols, h2, h⟩ := bind_eq_ok.1 h
      rw [mapM_ok_iff] at h2
      have hkeys : cols.map Prod.fst = sel.map Prod.snd := by
        clear * - h2
        induction h2 with
        | nil => rfl
        | cons h _ ih =>
          obtain ⟨_, -, h⟩ := bind_eq_ok.1 h
          cases h
          rw [List.map_cons, List.map_cons, ih]
      rw [foldl_set_nodup [] (by rw [List.nil_append, hkeys]; exact hsel), List.nil_append] at h
      cases h
      refine ⟨hkeys, ?_⟩
      intro k r r' hr hr' s hs
      obtain ⟨j, hj⟩ := List.mem_iff_getElem?.1 hs
      have hjl : j < cols.length := by
        rw [← h2.length_eq]
        exact (List.getElem?_eq_some_iff.1 hj).1
      have hv := Forall₂_get h2 hj (List.getElem?_eq_getElem hjl)
      obtain ⟨colcells, hv1, hv2⟩ := bind_eq_ok.1 hv
      have hcolj : cols[j] = (s.2, colcells) := by
        exact (Except.ok.inj hv2).symm
      rw [mapM_ok_iff] at hv1
      rw [Frame.col_eq_map h0, mapM_ok_iff, List.forall₂_map_left_iff] at h1
      have hkl : k < lists.length := by
        rw [← h1.length_eq]
        exact (List.getElem?_eq_some_iff.1 hr).1
      have hlist := Forall₂_get h1 hr (List.getElem?_eq_getElem hkl)
      have hcl : k < colcells.length := by rw [← hv1.length_eq]; exact hkl
      have hval := Forall₂_get hv1 (List.getElem?_eq_getElem hkl) (List.getElem?_eq_getElem hcl)
      obtain ⟨vals, hval1, hval2⟩ := bind_eq_ok.1 hval
      obtain ⟨vs, hval3, hval4⟩ := bind_eq_ok.1 hval2
      rw [Population.getAttributeValues] at hval1
      obtain ⟨a, ha, hval1⟩ := bind_eq_ok.1 hval1
      have haa := Dict.get?_mem (Population.get_eq_ok.1 ha)
      refine ⟨a, haa, ?_⟩
      rw [Attribute.getValues_ok_iff (hp.values _ haa)] at hval1
      have hcl' : cell data r idField = .list lists[k] := by
        cases hc : cell data r idField with
        | scalar v => rw [hc] at hlist; cases hlist
        | list vs => rw [hc] at hlist; cases hlist; rfl
      rw [hcl']
      refine ⟨vs, ?_, ?_⟩
      · have hr'' : r'.cells = cols.map fun c => c.2.getD k Cell.na := by
          rw [List.getElem?_map, List.getElem?_zipIdx] at hr'
          simp only [Option.map_map, Option.map_eq_some_iff] at hr'
          obtain ⟨i, -, rfl⟩ := hr'
          simp
        have : cell ⟨Dict.keys cols, data.index.zipIdx.map fun x =>
            ⟨x.1, cols.map fun c => c.2.getD x.2 Cell.na⟩⟩ r' s.2 = colcells[k] := by
          refine cell_of_nodup (j := j) (by show (cols.map Prod.fst).Nodup; rw [hkeys]; exact hsel) ?_ ?_
          · show (cols.map Prod.fst)[j]? = _
            rw [hkeys]
            simp [hj]
          · rw [hr'']
            simp [hjl, hcolj, hcl]
        rw [this]
        exact (Except.ok.inj hval4).symm
      · rw [mapM_ok_iff] at hval3
        have : List.Forall₂ (fun c x => c = Cell.scalar x) vals vs := by
          refine hval3.imp ?_
          intro c x hx
          cases c with
          | scalar v => cases hx; rfl
          | list _ => cases hx
        clear * - hval1 this
        generalize lists[k] = l at hval1
        induction hval1 generalizing vs with
        | nil => cases this; exact .nil
        | cons h _ ih =>
          cases this with
          | cons h' t' =>
            subst h'
            exact .cons h (ih _ t')

/-- **C56** a lookup keeps the rows and their fields and adds to each row, for each attribute asked, the
value of the member the row's id field names; for fields holding lists of ids, the list of the values
in the same order. The world is unchanged. -/
theorem C56_lookup {pop : Nat} {idField : String} {sel : Dict String String} {data out : Frame}
    {logs : Logs} {w w' : World σ γ} {p : Population} (hp : w.pops[pop]? = some p)
    (hwf : Population.WF p) (hn : data.index.Nodup) (hr : Rect data)
    (hsel : (sel.map Prod.snd).Nodup) (hnew : ∀ s ∈ sel, s.2 ∉ data.cols)
    (h : Ops.lookup pop idField sel data w = .ok (out, logs) w') :
    w' = w ∧ logs = [] ∧ out.index = data.index ∧ out.cols = data.cols ++ sel.map Prod.snd ∧
    (∀ name ∈ data.cols, cellsOf out name = cellsOf data name) ∧
    ∀ (k : Nat) r r', data.rows[k]? = some r → out.rows[k]? = some r' → ∀ s ∈ sel,
      ∃ a, attributeOf p s.1 a ∧ LooksUp a (cell data r idField) (cell out r' s.2) := by
  obtain ⟨e1, e2, e3, -⟩ := C44_lookups hn h
  obtain ⟨o, h0, h1⟩ := addColumns_eq_ok.1 h
  obtain ⟨p', w1, h2, h3⟩ := Act.bind_eq_ok.1 h0
  obtain ⟨e4, rfl⟩ := getPop_eq_ok.1 h2
  obtain ⟨e5, rfl⟩ := Act.ofPy_eq_ok.1 h3
  obtain rfl : p' = p := Option.some.inj (e4.symm.trans hp)
  obtain ⟨hc, hcells⟩ := lookupOutput_cells hwf hsel e5
  have hdis : ∀ c ∈ data.cols, c ∉ o.cols := by
    intro c hc1 hc2
    rw [hc] at hc2
    obtain ⟨s, hs, rfl⟩ := List.mem_map.1 hc2
    exact hnew s hs hc1
  obtain ⟨f1, f2, f3⟩ := C43_fields_kept hn hr hdis h0 (lookupOutput_index e5) h
  obtain ⟨-, -, g1, g2, g3⟩ := C43_rows_kept hn h0 (lookupOutput_index e5) h
  refine ⟨rfl, e2, e3, by rw [f1, hc], f2, ?_⟩
  intro k r r' hk hk' s hs
  have hko : k < o.rows.length := by
    rw [g2]
    exact (List.getElem?_eq_some_iff.1 hk).1
  obtain ⟨a, ha, hl⟩ := hcells k r _ hk (List.getElem?_eq_getElem hko) s hs
  refine ⟨a, ha, ?_⟩
  have hsame := f3 s.2 (by rw [hc]; exact List.mem_map.2 ⟨s, hs, rfl⟩)
  rw [Frame.cellsOf_eq, Frame.cellsOf_eq] at hsame
  have := congrArg (fun l => l[k]?) hsame
  simp only [List.getElem?_map, hk', List.getElem?_eq_getElem hko, Option.map_some,
    Option.some.injEq] at this
  rw [this]
  exact hl

/-- **C56** an unknown id raises `KeyError` and leaves the world unchanged (fields holding ids). -/
theorem C56_unknown_id {pop : Nat} {idField : String} {sel : Dict String String} {data : Frame}
    {w : World σ γ} {p : Population} (hp : w.pops[pop]? = some p) (hr : Rect data)
    (hc : data.cols.Nodup) (hi : idField ∈ data.cols)
    (hs : ∀ r ∈ data.rows, ∃ v, cell data r idField = .scalar v) {r : Row} (hrow : r ∈ data.rows)
    {name as : String} (hsel : (name, as) ∈ sel)
    (hunk : ∀ a, attributeOf p name a → ¬ Knows a (idIn (cell data r idField))) :
    Ops.lookup pop idField sel data w = .error .keyError w := by
  have hid := idColumn_eq hr hc hi hs
  have hout : Ops.lookupOutput p idField sel data = .error .keyError := by
    rw [Ops.lookupOutput.eq_def]
    cases hd : data.rows with
    | nil => rw [hd] at hrow; cases hrow
    | cons r0 rs =>
      simp only
      obtain ⟨i, hpi, hil⟩ := Frame.pos_of_nodup hc hi
      have hm0 : r0 ∈ data.rows := by rw [hd]; simp
      obtain ⟨c0, hc0⟩ := Frame.cellAt_of_rect hr hm0 hil
      rw [hpi, bind_ok, hc0, bind_ok]
      obtain ⟨v0, hv0⟩ := hs r0 hm0
      rw [Frame.cell_of_pos hpi hc0] at hv0
      subst hv0
      simp only [Ops.lookupScalars]
      rw [hid, bind_ok]
      have hall : ∀ s : String × String, ∀ e, p.getAttributeValues s.1
          (data.rows.map fun r => idIn (cell data r idField)) = .error e → e = .keyError := by
        intro s e he
        rw [Population.getAttributeValues, Population.getAttribute, Dict.get] at he
        split at he
        · next a ha =>
          rw [bind_ok, Attribute.getValues] at he
          by_contra hne
          have hk : ∀ j e, Dict.get a.table j = .error e → e = .keyError := by
            intro j e
            rw [Dict.get]
            split
            · intro hj; cases hj
            · intro hj; cases hj; rfl
          exact hne (mapM_error_all (fun j _ => hk j) he)
        · cases he
          rfl
      have hone : p.getAttributeValues name
          (data.rows.map fun r => idIn (cell data r idField)) = .error .keyError := by
        rw [Population.getAttributeValues, Population.getAttribute, Dict.get]
        split
        · next a ha =>
          rw [bind_ok]
          exact Attribute.getValues_unknown (List.mem_map.2 ⟨r, hrow, rfl⟩)
            (hunk a (Dict.get?_mem ha))
        · rfl
      obtain ⟨e, he⟩ := mapM_error_of_mem (f := fun s : String × String =>
        p.getAttributeValues s.1 (data.rows.map fun r => idIn (cell data r idField))) hsel hone
      rw [he, mapM_error_all (fun s _ => hall s) he]
      rfl
  rw [Ops.lookup, Ops.addColumns]
  have h1 : (getPop pop : Act (World σ γ) Population) w = .ok p w := by
    rw [getPop, fetch, hp]
  have h2 : (do let p ← getPop pop; Act.ofPy (Ops.lookupOutput p idField sel data) :
      Act (World σ γ) Frame) w = .error .keyError w := by
    rw [Act.bind_ok h1]
    exact Act.ofPy_error hout w
  exact Act.bind_err h2

theorem mapM_isOk {α β : Type} {f : α → Py β} {l : List α} (h : ∀ a ∈ l, ∃ b, f a = .ok b) :
    ∃ r, l.mapM f = .ok r := by
  induction l with
  | nil => exact ⟨[], rfl⟩
  | cons a l ih =>
    obtain ⟨b, hb⟩ := h a (by simp)
    obtain ⟨r, hr⟩ := ih fun x hx => h x (by simp [hx])
    exact ⟨b :: r, by rw [List.mapM_cons, hb, bind_ok, hr, bind_ok]; rfl⟩

/-- **C56** an unknown id raises `KeyError` and leaves the world unchanged (fields holding lists of
ids; the model has no list of lists, so the looked up values must not be lists). -/
theorem C56_unknown_id_in_list {pop : Nat} {idField : String} {sel : Dict String String}
    {data : Frame} {w : World σ γ} {p : Population} (hp : w.pops[pop]? = some p) (hr : Rect data)
    (hc : data.cols.Nodup) (hi : idField ∈ data.cols)
    (hs : ∀ r ∈ data.rows, ∃ vs, cell data r idField = .list vs)
    (hscalar : ∀ s ∈ sel, ∀ a, attributeOf p s.1 a → ∀ v c, Holds a v c → ∃ x, c = .scalar x)
    {r : Row} (hrow : r ∈ data.rows) {vs : List Val} (hvs : cell data r idField = .list vs)
    {v : Val} (hv : v ∈ vs) {name as : String} (hsel : (name, as) ∈ sel)
    (hunk : ∀ a, attributeOf p name a → ¬ Knows a v) :
    Ops.lookup pop idField sel data w = .error .keyError w := by
  have hcol := Frame.col_total hr hc hi
  obtain ⟨cs, hcs⟩ : ∃ cs, cs = data.rows.map (cell data · idField) := ⟨_, rfl⟩
  rw [← hcs] at hcol
  have hlists : ∃ lists, cs.mapM Cell.asList = .ok lists ∧ vs ∈ lists := by
    have : ∀ c ∈ cs, ∃ l, c = Cell.list l := by
      intro c hc
      rw [hcs] at hc
      obtain ⟨r, hr, rfl⟩ := List.mem_map.1 hc
      exact hs r hr
    have hmem : Cell.list vs ∈ cs := by
      rw [hcs]
      exact List.mem_map.2 ⟨r, hrow, hvs⟩
    clear * - this hmem
    obtain ⟨lists, hl⟩ := mapM_isOk (f := Cell.asList) (l := cs) (by
      intro c hc
      obtain ⟨l, rfl⟩ := this c hc
      exact ⟨l, rfl⟩)
    refine ⟨lists, hl, ?_⟩
    rw [mapM_ok_iff] at hl
    obtain ⟨l, hm, hb⟩ := forall₂_exists_right hl hmem
    cases hb
    exact hm
  obtain ⟨lists, hlists, hmem⟩ := hlists
  have hget : ∀ (a : Attribute) j e, Dict.get a.table j = .error e → e = .keyError := by
    intro a j e
    rw [Dict.get]
    split
    · intro hj; cases hj
    · intro hj; cases hj; rfl
  have hout : Ops.lookupOutput p idField sel data = .error .keyError := by
    rw [Ops.lookupOutput.eq_def]
    cases hd : data.rows with
    | nil => rw [hd] at hrow; cases hrow
    | cons r0 rs =>
      simp only
      obtain ⟨i, hpi, hil⟩ := Frame.pos_of_nodup hc hi
      have hm0 : r0 ∈ data.rows := by rw [hd]; simp
      obtain ⟨c0, hc0⟩ := Frame.cellAt_of_rect hr hm0 hil
      rw [hpi, bind_ok, hc0, bind_ok]
      obtain ⟨v0, hv0⟩ := hs r0 hm0
      rw [Frame.cell_of_pos hpi hc0] at hv0
      subst hv0
      simp only [Ops.lookupSequences]
      rw [hcol, bind_ok, hlists, bind_ok]
      have hvals : ∀ (nm : String) ids e, p.getAttributeValues nm ids = .error e → e = .keyError := by
        intro nm ids e he
        rw [Population.getAttributeValues, Population.getAttribute, Dict.get] at he
        split at he
        · next a ha =>
          rw [bind_ok, Attribute.getValues] at he
          exact mapM_error_all (fun j _ => hget a j) he
        · cases he
          rfl
      have hone : ∀ s ∈ sel, ∀ ids e, (do
          let vals ← p.getAttributeValues s.1 ids
          .ok (Cell.list (← vals.mapM Cell.asVal)) : Py Cell) = .error e → e = .keyError := by
        intro s hs ids e he
        cases hg : p.getAttributeValues s.1 ids with
        | error e' =>
          rw [hg, bind_error] at he
          cases he
          exact hvals _ _ _ hg
        | ok vals =>
          rw [hg, bind_ok] at he
          rw [Population.getAttributeValues] at hg
          obtain ⟨a, ha, hg⟩ := bind_eq_ok.1 hg
          have haa := Dict.get?_mem (Population.get_eq_ok.1 ha)
          rw [Attribute.getValues, mapM_ok_iff] at hg
          obtain ⟨xs, hxs⟩ := mapM_isOk (f := Cell.asVal) (l := vals) (by
            intro c hc
            obtain ⟨j, -, hj⟩ := forall₂_exists_left hg hc
            obtain ⟨x, rfl⟩ := hscalar s hs a haa j c (Dict.get?_mem (Population.get_eq_ok.1 hj))
            exact ⟨x, rfl⟩)
          rw [hxs, bind_ok] at he
          cases he
      have hsome : ∃ e, (do
          let vals ← p.getAttributeValues name vs
          .ok (Cell.list (← vals.mapM Cell.asVal)) : Py Cell) = .error e := by
        rw [Population.getAttributeValues, Population.getAttribute, Dict.get]
        split
        · next a ha =>
          rw [bind_ok, Attribute.getValues_unknown hv (hunk a (Dict.get?_mem ha))]
          exact ⟨_, rfl⟩
        · exact ⟨_, rfl⟩
      obtain ⟨e0, he0⟩ := hsome
      have hcolE : ∀ s ∈ sel, ∀ e, (do
          let cells ← lists.mapM fun ids => do
            let vals ← p.getAttributeValues s.1 ids
            .ok (Cell.list (← vals.mapM Cell.asVal))
          .ok (s.2, cells) : Py (String × List Cell)) = .error e → e = .keyError := by
        intro s hs e he
        cases hg : (lists.mapM fun ids => (do
            let vals ← p.getAttributeValues s.1 ids
            .ok (Cell.list (← vals.mapM Cell.asVal)) : Py Cell)) with
        | error e' =>
          rw [hg, bind_error] at he
          cases he
          exact mapM_error_all (fun ids _ => hone s hs ids) hg
        | ok cells =>
          rw [hg, bind_ok] at he
          cases he
      obtain ⟨e1, he1⟩ := mapM_error_of_mem (f := fun ids => (do
            let vals ← p.getAttributeValues name ids
            .ok (Cell.list (← vals.mapM Cell.asVal)) : Py Cell)) hmem he0
      obtain ⟨e2, he2⟩ := mapM_error_of_mem (f := fun s : String × String => (do
          let cells ← lists.mapM fun ids => do
            let vals ← p.getAttributeValues s.1 ids
            .ok (Cell.list (← vals.mapM Cell.asVal))
          .ok (s.2, cells) : Py (String × List Cell))) hsel (e := e1) (by
            show (do
              let cells ← lists.mapM fun ids => do
                let vals ← p.getAttributeValues name ids
                .ok (Cell.list (← vals.mapM Cell.asVal))
              .ok (as, cells) : Py (String × List Cell)) = _
            rw [he1]
            rfl)
      rw [he2, mapM_error_all hcolE he2]
      rfl
  rw [Ops.lookup, Ops.addColumns]
  have h1 : (getPop pop : Act (World σ γ) Population) w = .ok p w := by
    rw [getPop, fetch, hp]
  have h2 : (do let p ← getPop pop; Act.ofPy (Ops.lookupOutput p idField sel data) :
      Act (World σ γ) Frame) w = .error .keyError w := by
    rw [Act.bind_ok h1]
    exact Act.ofPy_error hout w
  exact Act.bind_err h2

/-! ### Examples -/

/-- scalar ids, with a duplicate -/
example : ((Ops.lookup 0 "PAYER" [("AGE", "PAYER_AGE")]
    ⟨["PAYER"], [⟨.str "x", [.str "b"]⟩, ⟨.str "y", [.str "a"]⟩, ⟨.str "z", [.str "b"]⟩]⟩).value?
      exWorld).map (·.1) =
    some ⟨["PAYER", "PAYER_AGE"], [⟨.str "x", [.str "b", .num 40]⟩, ⟨.str "y", [.str "a", .num 30]⟩,
      ⟨.str "z", [.str "b", .num 40]⟩]⟩ := by decide +kernel

/-- lists of ids -/
example : ((Ops.lookup 0 "PAYERS" [("AGE", "AGES")]
    ⟨["PAYERS"], [⟨.str "x", [.list [.str "c", .str "a"]]⟩, ⟨.str "y", [.list []]⟩]⟩).value?
      exWorld).map (·.1) =
    some ⟨["PAYERS", "AGES"], [⟨.str "x", [.list [.str "c", .str "a"], .list [.num 50, .num 30]]⟩,
      ⟨.str "y", [.list [], .list []]⟩]⟩ := by decide +kernel

/-- an unknown id -/
example : (Ops.lookup 0 "PAYER" [("AGE", "PAYER_AGE")]
    ⟨["PAYER"], [⟨.str "x", [.str "b"]⟩, ⟨.str "y", [.str "zz"]⟩]⟩).raised? exWorld =
    some .keyError := by decide +kernel

end Trumania
