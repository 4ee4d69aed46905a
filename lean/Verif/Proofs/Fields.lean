import Verif.Spec.Fields
import Verif.Proofs.OpsRespect
import Verif.Proofs.OpsPops

/-! Helper lemmas on the fields that operations do not add. -/

namespace Trumania
open Spec
variable {σ γ : Type} {env : Env σ γ} {F Z : Nat → Prop} {name : String}
variable {A : String → Prop} {D : Nat → Prop} {L : String → Prop}

theorem Spec.OpWithin.builtIn {op : Op (World σ γ)} (h : OpWithin env F Z A D L op) :
    BuiltIn env F Z op := by
  induction h with
  | randomValues g n q _ _ => exact .adder (.randomValues g q)
  | randomValuesFromField g n q _ _ => exact .adder (.randomValuesFromField g q)
  | timestamp n r f _ => exact .adder (.timestamp r f)
  | neighbourhoodSize rel f n _ => exact .adder (.neighbourhoodSize rel f)
  | applySeries s n f _ => exact .adder (.applySeries s f)
  | effect h => exact .effect h
  | fieldLogger a b c _ => exact .fieldLogger a b c
  | dropRow f => exact .dropRow f
  | applyFrame s n f hf _ => exact .applyFrame s n f fun d r hd h => (hf d r h).1 hd
  | selectOne rel f n o p d weight _ => exact .selectOne rel f n o p d weight
  | selectAll rel f n _ => exact .selectAll rel f n
  | selectMany rel f n q p d _ => exact .selectMany rel f n q p d
  | lookup pop i sel _ _ => exact .lookup pop i sel
  | chain ops _ ih => exact .chain ops ih

theorem Spec.OpWithin.mono {A' : String → Prop} {D' : Nat → Prop} {L' : String → Prop}
    (hA : ∀ c, A c → A' c) (hD : ∀ c, D c → D' c) (hL : ∀ c, L c → L' c) {op : Op (World σ γ)}
    (h : OpWithin env F Z A D L op) : OpWithin env F Z A' D' L' op := by
  induction h with
  | randomValues g n q hn hg => exact .randomValues g n q (hA _ hn) fun j hj => hD j (hg j hj)
  | randomValuesFromField g n q hn hg =>
    exact .randomValuesFromField g n q (hA _ hn) fun j hj => hD j (hg j hj)
  | timestamp n r f hn => exact .timestamp n r f (hA _ hn)
  | neighbourhoodSize rel f n hn => exact .neighbourhoodSize rel f n (hA _ hn)
  | applySeries s n f hn => exact .applySeries s n f (hA _ hn)
  | effect h => exact .effect h
  | fieldLogger a b c hl => exact .fieldLogger a b c (hL _ hl)
  | dropRow f => exact .dropRow f
  | applyFrame s n f hf hn =>
    exact .applyFrame s n f
      (fun d r h => ⟨(hf d r h).1, (hf d r h).2.1, fun c hc => hA _ ((hf d r h).2.2 c hc)⟩)
      fun c hc => hA _ (hn c hc)
  | selectOne rel f n o p d weight hn => exact .selectOne rel f n o p d weight (hA _ hn)
  | selectAll rel f n hn => exact .selectAll rel f n (hA _ hn)
  | selectMany rel f n q p d hn => exact .selectMany rel f n q p d (hA _ hn)
  | lookup pop i sel hd hn => exact .lookup pop i sel hd fun s hs => hA _ (hn s hs)
  | chain ops _ ih => exact .chain ops ih

theorem mem_mergedCols {l r : List String} (hc : ∀ c ∈ r, Clear name c) :
    name ∈ Frame.mergedCols l r ↔ name ∈ l := by
  simp only [Frame.mergedCols, List.mem_append, List.mem_map]
  constructor
  · rintro (⟨c, h1, h2⟩ | ⟨c, h1, h2⟩)
    · split at h2
      · rename_i h
        exact absurd h2 (hc c h).2.1
      · exact h2 ▸ h1
    · split at h2
      · exact absurd h2 (hc c h1).2.2
      · exact absurd h2 (hc c h1).1
  · intro h
    refine .inl ⟨name, h, ?_⟩
    rw [if_neg]
    exact fun h' => (hc name h').1 rfl

theorem cell_merged {l : Frame} {r : List String} {a : Row} {x : List Cell} {rows : List Row}
    (ha : a.cells.length = l.cols.length) (hc : ∀ c ∈ r, Clear name c) (i : Val) :
    cell ⟨Frame.mergedCols l.cols r, rows⟩ ⟨i, a.cells ++ x⟩ name = cell l a name := by
  simp only [cell, Frame.mergedCols]
  rw [List.zip_append (by simp [ha]), List.find?_append]
  have h2 : ((r.map fun c => if c ∈ l.cols then c ++ "_y" else c).zip x).find?
      (fun x => decide (x.1 = name)) = none := by
    rw [List.find?_eq_none]
    rintro ⟨c, v⟩ hm
    obtain ⟨d, hd, e⟩ := List.mem_map.1 (List.of_mem_zip hm).1
    simp only [decide_eq_true_eq]
    rintro rfl
    split at e
    · exact (hc d hd).2.2 e
    · exact (hc d hd).1 e
  rw [h2, Option.or_none]
  have h1 : ((l.cols.map fun c => if c ∈ r then c ++ "_x" else c).zip a.cells).find?
      (fun x => decide (x.1 = name)) = (l.cols.zip a.cells).find? (fun x => decide (x.1 = name)) := by
    generalize l.cols = cols at ha ⊢
    generalize a.cells = cells at ha ⊢
    clear h2
    induction cols generalizing cells with
    | nil => rfl
    | cons c cols ih =>
      cases cells with
      | nil => rfl
      | cons v cells =>
        simp only [List.map_cons, List.zip_cons_cons, List.find?_cons]
        by_cases hr : c ∈ r
        · have h3 := hc c hr
          simp only [hr, if_true, h3.1, h3.2.1, decide_false]
          exact ih _ (by simpa using ha)
        · simp only [hr, if_false]
          by_cases hn : c = name
          · simp [hn]
          · simp only [hn, decide_false]
            exact ih _ (by simpa using ha)
  rw [h1]

theorem mergeIndex_kept {how : JoinKind} {l r : Frame} (hl : Rect l) (hr : Rect r)
    (hc : ∀ c ∈ r.cols, Clear name c) :
    Rect (l.mergeIndex how r) ∧ FieldKept name l (l.mergeIndex how r) := by
  have key : ∀ r' ∈ (l.mergeIndex how r).rows, ∃ a ∈ l.rows, ∃ x : List Cell,
      x.length = r.cols.length ∧ r' = ⟨a.idx, a.cells ++ x⟩ := by
    intro r' h'
    simp only [Frame.mergeIndex, List.mem_flatMap] at h'
    obtain ⟨a, ha, h'⟩ := h'
    refine ⟨a, ha, ?_⟩
    split at h'
    · cases how with
      | left =>
        simp only [List.mem_singleton] at h'
        exact ⟨_, by simp, h'⟩
      | inner => simp at h'
    · rw [List.mem_map] at h'
      obtain ⟨b, hb, rfl⟩ := h'
      rename_i ms hms
      have hb' : b ∈ r.rows.filter (fun b => decide (b.idx = a.idx)) := hb
      exact ⟨b.cells, hr b (List.mem_of_mem_filter hb'), rfl⟩
  constructor
  · intro r' h'
    obtain ⟨a, ha, x, hx, rfl⟩ := key r' h'
    simp [Frame.mergeIndex, Frame.mergedCols, hx, hl a ha]
  · refine ⟨mem_mergedCols hc, fun r' h' => ?_⟩
    obtain ⟨a, ha, x, hx, rfl⟩ := key r' h'
    exact ⟨a, ha, rfl, cell_merged (hl a ha) hc _⟩

theorem fieldKept_refl (data : Frame) : FieldKept name data data :=
  ⟨Iff.rfl, fun r hr => ⟨r, hr, rfl, rfl⟩⟩

theorem fieldKept_trans {a b c : Frame} (h1 : FieldKept name a b) (h2 : FieldKept name b c) :
    FieldKept name a c := by
  refine ⟨h2.1.trans h1.1, fun r hr => ?_⟩
  obtain ⟨r1, m1, e1, f1⟩ := h2.2 r hr
  obtain ⟨r2, m2, e2, f2⟩ := h1.2 r1 m1
  exact ⟨r2, m2, e2.trans e1, f1.trans f2⟩

theorem ofColumn_rect {ids : List Val} {n : String} {values : List Cell} {f : Frame}
    (h : Frame.ofColumn ids n values = .ok f) : Rect f := by
  rw [Frame.ofColumn] at h
  split at h
  · cases h
    intro r hr
    obtain ⟨k, hk, rfl⟩ := List.mem_iff_getElem.1 hr
    simp
  · cases h

theorem renamed_cols {r : Frame} {namedAs : List String} (h1 : ∀ c ∈ r.cols, Clear name c)
    (h2 : ∀ c ∈ namedAs, Clear name c) : ∀ c ∈ (Ops.renamed r namedAs).cols, Clear name c := by
  intro c hc
  simp only [Ops.renamed, List.mem_map] at hc
  obtain ⟨d, hd, rfl⟩ := hc
  have : ∀ (l : List (String × String)) (acc : Dict String String),
      (∀ x ∈ l, Clear name x.2) → (∀ k v, Dict.get? acc k = some v → Clear name v) →
      ∀ k v, Dict.get? (l.foldl (fun d x => d.set x.1 x.2) acc) k = some v → Clear name v := by
    intro l
    induction l with
    | nil => intro acc _ h; exact h
    | cons x l ih =>
      intro acc hl hacc
      refine ih _ (fun y hy => hl y (by simp [hy])) ?_
      intro k v hv
      rw [Dict.get?_set] at hv
      split at hv
      · cases hv; exact hl x (by simp)
      · exact hacc k v hv
  cases hg : Dict.get? ((r.cols.zip namedAs).foldl (fun d x => d.set x.1 x.2) []) d with
  | none => simpa using h1 d hd
  | some v =>
    simpa using this _ [] (fun x hx => h2 _ (List.of_mem_zip hx).2) (by simp) d v hg

theorem lookup_cols_distinct {l : List String} (acc : List String) (h : (acc ++ l).Nodup) :
    l.foldl (fun cols s => Frame.mergedCols cols [s]) acc = acc ++ l := by
  induction l generalizing acc with
  | nil => simp
  | cons s l ih =>
    rw [List.foldl_cons]
    have e : Frame.mergedCols acc [s] = acc ++ [s] := by
      refine Frame.mergedCols_disjoint ?_
      intro c hc hs
      rw [List.mem_singleton] at hs
      subst hs
      rw [List.nodup_append] at h
      exact h.2.2 c hc c (by simp) rfl
    rw [e, ih _ (by simpa using h)]
    simp

theorem lookupOutput_cols {p : Population} {i : String} {sel : Dict String String} {data o : Frame}
    (hd : (sel.map Prod.snd).Nodup) (h : Ops.lookupOutput p i sel data = .ok o) :
    Rect o ∧ ∀ c ∈ o.cols, c ∈ sel.map Prod.snd := by
  rw [Ops.lookupOutput.eq_def] at h
  cases hr : data.rows with
  | nil =>
    rw [hr] at h
    cases h
    exact ⟨by intro r hr; simp at hr, fun c hc => hc⟩
  | cons r rs =>
    rw [hr] at h
    obtain ⟨k, -, h⟩ := bind_eq_ok.1 h
    obtain ⟨c, -, h⟩ := bind_eq_ok.1 h
    cases c with
    | list vs =>
      simp only [Ops.lookupSequences] at h
      obtain ⟨_, -, h⟩ := bind_eq_ok.1 h
      obtain ⟨lists, -, h⟩ := bind_eq_ok.1 h
      obtain ⟨cols, h2, h⟩ := bind_eq_ok.1 h
      cases h
      constructor
      · intro r hr
        obtain ⟨x, -, rfl⟩ := List.mem_map.1 hr
        simp [Dict.keys]
      · intro c hc
        have hk : ∀ (l : List (String × List Cell)) (acc : Dict String (List Cell)) (c : String),
            c ∈ (l.foldl (fun d c => d.set c.1 c.2) acc).keys → c ∈ acc.keys ∨ c ∈ l.map Prod.fst := by
          intro l
          induction l with
          | nil => intro acc c h; exact .inl h
          | cons x l ih =>
            intro acc c h
            rcases ih _ _ h with h | h
            · rw [Dict.keys_set] at h
              split at h
              · exact .inl h
              · rcases List.mem_append.1 h with h | h
                · exact .inl h
                · exact .inr (by simp [List.mem_singleton.1 h])
            · exact .inr (by simp only [List.map_cons, List.mem_cons]; exact .inr h)
        rcases hk _ _ _ hc with h | h
        · simp [Dict.keys] at h
        · obtain ⟨x, hx, rfl⟩ := List.mem_map.1 h
          rw [mapM_ok_iff] at h2
          obtain ⟨s, hs, he⟩ := forall₂_exists_left h2 hx
          obtain ⟨cells, -, he⟩ := bind_eq_ok.1 he
          cases he
          exact List.mem_map_of_mem hs
    | scalar v =>
      simp only [Ops.lookupScalars] at h
      obtain ⟨ids, -, h⟩ := bind_eq_ok.1 h
      obtain ⟨vals, h2, h⟩ := bind_eq_ok.1 h
      split at h
      · cases h
      · cases h
        have e : sel.foldl (fun cols s => Frame.mergedCols cols [s.2]) [] = sel.map Prod.snd := by
          have := lookup_cols_distinct (l := sel.map Prod.snd) [] (by simpa using hd)
          rw [List.foldl_map] at this
          simpa using this
        rw [mapM_ok_iff] at h2
        constructor
        · intro r hr
          obtain ⟨x, -, rfl⟩ := List.mem_map.1 hr
          simp [e, h2.length_eq]
        · intro c hc
          simpa [e] using hc

theorem adder_kept {n : String} {op : Op (World σ γ)} (hop : ColumnAdder env n op) (hn : Clear name n)
    {data : Frame} {out : Frame × Logs} {w w' : World σ γ} (h : op data w = .ok out w')
    (hr : Rect data) : Rect out.1 ∧ FieldKept name data out.1 := by
  obtain ⟨added, values, h1, rfl⟩ := columnAdder_spec hop h
  refine mergeIndex_kept hr (ofColumn_rect h1) ?_
  rw [(Frame.ofColumn_ok h1).2.1]
  simpa using hn

theorem within_kept {op : Op (World σ γ)} (hA : ∀ c, A c → Clear name c)
    (hop : OpWithin env F Z A D L op) :
    ∀ {data : Frame} {out : Frame × Logs} {w w' : World σ γ}, op data w = .ok out w' →
      Rect data → Rect out.1 ∧ FieldKept name data out.1 := by
  induction hop with
  | randomValues g n q hn _ => exact adder_kept (.randomValues g q) (hA _ hn)
  | randomValuesFromField g n q hn _ => exact adder_kept (.randomValuesFromField g q) (hA _ hn)
  | timestamp n r f hn => exact adder_kept (.timestamp r f) (hA _ hn)
  | neighbourhoodSize rel f n hn => exact adder_kept (env := env) (.neighbourhoodSize rel f) (hA _ hn)
  | applySeries s n f hn => exact adder_kept (env := env) (.applySeries s f) (hA _ hn)
  | effect hop =>
    intro data out w w' h hr
    rw [sideEffect_spec hop h]
    exact ⟨hr, fieldKept_refl _⟩
  | fieldLogger logId cols exploded _ =>
    intro data out w w' h hr
    rw [Ops.fieldLogger] at h
    obtain ⟨_, w1, -, h⟩ := Act.bind_eq_ok.1 h
    rw [Act.pure_eq_ok] at h
    rw [← h.1]
    exact ⟨hr, fieldKept_refl _⟩
  | dropRow field =>
    intro data out w w' h hr
    obtain ⟨-, o, h0, rfl⟩ := transform_eq_ok.1 h
    rw [Ops.dropRows] at h0
    obtain ⟨c, -, h⟩ := bind_eq_ok.1 h0
    obtain ⟨b, -, h⟩ := bind_eq_ok.1 h
    cases h
    have := (Frame.mask_rows_sublist data (b.map (!·))).subset
    exact ⟨fun r h => hr r (this h), Iff.rfl, fun r h => ⟨r, this h, rfl, rfl⟩⟩
  | applyFrame sources namedAs f hf hn =>
    intro data out w w' h hr
    obtain ⟨o, h0, rfl⟩ := addColumns_eq_ok.1 h
    clear h
    obtain ⟨s, hs, h⟩ := bind_eq_ok.1 (Act.ofPy_eq_ok.1 h0).1
    obtain ⟨r, h1, h⟩ := bind_eq_ok.1 h
    cases h
    obtain ⟨-, h3, h4⟩ := hf s r h1
    replace h3 := h3 (Frame.select_rect hs)
    refine mergeIndex_kept hr ?_
      (renamed_cols (fun c hc => hA _ (h4 c hc)) fun c hc => hA _ (hn c hc))
    intro x hx
    have := h3 x hx
    simpa [Ops.renamed] using this
  | selectOne rel f n o p d weight hn =>
    intro data out w w' h hr
    obtain ⟨froms, r, r', rows, h1, -, h3, -, rfl⟩ := selectOne_eq_ok h
    refine mergeIndex_kept hr ?_ (by simpa using hA _ hn)
    intro x hx
    obtain ⟨y, -, rfl⟩ := List.mem_map.1 hx
    rfl
  | selectAll rel f n hn =>
    intro data out w w' h hr
    obtain ⟨froms, r, h1, -, -, rfl⟩ := selectAll_eq_ok h
    have key : ∀ r' ∈ (Ops.mergeLists data froms n
        (r.select_all_horizontal env.orders (uniq froms))).rows, ∃ a ∈ data.rows, ∃ v,
        r' = ⟨a.idx, a.cells ++ [v]⟩ := by
      intro r' h'
      simp only [Ops.mergeLists, List.mem_flatMap] at h'
      obtain ⟨f, -, h'⟩ := h'
      split at h'
      · simp at h'
      · obtain ⟨x, hx, rfl⟩ := List.mem_map.1 h'
        exact ⟨x.1, (List.of_mem_zip (List.mem_of_mem_filter hx)).1, _, rfl⟩
    constructor
    · intro r' h'
      obtain ⟨a, ha, v, rfl⟩ := key r' h'
      simp [Ops.mergeLists, Frame.mergedCols, hr a ha]
    · refine ⟨mem_mergedCols (by simpa using hA _ hn), fun r' h' => ?_⟩
      obtain ⟨a, ha, v, rfl⟩ := key r' h'
      exact ⟨a, ha, rfl, cell_merged (hr a ha) (by simpa using hA _ hn) _⟩
  | selectMany rel f n q p d hn =>
    intro data out w w' h hr
    obtain ⟨froms, qties, r, r', rows, h1, h2, -, h3, -, rfl⟩ := selectMany_eq_ok h
    refine mergeIndex_kept hr ?_ (by simpa using hA _ hn)
    intro x hx
    obtain ⟨y, -, rfl⟩ := List.mem_map.1 hx
    rfl
  | lookup pop i sel hd hn =>
    intro data out w w' h hr
    obtain ⟨o, h0, rfl⟩ := addColumns_eq_ok.1 h
    clear h
    obtain ⟨p, w1, -, h⟩ := Act.bind_eq_ok.1 h0
    obtain ⟨h1, h2⟩ := lookupOutput_cols hd (Act.ofPy_eq_ok.1 h).1
    refine mergeIndex_kept hr h1 fun c hc => ?_
    obtain ⟨s, hs, rfl⟩ := List.mem_map.1 (h2 c hc)
    exact hA _ (hn s hs)
  | chain ops _ ih =>
    intro data out w w' h hr
    rw [World.chain] at h
    have : ∀ {l : List (Op (World σ γ))} {acc : Frame × Logs} {w : World σ γ},
        (∀ op ∈ l, op ∈ ops) → World.runOps env.logSet acc l w = .ok out w' → Rect acc.1 →
        Rect out.1 ∧ FieldKept name acc.1 out.1 := by
      intro l
      induction l with
      | nil =>
        intro acc w _ h hr
        rw [World.runOps, Act.pure_eq_ok] at h
        rw [← h.1]
        exact ⟨hr, fieldKept_refl _⟩
      | cons op l ihl =>
        intro acc w hl h hr
        rw [World.runOps, Act.bind_eq_ok] at h
        obtain ⟨acc1, w1, h1, h⟩ := h
        obtain ⟨supp, h2, -⟩ := World.executeOperation_eq_ok h1
        obtain ⟨e1, e2⟩ := ih op (hl op (by simp)) h2 hr
        obtain ⟨e3, e4⟩ := ihl (fun o ho => hl o (by simp [ho])) h e1
        exact ⟨e3, fieldKept_trans e2 e4⟩
    exact this (fun _ h => h) h hr

/-! ### The log ids -/

theorem within_logs {op : Op (World σ γ)} (hop : OpWithin env F Z A D L op) {id : String} (hid : ¬ L id) :
    ∀ {data : Frame} {out : Frame × Logs} {w w' : World σ γ}, op data w = .ok out w' →
      out.2.get? id = none := by
  have add : ∀ {n : String} {op : Op (World σ γ)}, ColumnAdder env n op →
      ∀ {data : Frame} {out : Frame × Logs} {w w' : World σ γ}, op data w = .ok out w' →
      out.2.get? id = none := by
    intro n op hop data out w w' h
    obtain ⟨_, _, -, rfl⟩ := columnAdder_spec hop h
    rfl
  induction hop with
  | randomValues g n q _ _ => exact add (.randomValues g q)
  | randomValuesFromField g n q _ _ => exact add (.randomValuesFromField g q)
  | timestamp n r f _ => exact add (.timestamp r f)
  | neighbourhoodSize rel f n _ => exact add (.neighbourhoodSize rel f)
  | applySeries s n f _ => exact add (.applySeries s f)
  | effect hop =>
    intro data out w w' h
    rw [sideEffect_spec hop h]
    rfl
  | fieldLogger logId cols exploded hl =>
    intro data out w w' h
    rw [Ops.fieldLogger] at h
    obtain ⟨_, w1, -, h⟩ := Act.bind_eq_ok.1 h
    rw [Act.pure_eq_ok] at h
    rw [← h.1]
    have : logId ≠ id := fun e => hid (e ▸ hl)
    simp [Dict.get?, this]
  | dropRow field =>
    intro data out w w' h
    obtain ⟨-, o, -, rfl⟩ := transform_eq_ok.1 h
    rfl
  | applyFrame sources namedAs f hf hn =>
    intro data out w w' h
    obtain ⟨o, -, rfl⟩ := addColumns_eq_ok.1 h
    rfl
  | selectOne rel f n o p d weight hn =>
    intro data out w w' h
    obtain ⟨froms, r, r', rows, -, -, -, -, rfl⟩ := selectOne_eq_ok h
    rfl
  | selectAll rel f n hn =>
    intro data out w w' h
    obtain ⟨froms, r, -, -, -, rfl⟩ := selectAll_eq_ok h
    rfl
  | selectMany rel f n q p d hn =>
    intro data out w w' h
    obtain ⟨froms, qties, r, r', rows, -, -, -, -, -, rfl⟩ := selectMany_eq_ok h
    rfl
  | lookup pop i sel hd hn =>
    intro data out w w' h
    obtain ⟨o, -, rfl⟩ := addColumns_eq_ok.1 h
    rfl
  | chain ops _ ih =>
    intro data out w w' h
    rcases runs_or_raises ops data w with ⟨out', ls, w1, h1⟩ | ⟨e, w1, h1⟩
    · obtain ⟨g, e1, e2, e3⟩ := runOps_of_runs (so := env.logSet) h1 (acc := []) List.nodup_nil []
        (fun _ => rfl)
      have e1 : World.chain env.logSet ops data w = .ok (out', g) w1 := e1
      rw [e1] at h
      cases h
      rw [e3 id]
      have : ∀ {l : List (Op (World σ γ))} {d out : Frame} {w w' : World σ γ} {ls : List Logs},
          (∀ op ∈ l, op ∈ ops) → Runs l d w out ls w' → ls.filterMap (·.get? id) = [] := by
        intro l d out w w' ls hl h
        clear h1 e1 e2 e3
        induction h with
        | nil => rfl
        | cons h _ ih' =>
          rw [List.filterMap_cons, ih _ (hl _ (by simp)) h]
          exact ih' fun o ho => hl o (by simp [ho])
      rw [List.nil_append, this (fun _ h => h) h1]
      rfl
    · have e1 : World.chain env.logSet ops data w = .error e w1 := runOps_of_raises h1 []
      rw [e1] at h
      cases h

/-! ### The generators -/

theorem api_gen_at {F' Z' : Nat → Val → Prop} {i : Nat} {c : Option γ} {w w' : World σ γ}
    (h : Api env F' Z' (fun gens => gens[i]? = c) w w') (hw : NoTimerUses i w) (hc : w.gens[i]? = c) :
    w'.gens[i]? = c := by
  cases h with
  | rest h hG => exact hG hc
  | force ht hF h => exact hc
  | reset ht hZ h =>
    obtain ⟨t, t', w1, h1, h2, rfl⟩ := World.resetTimers_eq_ok.1 h
    change w1.gens[i]? = c
    obtain ⟨-, -, -, -, -, -, h7⟩ := World.resetStory_ok h2
    rcases h7 with ⟨-, -, rfl⟩ | ⟨_, _, _, -, -, -, h, -⟩
    · exact hc
    · rw [World.call_gens_other (hw t (List.mem_of_getElem? h1)) h]
      exact hc
  | transit ht h => exact hc
  | back ht h => exact hc

/-- what no call changes in the stories -/
def SameStories (w w' : World σ γ) : Prop :=
  List.Forall₂ World.SameStatic w.stories w'.stories

theorem api_same {F' Z' : Nat → Val → Prop} {G : List γ → Prop} {w w' : World σ γ}
    (h : Api env F' Z' G w w') : SameStories w w' := by
  have h' : Api env F' Z' anyGens w w' := by
    cases h with
    | rest h _ => exact .rest h fun _ => trivial
    | force a b c => exact .force a b c
    | reset a b c => exact .reset a b c
    | transit a b => exact .transit a b
    | back a b => exact .back a b
  rw [SameStories, List.forall₂_iff_get]
  cases hl : w.stories with
  | nil =>
    cases h' with
    | rest h _ => rw [h, hl]; simp
    | force ht _ _ => rw [hl] at ht; simp at ht
    | reset ht _ _ => rw [hl] at ht; simp at ht
    | transit ht _ => rw [hl] at ht; simp at ht
    | back ht _ => rw [hl] at ht; simp at ht
  | cons s l =>
    rw [← hl]
    have h0 : w.stories[0]? = some s := by rw [hl]; rfl
    refine ⟨(World.api_story h' trivial h0).1.symm, fun k h1 h2 => ?_⟩
    obtain ⟨-, s', e1, e2⟩ := World.api_story h' trivial (List.getElem?_eq_getElem h1)
    have : w'.stories[k] = s' := by
      rw [List.getElem?_eq_getElem h2] at e1
      exact Option.some.inj e1
    simp only [List.get_eq_getElem, this]
    exact e2.static

theorem SameStories.trans {w1 w2 w3 : World σ γ} (h1 : SameStories w1 w2) (h2 : SameStories w2 w3) :
    SameStories w1 w3 := forall₂_trans (fun _ _ _ a b => a.trans b) h1 h2

theorem SameStories.refl (w : World σ γ) : SameStories w w := forall₂_refl World.SameStatic.refl _

/-- a property of the constant part of stories remains -/
theorem SameStories.forall {w w' : World σ γ} {P : Story σ → Prop} (h : SameStories w w')
    (hP : ∀ s s', World.SameStatic s s' → P s → P s') (hw : ∀ s ∈ w.stories, P s) :
    ∀ s ∈ w'.stories, P s := by
  intro s' hs'
  obtain ⟨s, hs, h1⟩ := forall₂_exists_left h hs'
  exact hP s s' h1 (hw s hs)

theorem SameStories.noTimer {w w' : World σ γ} {i : Nat} (h : SameStories w w')
    (hw : NoTimerUses i w) : NoTimerUses i w' :=
  h.forall (P := fun s => i ∉ refs s.timerGen) (fun s s' e hi => by rw [e.1]; exact hi) hw

theorem apis_gen_at {F' Z' : Nat → Val → Prop} {i : Nat} {c : Option γ} {w w' : World σ γ}
    (h : Apis env F' Z' (fun gens => gens[i]? = c) w w') :
    SameStories w w' ∧ (NoTimerUses i w → w.gens[i]? = c → w'.gens[i]? = c) := by
  induction h with
  | refl => exact ⟨.refl _, fun _ h => h⟩
  | tail _ h ih =>
    obtain ⟨h1, h2⟩ := ih
    exact ⟨h1.trans (api_same h), fun hw hc => api_gen_at h (h1.noTimer hw) (h2 hw hc)⟩

theorem within_respects {i : Nat} (hi : ¬ D i) (c : Option γ) {op : Op (World σ γ)}
    (hop : OpWithin env F Z A D L op) :
    Respects env (fun j _ => F j) (fun j _ => Z j) (fun gens => gens[i]? = c) op := by
  have call : ∀ {g : GenRef} {q : World.Request} {w w' : World σ γ} {cells : List Cell},
      (∀ j ∈ refs g, D j) → World.call env g q w = .ok cells w' →
      Api env (fun j _ => F j) (fun j _ => Z j) (fun gens => gens[i]? = c) w w' := by
    intro g q w w' cells hg h
    refine .rest (World.call_sameRest h).1 fun hc => ?_
    rw [World.call_gens_other (fun hj => hi (hg i hj)) h]
    exact hc
  induction hop with
  | randomValues g n q hn hg =>
    intro data w out w' h
    obtain ⟨o, h1, -⟩ := addColumns_eq_ok.1 h
    obtain ⟨v, w1, h2, h3⟩ := Act.bind_eq_ok.1 h1
    obtain ⟨-, rfl⟩ := Act.ofPy_eq_ok.1 h3
    cases q with
    | none => exact .single (call hg h2)
    | some f =>
      obtain ⟨_, w1, k1, k2⟩ := Act.bind_eq_ok.1 h2
      obtain ⟨_, w2, k3, k4⟩ := Act.bind_eq_ok.1 k2
      obtain ⟨_, w3, k5, k6⟩ := Act.bind_eq_ok.1 k4
      obtain ⟨-, rfl⟩ := Act.ofPy_eq_ok.1 k1
      obtain ⟨-, rfl⟩ := Act.ofPy_eq_ok.1 k5
      obtain ⟨-, rfl⟩ := Act.pure_eq_ok.1 k6
      exact .single (call hg k3)
  | randomValuesFromField g n f hn hg =>
    intro data w out w' h
    obtain ⟨o, h1, -⟩ := addColumns_eq_ok.1 h
    obtain ⟨_, w1, h0, h2⟩ := Act.bind_eq_ok.1 h1
    obtain ⟨v, w2, h4, h3⟩ := Act.bind_eq_ok.1 h2
    obtain ⟨-, rfl⟩ := Act.ofPy_eq_ok.1 h0
    obtain ⟨-, rfl⟩ := Act.ofPy_eq_ok.1 h3
    exact .single (call hg h4)
  | timestamp n r f hn =>
    intro data w out w' h
    obtain ⟨o, h1, -⟩ := addColumns_eq_ok.1 h
    obtain ⟨wa, w1, h0, h2⟩ := Act.bind_eq_ok.1 h1
    obtain ⟨⟨d, c'⟩, w2, h4, h3⟩ := Act.bind_eq_ok.1 h2
    obtain ⟨_, w3, h5, h6⟩ := Act.bind_eq_ok.1 h3
    obtain ⟨-, rfl⟩ := Act.ofPy_eq_ok.1 h6
    obtain ⟨e4, rfl⟩ := Act.ofPy_eq_ok.1 h4
    cases h0
    cases h5
    refine .single (.rest rfl ?_)
    have : c'.listeners = w.clock.listeners := by
      rw [Clock.getTimestamp] at e4
      split at e4
      · obtain ⟨⟨secs, s'⟩, -, h7⟩ := bind_eq_ok.1 e4
        cases h7
        rfl
      · cases e4
        rfl
    simp only [World.gens, this, imp_self]
  | neighbourhoodSize rel f n hn =>
    intro data w out w' h
    obtain ⟨o, h1, -⟩ := addColumns_eq_ok.1 h
    obtain ⟨_, w1, h2, h3⟩ := Act.bind_eq_ok.1 h1
    obtain ⟨_, w2, h4, h5⟩ := Act.bind_eq_ok.1 h3
    obtain ⟨-, rfl⟩ := Act.ofPy_eq_ok.1 h2
    obtain ⟨-, rfl⟩ := World.getRel_eq_ok.1 h4
    obtain ⟨-, rfl⟩ := Act.ofPy_eq_ok.1 h5
    exact .refl
  | applySeries s n f hn =>
    intro data w out w' h
    obtain ⟨o, h1, -⟩ := addColumns_eq_ok.1 h
    obtain ⟨-, rfl⟩ := Act.ofPy_eq_ok.1 h1
    exact .refl
  | effect hop => exact fun data w out w' h => .single (sideEffect_api hop h)
  | fieldLogger logId cols exploded _ =>
    intro data w out w' h
    obtain ⟨_, w1, h1, h⟩ := Act.bind_eq_ok.1 h
    obtain ⟨-, rfl⟩ := Act.ofPy_eq_ok.1 h1
    obtain ⟨-, rfl⟩ := Act.pure_eq_ok.1 h
    exact .refl
  | dropRow field =>
    intro data w out w' h
    obtain ⟨rfl, -⟩ := transform_eq_ok.1 h
    exact .refl
  | applyFrame sources namedAs f hf _ =>
    intro data w out w' h
    obtain ⟨o, h1, -⟩ := addColumns_eq_ok.1 h
    obtain ⟨-, rfl⟩ := Act.ofPy_eq_ok.1 h1
    exact .refl
  | selectOne rel f name o p d weight _ =>
    intro data w out w' h
    obtain ⟨_, _, _, _, -, -, -, rfl, -⟩ := selectOne_eq_ok h
    exact .single (.rest rfl id)
  | selectAll rel f name _ =>
    intro data w out w' h
    obtain ⟨_, _, -, -, rfl, -⟩ := selectAll_eq_ok h
    exact .refl
  | selectMany rel f name q p d _ =>
    intro data w out w' h
    obtain ⟨_, _, _, _, _, -, -, -, -, rfl, -⟩ := selectMany_eq_ok h
    exact .single (.rest rfl id)
  | lookup pop i sel _ _ =>
    intro data w out w' h
    obtain ⟨o, h1, -⟩ := addColumns_eq_ok.1 h
    obtain ⟨p, w1, h2, h3⟩ := Act.bind_eq_ok.1 h1
    obtain ⟨-, rfl⟩ := World.getPop_eq_ok.1 h2
    obtain ⟨-, rfl⟩ := Act.ofPy_eq_ok.1 h3
    exact .refl
  | chain ops _ ih =>
    intro data w out w' h
    exact World.runOps_apis ih h

theorem within_gens {i : Nat} (hi : ¬ D i) {op : Op (World σ γ)} (hop : OpWithin env F Z A D L op)
    {data : Frame} {out : Frame × Logs} {w w' : World σ γ} (h : op data w = .ok out w') :
    SameStories w w' ∧ (NoTimerUses i w → w'.gens[i]? = w.gens[i]?) := by
  obtain ⟨h1, h2⟩ := apis_gen_at (within_respects hi (w.gens[i]?) hop _ _ _ _ h)
  exact ⟨h1, fun hw => h2 hw rfl⟩

/-! ### Executions -/

theorem sameStories_set {w : World σ γ} {j : Nat} {s s' : Story σ} (hs : w.stories[j]? = some s)
    (h : World.SameStatic s s') : SameStories w { w with stories := w.stories.set j s' } :=
  forall₂_set World.SameStatic.refl hs h

/-- what an execution does to the generators and to the constant part of the stories, besides its
operations -/
theorem execute_gen_at {ops : List (Op (World σ γ))} {i j : Nat} {w w' : World σ γ} {logs : Logs}
    (h : World.execute env ops j w = .ok logs w') :
    ∃ s w1, w.stories[j]? = some s ∧ SameStories w (started w j s) ∧ AfterOps env ops j w logs w1 ∧
      SameStories w1 w' ∧ (NoTimerUses i w1 → w'.gens[i]? = w1.gens[i]?) := by
  obtain ⟨s0, w0, s1, s', hs, hafter, hs1, e1, -, e3, e4, -⟩ := World.execute_ok h
  refine ⟨s0, w0, hs, sameStories_set hs ⟨rfl, rfl⟩, hafter, ?_, ?_⟩
  · rw [SameStories, e1]
    refine forall₂_set World.SameStatic.refl hs1 ⟨?_, e4⟩
    rw [e3]
  · simp only [World.execute, Act.bind_eq_ok, World.onStory_eq_ok, World.getStory_eq_ok,
      Act.pure_eq_ok] at h
    obtain ⟨_, _, ⟨s, _, hs, h1, rfl⟩, _, _, ⟨hs0, rfl⟩, lg, w2, hrun, _, _,
      ⟨s2, s', hs2, htick, rfl⟩, rfl, rfl⟩ := h
    cases h1
    rw [List.getElem?_set_self (List.getElem?_eq_some_iff.1 hs).1] at hs0
    cases hs0
    change NoTimerUses i w0 → w2.gens[i]? = _
    rw [World.runActive] at hrun
    split at hrun
    · rename_i hact
      rw [Act.pure_eq_ok] at hrun
      obtain ⟨rfl, rfl⟩ := hrun
      obtain ⟨-, rfl⟩ := World.afterOps_unique hafter
        ⟨s, hs, .inl ⟨Story.actingRows_eq_nil.2 hact, rfl, rfl⟩⟩
      exact fun _ => rfl
    · rename_i hact
      simp only [Act.bind_eq_ok] at hrun
      obtain ⟨⟨fr, lg'⟩, w1, hchain, hrun⟩ := hrun
      simp only [Act.bind_eq_ok, World.reschedule, Act.pure_eq_ok, World.getStory_eq_ok] at hrun
      obtain ⟨_, w2', ⟨s1, _, ⟨hs1, rfl⟩, hre⟩, rfl, rfl⟩ := hrun
      have h2 : AfterOps env ops j w lg' w1 := by
        refine ⟨s, hs, .inr ⟨fun h => hact (Story.actingRows_eq_nil.1 h), fr, ?_⟩⟩
        rw [← Story.initStoryData_eq]
        exact hchain
      obtain ⟨-, rfl⟩ := World.afterOps_unique hafter h2
      intro hw
      split at hre
      · obtain ⟨t, t', w3, h1, h2, rfl⟩ := World.resetTimers_eq_ok.1 hre
        obtain ⟨-, -, -, -, -, -, h7⟩ := World.resetStory_ok h2
        change w3.gens[i]? = _
        rcases h7 with ⟨-, -, rfl⟩ | ⟨_, _, _, -, -, -, h, -⟩
        · rfl
        · exact World.call_gens_other (hw t (List.mem_of_getElem? h1)) h
      · obtain ⟨t, t', -, -, rfl⟩ := World.onStory_eq_ok.1 hre
        rfl

end Trumania
