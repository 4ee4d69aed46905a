import Verif.Proofs.Stock
import Verif.Props.Trigger

/-!
# Property C100 (items move between stocks without being lost or duplicated)
-/

namespace Trumania
open Spec World Relationship
variable {σ γ : Type} {env : Env σ γ} {stocks : List Nat}

theorem col_mem {data : Frame} {field : String} {cs : List Cell}
    (h : data.col field = .ok cs) : field ∈ data.cols := by
  obtain ⟨i, h6, -⟩ := bind_eq_ok.1 h
  by_contra hn
  have : data.positions field = [] := by
    rw [Frame.positions, List.map_eq_nil_iff, List.filter_eq_nil_iff]
    rintro ⟨c, k⟩ hc he
    simp only [decide_eq_true_eq] at he
    subst he
    exact hn (List.fst_mem_of_mem_zipIdx hc)
  rw [Frame.pos, this] at h6
  cases h6

theorem idColumn_mem {data : Frame} {field : String} {ids : List Val}
    (h : Ops.idColumn data field = .ok ids) : field ∈ data.cols := by
  obtain ⟨cs, h5, -⟩ := bind_eq_ok.1 h
  exact col_mem h5

/-- **C100** one item per row, popped from a stock and added to a stock: the giver of a row loses the item
and the taker of the row gets it, and no other pair of any stock changes. The item was held by the giver. -/
theorem C100_items_change_hands {a b : Nat} {giver taker item : String} {o2o : Bool}
    {weight : Option (Dict Val Rat)} {mid : List (Op (World σ γ))} (ha : a ∈ stocks) (hb : b ∈ stocks)
    (hmid : ∀ op ∈ mid, Between env (· ∈ stocks) item op) {data out : Frame} {ls : List Logs}
    {w w' : World σ γ} (hok : StocksOk env stocks w) (hr : Rect data) (hn : data.index.Nodup)
    (hg : o2o = true ∨ (data.rows.map fun x => idIn (cell data x giver)).Nodup)
    (h : Runs (Ops.selectOne env a giver item o2o true true weight ::
      (mid ++ [Ops.relAdd env b taker item])) data w out ls w') (o : Orders) :
    StocksOk env stocks w' ∧ ∃ moved : List (Val × Val × Val),
      List.Forall₂ (fun y m => ∃ x ∈ data.rows, x.idx = y.idx ∧ m.1 = idIn (cell data x giver) ∧
        m.2.1 = idIn (cell out y taker) ∧ m.2.2 = idIn (cell out y item) ∧
        (m.1, m.2.2) ∈ stockAt o w a) out.rows moved ∧
      ∀ i ∈ stocks, (stockAt o w' i ++ if i = a then moved.map (fun m => (m.1, m.2.2)) else []).Perm
        (stockAt o w i ++ if i = b then moved.map (fun m => m.2) else []) := by
  cases h with
  | @cons _ _ _ d1 _ _ w1 _ la ls1 h1 h =>
  obtain ⟨d2, w2, lb, lc, h2, h3, -⟩ := runs_split h
  cases h3 with
  | @cons _ _ _ d3 _ _ w3 _ ld ls2 h3 h4 =>
  cases h4
  obtain ⟨r, hra, hreach⟩ := hok a ha
  obtain ⟨-, c1, r', chosen, rfl, hr', c2, c3, c4, c5, c6, -, c7⟩ := C92_select_one hn hra hreach o h1
  obtain ⟨removed, p1, p2, p3, -⟩ := c7 rfl
  have hrect1 : Rect d1 := by
    obtain ⟨_, _, _, rows, -, -, -, -, he⟩ := selectOne_eq_ok h1
    have he : d1 = _ := congrArg Prod.fst he
    intro y hy
    rw [c2] at hy
    obtain ⟨x, hx, hy⟩ := List.mem_filterMap.1 hy
    obtain ⟨t, -, rfl⟩ := Option.map_eq_some_iff.1 hy
    rw [he]
    simp [Frame.mergeIndex, Frame.mergedCols, hr x hx]
  have hidx1 : d1.index.Nodup ∧ ∀ i ∈ d1.index, i ∈ data.index :=
    builtIn_index (F := fun _ => True) (Z := fun _ => True) (.selectOne _ _ _ _ _ _ _) h1 hn
  obtain ⟨hrect2, hk1, hk2⟩ := C82_field_kept (name := item) (fun _ h => h)
    (fun op hop => (hmid op hop).2.2) hrect1 h2
  have hidx2 := runs_keepsRows (fun op hop => (hmid op hop).2.1) hidx1.1 h2
  -- the stocks
  have hok1 : StocksOk env stocks { w with rels := w.rels.set a r' } := by
    intro i hi
    by_cases hia : a = i
    · subst hia
      exact ⟨_, List.getElem?_set_self (List.getElem?_eq_some_iff.1 hra).1, hr'⟩
    · obtain ⟨ri, k1, k2⟩ := hok i hi
      exact ⟨ri, by rw [List.getElem?_set_ne hia]; exact k1, k2⟩
  obtain ⟨hok2, hkept⟩ := (runs_apart (fun op hop => (hmid op hop).1) h2).stockAt hok1
  obtain ⟨rb, hrb, hreachb⟩ := hok2 b hb
  obtain ⟨rfl, -, rb', rfl, k1, k2⟩ := C93_add hrb hreachb o o h3
  have hb3 : { w2 with rels := w2.rels.set b rb' }.rels[b]? = some rb' :=
    List.getElem?_set_self (List.getElem?_eq_some_iff.1 hrb).1
  refine ⟨fun i hi => ?_, ?_⟩
  · by_cases hib : b = i
    · subst hib
      exact ⟨_, hb3, k1⟩
    · obtain ⟨ri, k1, k2⟩ := hok2 i hi
      exact ⟨ri, by rw [List.getElem?_set_ne hib]; exact k1, k2⟩
  -- the row of a label
  let G : Val → Val := fun id => match data.rows.find? (fun x => decide (x.idx = id)) with
    | some x => idIn (cell data x giver)
    | none => .na
  have hG : ∀ x ∈ data.rows, G x.idx = idIn (cell data x giver) := by
    intro x hx
    have : data.rows.find? (fun y => decide (y.idx = x.idx)) = some x := by
      obtain ⟨y, hy⟩ := Option.isSome_iff_exists.1 (List.find?_isSome (p := fun y => decide (y.idx = x.idx))
        |>.2 ⟨x, hx, by simp⟩)
      have e := List.find?_some hy
      rw [hy, List.inj_on_of_nodup_map hn (List.mem_of_find?_eq_some hy) hx (by simpa using e)]
    simp only [G, this]
  have hsome : ∀ x ∈ data.rows, ∀ u, chosen x = some u → ∃ t, u = some t := by
    intro x hx u hu
    cases u with
    | none => exact absurd (c4 x hx hu).1 (by simp)
    | some t => exact ⟨t, rfl⟩
  -- what the rows get
  set L := data.rows.filterMap fun x => ((chosen x).bind id).map fun t =>
    (idIn (cell data x giver), t) with hL
  have hd1 : L = d1.rows.map fun y => (G y.idx, idIn (cell d1 y item)) := by
    by_cases hrows : d1.rows = []
    · rw [hrows, List.map_nil, hL, List.filterMap_eq_nil_iff]
      intro x hx
      rw [c2, List.filterMap_eq_nil_iff] at hrows
      have := hrows x hx
      rw [Option.map_eq_none_iff] at this
      rw [this]
      rfl
    · have hitem : item ∉ data.cols := by
        intro hi
        have hd : out.rows ≠ [] := by
          intro he
          rw [Frame.index, Frame.index, he] at hidx2
          exact hrows (by simpa using hidx2.symm)
        obtain ⟨-, ⟨he, -⟩ | ⟨_, _, -, -, e3, -⟩⟩ := onRel_eq_ok h3
        · exact hd he
        · obtain ⟨_, -, e3⟩ := bind_eq_ok.1 e3
          obtain ⟨_, e4, -⟩ := bind_eq_ok.1 e3
          have := hk1.1 (idColumn_mem e4)
          obtain ⟨_, _, _, rows, -, -, -, -, he⟩ := selectOne_eq_ok h1
          have he : d1 = _ := congrArg Prod.fst he
          rw [he] at this
          exact not_mem_mergedCols hi this
      have hc1 := c1 hitem
      rw [c2, List.map_filterMap, hL]
      refine List.filterMap_congr fun x hx => ?_
      cases hu : chosen x with
      | none => rfl
      | some u =>
        obtain ⟨t, rfl⟩ := hsome x hx u hu
        simp only [Option.bind_some, id, Option.map_some, Option.getD_some, hG x hx]
        rw [Frame.cell_append_right (f := data) (g := ⟨[item], []⟩) (a := x) (b := ⟨x.idx, [.scalar t]⟩)
          hc1 (hr x hx) rfl hitem]
        simp [cell, idIn]
  have hd3 : L = out.rows.map fun y => (G y.idx, idIn (cell out y item)) := by
    rw [hd1]
    symm
    refine map_eq_of_labels hidx1.1 hidx2 fun y' hy' => ?_
    obtain ⟨y, hy, e1, e2⟩ := hk2 y' hy'
    exact ⟨y, hy, e1, by rw [e1, e2]⟩
  have hmemL : ∀ f t, (f, t) ∈ L ↔ ∃ x ∈ data.rows, idIn (cell data x giver) = f ∧
      chosen x = some (some t) := by
    intro f t
    simp only [hL, List.mem_filterMap]
    constructor
    · rintro ⟨x, hx, he⟩
      obtain ⟨t', ht, he⟩ := Option.map_eq_some_iff.1 he
      cases he
      cases hu : chosen x with
      | none => rw [hu] at ht; cases ht
      | some u => rw [hu] at ht; cases ht; exact ⟨x, hx, rfl, hu⟩
    · rintro ⟨x, hx, rfl, hu⟩
      exact ⟨x, hx, by rw [hu]; rfl⟩
  have hLnd : L.Nodup := by
    rw [hL, List.Nodup, List.pairwise_filterMap]
    have hval : ∀ x b, ((chosen x).bind id).map (fun t => (idIn (cell data x giver), t)) = some b →
        b.1 = idIn (cell data x giver) ∧ chosen x = some (some b.2) := by
      intro x b he
      obtain ⟨t', ht, he⟩ := Option.map_eq_some_iff.1 he
      cases he
      cases hu : chosen x with
      | none => rw [hu] at ht; cases ht
      | some u => rw [hu] at ht; cases ht; exact ⟨rfl, rfl⟩
    rcases hg with rfl | hg
    · refine List.Pairwise.imp_of_mem ?_ (List.Nodup.of_map _ hn)
      rintro x y hx hy hne b hb b' hb' rfl
      exact hne (c6 rfl x hx y hy _ (hval x b hb).2 (hval y b hb').2)
    · refine List.Pairwise.imp ?_ (List.pairwise_map.1 hg)
      rintro x y hne b hb b' hb' rfl
      exact hne ((hval x b hb).1.symm.trans (hval y b hb').1)
  have hperm : (removed.map fun x => (x.1, x.2.1)).Perm L := by
    have hnd : (removed.map fun x => (x.1, x.2.1)).Nodup := by
      obtain ⟨l, q1, q2⟩ := p3
      exact q1.nodup_iff.1 (q2.nodup hLnd)
    refine (List.perm_ext_iff_of_nodup hnd hLnd).2 ?_
    rintro ⟨f, t⟩
    rw [p2, hmemL]
  have hpa : (stockAt o w a).Perm
      ((r'.get_relations o).map (fun x => (x.1, x.2.1)) ++ L) := by
    have := p1.map fun x => (x.1, x.2.1)
    rw [List.map_append] at this
    rw [stockAt_of hra]
    exact this.trans (hperm.append_left _)
  refine ⟨out.rows.map fun y => (G y.idx, idIn (cell out y taker), idIn (cell out y item)), ?_, ?_⟩
  · rw [List.forall₂_map_right_iff, List.forall₂_same]
    intro y hy
    have hy' : y.idx ∈ data.index := hidx1.2 _ (by rw [← hidx2]; exact List.mem_map.2 ⟨y, hy, rfl⟩)
    obtain ⟨x, hx, e⟩ := List.mem_map.1 hy'
    refine ⟨x, hx, e, by rw [← e]; exact hG x hx, rfl, rfl, ?_⟩
    refine hpa.mem_iff.2 (List.mem_append.2 (.inr ?_))
    rw [hd3]
    exact List.mem_map.2 ⟨y, hy, rfl⟩
  · intro i hi
    have fA : (stockAt o { w2 with rels := w2.rels.set b rb' } i).Perm (stockAt o w2 i ++
        if i = b then out.rows.map (fun y => (idIn (cell out y taker), idIn (cell out y item))) else []) := by
      by_cases hib : i = b
      · subst hib
        rw [stockAt_of hb3, stockAt_of hrb, if_pos rfl]
        have := k2.map fun x => (x.1, x.2.1)
        rwa [List.map_append, List.map_map] at this
      · rw [if_neg hib, List.append_nil, stockAt, stockAt, List.getElem?_set_ne (Ne.symm hib)]
    have fB := hkept o i hi
    have fC : (stockAt o { w with rels := w.rels.set a r' } i ++ if i = a then L else []).Perm
        (stockAt o w i) := by
      by_cases hia : i = a
      · subst hia
        rw [stockAt_of (r := r') (List.getElem?_set_self (List.getElem?_eq_some_iff.1 hra).1), if_pos rfl]
        exact hpa.symm
      · rw [if_neg hia, List.append_nil, stockAt, stockAt, List.getElem?_set_ne (Ne.symm hia)]
    have e1 : (out.rows.map fun y => (G y.idx, idIn (cell out y taker), idIn (cell out y item))).map
        (fun m => (m.1, m.2.2)) = L := by rw [hd3, List.map_map]; rfl
    have e2 : (out.rows.map fun y => (G y.idx, idIn (cell out y taker), idIn (cell out y item))).map
        (fun m => m.2) = out.rows.map fun y => (idIn (cell out y taker), idIn (cell out y item)) := by
      rw [List.map_map]; rfl
    rw [e1, e2]
    rw [List.perm_iff_count] at fA fB fC ⊢
    intro v
    have g1 := fA v
    have g2 := fB v
    have g3 := fC v
    simp only [List.count_append] at g1 g2 g3 ⊢
    omega

/-- **C100** the same with a quantity per row: the items popped by `select_many` from the stock of
distinct givers are all added to the stock of the takers. -/
theorem C100_bulks_change_hands {a b : Nat} {giver taker item qtyField : String} {discard : Bool}
    {mid : List (Op (World σ γ))} (ha : a ∈ stocks) (hb : b ∈ stocks)
    (hmid : ∀ op ∈ mid, Between env (· ∈ stocks) item op) {data out : Frame} {ls : List Logs}
    {w w' : World σ γ} (hok : StocksOk env stocks w) (hr : Rect data) (hn : data.index.Nodup)
    (hg : (data.rows.map fun x => idIn (cell data x giver)).Nodup) {qty : Row → Nat}
    (hq : ∀ x ∈ data.rows, cell data x qtyField = .num (qty x : Rat))
    (h : Runs (Ops.selectMany env a giver item qtyField true discard ::
      (mid ++ [Ops.relAddGrouped env b taker item])) data w out ls w') (o : Orders) :
    StocksOk env stocks w' ∧ ∃ moved : Row → List Val,
      (∀ y ∈ out.rows, moved y = listIn (cell out y item) ∧ ∃ x ∈ data.rows, x.idx = y.idx ∧
        (moved y).length = min (qty x) (tosOf ((w.rels[a]?.map (·.get_relations o)).getD [])
          (idIn (cell data x giver))).length) ∧
      ∃ givers : Row → Val, (∀ y ∈ out.rows, ∃ x ∈ data.rows, x.idx = y.idx ∧
          givers y = idIn (cell data x giver)) ∧
        ∀ i ∈ stocks, (stockAt o w' i ++ if i = a then out.rows.flatMap (fun y =>
            (moved y).map fun t => (givers y, t)) else []).Perm
          (stockAt o w i ++ if i = b then out.rows.flatMap (fun y =>
            (moved y).map fun t => (idIn (cell out y taker), t)) else []) := by
  cases h with
  | @cons _ _ _ d1 _ _ w1 _ la ls1 h1 h =>
  obtain ⟨d2, w2, lb, lc, h2, h3, -⟩ := runs_split h
  cases h3 with
  | @cons _ _ _ d3 _ _ w3 _ ld ls2 h3 h4 =>
  cases h4
  obtain ⟨r, hra, hreach⟩ := hok a ha
  obtain ⟨-, c1, r', given, rfl, hr', c2, -, -, c5, -, -, c7⟩ := C92_select_many hn hra hreach o hq h1
  obtain ⟨removed, p1, p2⟩ := c7 rfl hg
  have hrect1 : Rect d1 := by
    obtain ⟨_, _, _, _, rows, -, -, -, -, -, he⟩ := selectMany_eq_ok h1
    have he : d1 = _ := congrArg Prod.fst he
    intro y hy
    rw [c2] at hy
    obtain ⟨x, hx, rfl⟩ := List.mem_map.1 hy
    rw [he]
    simp [Frame.mergeIndex, Frame.mergedCols, hr x (List.mem_of_mem_filter hx)]
  have hidx1 : d1.index.Nodup ∧ ∀ i ∈ d1.index, i ∈ data.index :=
    builtIn_index (F := fun _ => True) (Z := fun _ => True) (.selectMany _ _ _ _ _ _) h1 hn
  obtain ⟨hrect2, hk1, hk2⟩ := C82_field_kept (name := item) (fun _ h => h)
    (fun op hop => (hmid op hop).2.2) hrect1 h2
  have hidx2 := runs_keepsRows (fun op hop => (hmid op hop).2.1) hidx1.1 h2
  have hok1 : StocksOk env stocks { w with rels := w.rels.set a r' } := by
    intro i hi
    by_cases hia : a = i
    · subst hia
      exact ⟨_, List.getElem?_set_self (List.getElem?_eq_some_iff.1 hra).1, hr'⟩
    · obtain ⟨ri, k1, k2⟩ := hok i hi
      exact ⟨ri, by rw [List.getElem?_set_ne hia]; exact k1, k2⟩
  obtain ⟨hok2, hkept⟩ := (runs_apart (fun op hop => (hmid op hop).1) h2).stockAt hok1
  obtain ⟨rb, hrb, hreachb⟩ := hok2 b hb
  obtain ⟨rfl, -, rb', rfl, k1, k2⟩ := C93_add_grouped hrb hreachb o o h3
  have hb3 : { w2 with rels := w2.rels.set b rb' }.rels[b]? = some rb' :=
    List.getElem?_set_self (List.getElem?_eq_some_iff.1 hrb).1
  refine ⟨fun i hi => ?_, ?_⟩
  · by_cases hib : b = i
    · subst hib
      exact ⟨_, hb3, k1⟩
    · obtain ⟨ri, k1, k2⟩ := hok2 i hi
      exact ⟨ri, by rw [List.getElem?_set_ne hib]; exact k1, k2⟩
  let G : Val → Val := fun id => match data.rows.find? (fun x => decide (x.idx = id)) with
    | some x => idIn (cell data x giver)
    | none => .na
  have hG : ∀ x ∈ data.rows, G x.idx = idIn (cell data x giver) := by
    intro x hx
    have : data.rows.find? (fun y => decide (y.idx = x.idx)) = some x := by
      obtain ⟨y, hy⟩ := Option.isSome_iff_exists.1 (List.find?_isSome (p := fun y => decide (y.idx = x.idx))
        |>.2 ⟨x, hx, by simp⟩)
      have e := List.find?_some hy
      rw [hy, List.inj_on_of_nodup_map hn (List.mem_of_find?_eq_some hy) hx (by simpa using e)]
    simp only [G, this]
  have hitem : d1.rows ≠ [] → item ∉ data.cols := by
    intro hrows hi
    have hd : out.rows ≠ [] := by
      intro he
      rw [Frame.index, Frame.index, he] at hidx2
      exact hrows (by simpa using hidx2.symm)
    obtain ⟨-, ⟨he, -⟩ | ⟨_, _, -, -, e3, -⟩⟩ := onRel_eq_ok h3
    · exact hd he
    · obtain ⟨_, e4, -⟩ := bind_eq_ok.1 e3
      have := hk1.1 (col_mem e4)
      obtain ⟨_, _, _, _, rows, -, -, -, -, -, he⟩ := selectMany_eq_ok h1
      have he : d1 = _ := congrArg Prod.fst he
      rw [he] at this
      exact not_mem_mergedCols hi this
  -- the rows of `d1`
  have hcell : ∀ y ∈ d1.rows, ∃ x ∈ data.rows, x.idx = y.idx ∧ listIn (cell d1 y item) = given x := by
    intro y hy
    have hit := hitem (List.ne_nil_of_mem hy)
    rw [c2] at hy
    obtain ⟨x, hx, rfl⟩ := List.mem_map.1 hy
    refine ⟨x, List.mem_of_mem_filter hx, rfl, ?_⟩
    rw [Frame.cell_append_right (f := data) (g := ⟨[item], []⟩) (a := x) (b := ⟨x.idx, [.list (given x)]⟩)
      (c1 hit) (hr x (List.mem_of_mem_filter hx)) rfl hit]
    simp [cell, listIn]
  set L := data.rows.flatMap fun x => (given x).map fun t => (idIn (cell data x giver), t) with hL
  have hd1 : L = d1.rows.flatMap fun y => (listIn (cell d1 y item)).map fun t => (G y.idx, t) := by
    have e1 : L = (data.rows.filter fun x => decide (discard = true → given x ≠ [])).flatMap fun x =>
        (given x).map fun t => (idIn (cell data x giver), t) := by
      rw [hL]
      clear * -
      induction data.rows with
      | nil => rfl
      | cons x rows ih =>
        rw [List.flatMap_cons, ih, List.filter_cons]
        split
        · rw [List.flatMap_cons]
        · rename_i hx
          have : given x = [] := by
            by_contra hne
            exact hx (by simp [hne])
          rw [this]
          rfl
    by_cases hrows : d1.rows = []
    · rw [c2, List.map_eq_nil_iff] at hrows
      rw [e1, c2, hrows]
      rfl
    · have hit := hitem hrows
      rw [e1, c2, List.flatMap_map]
      refine List.flatMap_congr fun x hx => ?_
      have hx := List.mem_of_mem_filter hx
      rw [Frame.cell_append_right (f := data) (g := ⟨[item], []⟩) (a := x)
        (b := ⟨x.idx, [.list (given x)]⟩) (c1 hit) (hr x hx) rfl hit]
      simp [cell, listIn, hG x hx]
  have hd2 : L = out.rows.flatMap fun y => (listIn (cell out y item)).map fun t => (G y.idx, t) := by
    rw [hd1, List.flatMap_def, List.flatMap_def]
    congr 1
    symm
    refine map_eq_of_labels hidx1.1 hidx2 fun y' hy' => ?_
    obtain ⟨y, hy, e1, e2⟩ := hk2 y' hy'
    exact ⟨y, hy, e1, by rw [e1, e2]⟩
  have hrow : ∀ y ∈ out.rows, ∃ x ∈ data.rows, x.idx = y.idx ∧ listIn (cell out y item) = given x := by
    intro y hy
    obtain ⟨y1, hy1, e1, e2⟩ := hk2 y hy
    obtain ⟨x, hx, e3, e4⟩ := hcell y1 hy1
    exact ⟨x, hx, e3.trans e1, by rw [e2]; exact e4⟩
  refine ⟨fun y => listIn (cell out y item), fun y hy => ⟨rfl, ?_⟩, fun y => G y.idx, fun y hy => ?_, ?_⟩
  · obtain ⟨x, hx, e1, e2⟩ := hrow y hy
    refine ⟨x, hx, e1, ?_⟩
    have hone : (data.rows.filter fun z => decide (idIn (cell data z giver) = idIn (cell data x giver)))
        = [x] := by
      clear * - hg hx
      generalize data.rows = rows at hg hx
      induction rows with
      | nil => cases hx
      | cons z rows ih =>
        rw [List.map_cons, List.nodup_cons] at hg
        rcases List.mem_cons.1 hx with rfl | hx
        · rw [List.filter_cons_of_pos (by simp)]
          congr 1
          rw [List.filter_eq_nil_iff]
          intro u hu he
          exact hg.1 (List.mem_map.2 ⟨u, hu, by simpa using he⟩)
        · rw [List.filter_cons_of_neg]
          · exact ih hg.2 hx
          · intro he
            exact hg.1 (List.mem_map.2 ⟨x, hx, by simpa using Eq.symm (by simpa using he)⟩)
    have := c5 (idIn (cell data x giver))
    rw [hone] at this
    rw [hra]
    simpa [e2] using this
  · obtain ⟨x, hx, e1, -⟩ := hrow y hy
    exact ⟨x, hx, e1, (congrArg G e1).symm.trans (hG x hx)⟩
  · intro i hi
    have hpa : (stockAt o w a).Perm
        ((r'.get_relations o).map (fun x => (x.1, x.2.1)) ++ L) := by
      have := p1.map fun x => (x.1, x.2.1)
      rw [List.map_append] at this
      rw [stockAt_of hra]
      exact this.trans (p2.append_left _)
    have fA : (stockAt o { w2 with rels := w2.rels.set b rb' } i).Perm (stockAt o w2 i ++
        if i = b then out.rows.flatMap (fun y => (listIn (cell out y item)).map fun t =>
          (idIn (cell out y taker), t)) else []) := by
      by_cases hib : i = b
      · subst hib
        rw [stockAt_of hb3, stockAt_of hrb, if_pos rfl]
        have := k2.map fun x => (x.1, x.2.1)
        rw [List.map_append, List.map_flatMap] at this
        simpa [List.map_map, Function.comp_def] using this
      · rw [if_neg hib, List.append_nil, stockAt, stockAt, List.getElem?_set_ne (Ne.symm hib)]
    have fB := hkept o i hi
    have fC : (stockAt o { w with rels := w.rels.set a r' } i ++ if i = a then L else []).Perm
        (stockAt o w i) := by
      by_cases hia : i = a
      · subst hia
        rw [stockAt_of (r := r') (List.getElem?_set_self (List.getElem?_eq_some_iff.1 hra).1), if_pos rfl]
        exact hpa.symm
      · rw [if_neg hia, List.append_nil, stockAt, stockAt, List.getElem?_set_ne (Ne.symm hia)]
    rw [← hd2]
    rw [List.perm_iff_count] at fA fB fC ⊢
    intro v
    have g1 := fA v
    have g2 := fB v
    have g3 := fC v
    simp only [List.count_append] at g1 g2 g3 ⊢
    omega

theorem within_namesOwn {own : String} {F Z : Nat → Prop} {D : Nat → Prop} {L : String → Prop}
    {ops : List (Op (World σ γ))} (hops : ∀ op ∈ ops, OpWithin env F Z (Clear own) D L op)
    {data out : Frame} {ls : List Logs} {w w' : World σ γ} (h : Runs ops data w out ls w')
    (hd : NamesOwn own data) : NamesOwn own out := by
  induction h with
  | nil => exact hd
  | cons h _ ih =>
    refine ih (fun o ho => hops o (by simp [ho])) ?_
    obtain ⟨hr, hn, hown⟩ := hd
    have hop := hops _ (List.mem_cons_self ..)
    obtain ⟨k1, -, k2⟩ := within_kept (name := own) (fun _ h => h) hop h hr
    obtain ⟨k3, -⟩ := builtIn_index hop.builtIn h hn
    refine ⟨k1, k3, fun r hr' => ?_⟩
    obtain ⟨r0, m0, e0, f0⟩ := k2 r hr'
    rw [f0, hown r0 m0, e0]

theorem holdings_perm {o : Orders} {w w' : World σ γ}
    (h : ∀ i ∈ stocks, (stockAt o w' i).Perm (stockAt o w i)) :
    (holdings o stocks w').Perm (holdings o stocks w) := by
  have := holdings_change (plus := fun _ => []) (minus := fun _ => []) (stocks := stocks) (o := o)
    (w := w) (w' := w') (by simpa using h)
  exact (List.perm_append_right_iff _).1 this

/-- **C100** the operations of a story that only moves items: all the stocks together hold the same items
before and after. -/
theorem C100_story_conserves (hn : stocks.Nodup) {own : String} {ops : List (Op (World σ γ))}
    (hops : MovesOnly env (· ∈ stocks) own ops) {data out : Frame} {ls : List Logs} {w w' : World σ γ}
    (hd : NamesOwn own data) (hok : StocksOk env stocks w) (h : Runs ops data w out ls w')
    (o : Orders) : StocksOk env stocks w' ∧ (holdings o stocks w').Perm (holdings o stocks w) := by
  induction hops generalizing data ls w with
  | nil =>
    cases h
    exact ⟨hok, .refl _⟩
  | @apart op ops hap hw _ ih =>
    cases h with
    | cons h1 h2 =>
    obtain ⟨k1, k2⟩ := (apart_rels hap h1).stockAt hok
    have hd1 := within_namesOwn (env := env) (ops := [op]) (by simpa using hw) (.cons h1 (.nil _ _)) hd
    obtain ⟨k3, k4⟩ := ih hd1 k1 h2
    exact ⟨k3, k4.trans (holdings_perm (k2 o))⟩
  | @move a b giver taker item o2o weight mid ops ha hb hg hi hmid hown _ ih =>
    rw [show Ops.selectOne env a giver item o2o true true weight ::
        (mid ++ Ops.relAdd env b taker item :: ops) =
      (Ops.selectOne env a giver item o2o true true weight ::
        (mid ++ [Ops.relAdd env b taker item])) ++ ops by simp] at h
    obtain ⟨d1, w1, la, lb, h1, h2, -⟩ := runs_split h
    have hd1 : NamesOwn own d1 := by
      refine within_namesOwn (env := env) (F := fun _ => True) (Z := fun _ => True)
        (D := fun _ => True) (L := fun _ => True) ?_ h1 hd
      intro op hop
      simp only [List.mem_cons, List.mem_append, List.not_mem_nil, or_false] at hop
      rcases hop with rfl | hop | rfl
      · exact .selectOne _ _ _ _ _ _ _ hi
      · exact hown op hop
      · exact .effect (.relAdd _ _ _)
    have hg' : o2o = true ∨ (data.rows.map fun x => idIn (cell data x giver)).Nodup := by
      refine hg.imp_right ?_
      rintro rfl
      have : (data.rows.map fun x => idIn (cell data x giver)) = data.index := by
        rw [Frame.index]
        exact List.map_congr_left fun x hx => by rw [hd.2.2 x hx]; rfl
      rw [this]
      exact hd.2.1
    obtain ⟨k1, moved, -, k2⟩ := C100_items_change_hands ha hb hmid hok hd.1 hd.2.1 hg' h1 o
    obtain ⟨k3, k4⟩ := ih hd1 k1 h2
    refine ⟨k3, k4.trans ?_⟩
    have := holdings_change _ _ k2
    have e : ∀ (c : Nat), c ∈ stocks → ∀ l : List (Val × Val),
        (stocks.flatMap fun i => ((if i = c then l else []) : List (Val × Val)).map Prod.snd) =
          l.map Prod.snd := by
      intro c hc l
      rw [← flatMap_single hn hc (l.map Prod.snd)]
      congr 1
      funext i
      split <;> rfl
    rw [e a ha, e b hb, List.map_map, List.map_map] at this
    exact (List.perm_append_right_iff _).1 this

theorem execute_rels {ops : List (Op (World σ γ))} {i : Nat} {w w' : World σ γ} {logs : Logs}
    {s : Story σ} (hs : w.stories[i]? = some s) (h : World.execute env ops i w = .ok logs w') :
    w'.rels = w.rels ∨ ∃ w1 out ls, w'.rels = w1.rels ∧
      Runs ops ⟨[s.idField], actingRows s⟩ (started w i s) out ls w1 := by
  obtain ⟨s0, w1, s1, s', hs0, ⟨s2, hs2, hafter⟩, -, -, hrest, -⟩ := execute_ok h
  rw [hs] at hs2
  cases hs2
  rcases hafter with ⟨-, -, rfl⟩ | ⟨-, last, h5⟩
  · exact .inl hrest.rels
  · obtain ⟨-, ls, hr, -⟩ := (chain_sequential env.logSet _ _ last _ w1).1 logs h5
    exact .inr ⟨w1, last, ls, hrest.rels, hr⟩

theorem movesOnly_builtIn {S : Nat → Prop} {own : String} {ops : List (Op (World σ γ))}
    (h : MovesOnly env S own ops) : ∀ op ∈ ops, BuiltIn env (fun _ => True) (fun _ => True) op := by
  induction h with
  | nil => simp
  | apart _ hw _ ih =>
    intro op hop
    rcases List.mem_cons.1 hop with rfl | hop
    · exact hw.builtIn
    · exact ih op hop
  | move _ _ _ _ _ hown _ ih =>
    intro op hop
    simp only [List.mem_cons, List.mem_append] at hop
    rcases hop with rfl | hop | rfl | hop
    · exact .selectOne _ _ _ _ _ _ _
    · exact (hown op hop).builtIn
    · exact .effect (.relAdd _ _ _)
    · exact ih op hop

theorem AllMove.same {S : Nat → Prop} {chains : List (List (Op (World σ γ)))} {w w' : World σ γ}
    (h : SameStories w w') (hw : AllMove env S chains w) : AllMove env S chains w' := by
  intro j ops s' hj hs'
  have hlen := List.Forall₂.length_eq h
  have hj' : j < w'.stories.length := (List.getElem?_eq_some_iff.1 hs').1
  have e := (List.forall₂_iff_get.1 h).2 j (by omega) hj'
  rw [List.get_eq_getElem, List.get_eq_getElem, (List.getElem?_eq_some_iff.1 hs').2] at e
  have hf : s'.idField = (w.stories[j]'(by omega)).idField := by rw [e.1]
  rw [hf]
  exact hw j ops _ hj (List.getElem?_eq_getElem (by omega))

/-- **C100** in a circus all the stories of which only move items, whatever the run: the stocks together
hold, in the end, exactly the items that they held in the beginning. -/
theorem C100_run_conserves (hn : stocks.Nodup) {chains : List (List (Op (World σ γ)))}
    {w w' : World σ γ} {deeds : List Deed} (hw : AllMove env (· ∈ stocks) chains w)
    (hids : ∀ s ∈ w.stories, s.ids.Nodup) (hok : StocksOk env stocks w)
    (h : Deeds env chains w deeds w') (o : Orders) :
    StocksOk env stocks w' ∧ (holdings o stocks w').Perm (holdings o stocks w) := by
  induction h with
  | nil w => exact ⟨hok, .refl _⟩
  | @tick w w' l rest ih => exact ih hw hids hok
  | @exec w w1 w' l i ops logs si hi hsi h rest ih =>
    have hmv := hw i ops si hi hsi
    have hsame := execute_sameStories (movesOnly_builtIn hmv) h
    obtain ⟨k1, k2⟩ : StocksOk env stocks w1 ∧ (holdings o stocks w1).Perm (holdings o stocks w) := by
      have hrels : ∀ {u v : World σ γ}, v.rels = u.rels →
          (StocksOk env stocks v ↔ StocksOk env stocks u) ∧ holdings o stocks v = holdings o stocks u := by
        intro u v e
        obtain ⟨e1, e2⟩ := RelsKept.of_rels (env := env) e stocks o
        exact ⟨e1, by simp only [holdings, e2]⟩
      rcases execute_rels hsi h with e | ⟨w2, out, ls, e, hr⟩
      · exact ⟨(hrels e).1.2 hok, by rw [(hrels e).2]⟩
      · obtain ⟨k1, k2⟩ := C100_story_conserves hn hmv
          (actingRows_namesOwn (hids si (List.mem_of_getElem? hsi)))
          ((hrels (u := w) (v := started w i si) rfl).1.2 hok) hr o
        rw [(hrels (u := w) (v := started w i si) rfl).2] at k2
        exact ⟨(hrels e).1.2 k1, by rw [(hrels e).2]; exact k2⟩
    obtain ⟨k3, k4⟩ := ih (AllMove.same hsame hw) (hsame.nodup hids) k1
    exact ⟨k3, k4.trans k2⟩

/-- **C100** the same for the runs of a circus -/
theorem C100_played {chains : List (List (Op (World σ γ)))} (hn : stocks.Nodup)
    {w w' : World σ γ} {evs : List (Int × Event)} (hw : AllMove env (· ∈ stocks) chains w)
    (hids : ∀ s ∈ w.stories, s.ids.Nodup) (hok : StocksOk env stocks w)
    (h : Played env chains w evs w') (o : Orders) :
    (holdings o stocks w').Perm (holdings o stocks w) := by
  obtain ⟨deeds, h1, -⟩ := played_deeds h
  exact (C100_run_conserves hn hw hids hok h1 o).2

/-! ### Where items are not conserved -/

/-- dealers hold items, members hold none -/
def exDealers : World Nat (AnyGen Nat) :=
  { exWorld with rels := [exLinks, Relationship.new exEnv.R 7] }

theorem exDealers_ok : StocksOk exEnv [0, 1] exDealers := by
  intro i hi
  simp only [List.mem_cons, List.not_mem_nil, or_false] at hi
  rcases hi with rfl | rfl
  · exact ⟨_, rfl, exLinks_reachable⟩
  · exact ⟨_, rfl, .new 7⟩

/-- two members that buy from the dealer "x", and one that buys from a dealer without items -/
def exBuyers : Frame := ⟨["BUYER", "DEALER"],
  [⟨.str "a", [.str "a", .str "x"]⟩, ⟨.str "b", [.str "b", .str "x"]⟩, ⟨.str "c", [.str "c", .str "z"]⟩]⟩

/-- what the stocks hold after some operations -/
def afterOps (ops : List (Op (World Nat (AnyGen Nat)))) (data : Frame) : Option (List Val) :=
  ((World.chain exEnv.logSet ops data).world? exDealers).map (holdings Orders.a [0, 1])

/-- **C100** without `one_to_one`, two rows with the same giver can get the same item: it is popped once,
and added twice. -/
theorem C100_duplicated_without_one_to_one :
    holdings Orders.a [0, 1] exDealers = [.str "1", .str "2", .str "3", .str "2"] ∧
    afterOps [Ops.selectOne exEnv 0 "DEALER" "ITEM" false true true none,
        Ops.relAdd exEnv 1 "BUYER" "ITEM"] exBuyers =
      some [.str "2", .str "3", .str "2", .str "1", .str "1"] := by
  decide +kernel

/-- **C100** without `discard_empty` (the default), a row without item brings an empty item to the stock
of its taker. -/
theorem C100_empty_item_without_discard :
    afterOps [Ops.selectOne exEnv 0 "DEALER" "ITEM" true true false none,
        Ops.relAdd exEnv 1 "BUYER" "ITEM"] exBuyers =
      some [.str "2", .str "3", .str "2", .str "1", .na] := by
  decide +kernel

/-- **C100** an operation between the two that drops rows loses the items of these rows. -/
theorem C100_lost_by_dropped_rows :
    afterOps [Ops.selectOne exEnv 0 "DEALER" "ITEM" true true true none,
        Ops.applySeries [] "GONE" (fun _ => .ok [.bool true]),
        Ops.dropRow "GONE", Ops.relAdd exEnv 1 "BUYER" "ITEM"] exBuyers =
      some [.str "2", .str "3", .str "2"] := by
  decide +kernel

/-! ### Non-vacuity -/

/-- the same sale with `one_to_one` and `discard_empty`: one member gets the item of "x" -/
example : afterOps [Ops.selectOne exEnv 0 "DEALER" "ITEM" true true true none,
        Ops.relAdd exEnv 1 "BUYER" "ITEM"] exBuyers =
      some [.str "2", .str "3", .str "2", .str "1"] := by
  decide +kernel

example : Rect exBuyers ∧ exBuyers.index.Nodup := by
  refine ⟨?_, by decide +kernel⟩
  intro r hr
  simp only [exBuyers, List.mem_cons, List.not_mem_nil, or_false] at hr
  rcases hr with rfl | rfl | rfl <;> rfl

/-- each acting member buys from the dealer "x", with a field added between the two halves of the sale -/
def exSale : List (Op (World Nat (AnyGen Nat))) :=
  [Ops.randomValues exEnv (.constant (.str "x")) "DEALER" none,
    Ops.selectOne exEnv 0 "DEALER" "ITEM" true true true none,
    Ops.randomValues exEnv (.constant (.num 5)) "PRICE" none,
    Ops.relAdd exEnv 1 "CALLER" "ITEM",
    Ops.fieldLogger "sales" ["CALLER", "ITEM", "PRICE"] []]

example : AllMove exEnv (· ∈ [0, 1]) [exSale, []] exDealers := by
  intro j ops s hj hs
  match j with
  | 0 =>
    cases hj
    cases hs
    refine .apart (.adder (.randomValues _ _))
      (.randomValues _ _ _ ⟨by decide, by decide, by decide⟩ fun _ _ => trivial)
      (.move (mid := [_]) (ops := [_]) (by simp) (by simp) (.inl rfl)
        ⟨by decide, by decide, by decide⟩ ?_ ?_
        (.apart (.fieldLogger _ _ _) (.fieldLogger _ _ _ trivial) .nil))
    · intro op hop
      rw [List.mem_singleton] at hop
      subst hop
      exact ⟨.adder (.randomValues _ _), .adder (.randomValues _ _),
        .randomValues _ _ _ ⟨by decide, by decide, by decide⟩ fun _ _ => trivial⟩
    · intro op hop
      rw [List.mem_singleton] at hop
      subst hop
      exact .randomValues _ _ _ ⟨by decide, by decide, by decide⟩ fun _ _ => trivial
  | 1 => cases hj; exact .nil
  | n + 2 => cases hj

/-- the item changes hands -/
example : ((World.execute exEnv exSale 0).world? exDealers).map (fun w =>
      (stockAt Orders.a w 0, stockAt Orders.a w 1)) =
    some ([(.str "y", .str "2"), (.str "y", .str "3"), (.str "y", .str "2")],
      [(.str "a", .str "1")]) := by
  decide +kernel

end Trumania
