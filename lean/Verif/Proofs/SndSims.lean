import Verif.Proofs.SndPops
import Verif.Props.Snd
import Verif.Props.Lookup
import Verif.Props.Fields

/-! Where the SIMs go when a story of the SND scenario executes. -/

namespace Trumania
namespace Snd
open Spec World Relationship
variable {σ γ : Type} {env : Env σ γ} {fmt : Int → Cell}

/-- the three stocks of SIMs, and the distributors of the dealers -/
abbrev stocks : List Nat := [0, 1, 2, 4]

theorem stocksOk_mono {l l' : List Nat} {w : World σ γ} (h : StocksOk env l w) (hl : ∀ i ∈ l', i ∈ l) :
    StocksOk env l' w := fun i hi => h i (hl i hi)

/-- when the items of pairs are those of other pairs, whoever has them -/
theorem items_perm {β : Type} [DecidableEq β] {l l' : List β} (h : ∀ v, l.count v = l'.count v) : l.Perm l' :=
  List.perm_iff_count.2 h

/-- what a sale adds is what it takes -/
theorem sold_items {d2 d3 d4 : Frame} {given : List (Val × Val)}
    (hcount : ∀ p : Val × Val → Bool, (∀ f, p (f, .na) = false) →
      (d2.rows.map fun r => (idIn (cell d2 r "DEALER"), idIn (cell d2 r "SOLD_SIM"))).countP p = given.countP p)
    (hsc : ∀ x ∈ d2.rows, ∃ v, cell d2 x "SOLD_SIM" = .scalar v)
    (hs2 : "SOLD_SIM" ∈ d2.cols)
    (hadd : AddsColumn "FAILED_SALE" ((cellsOf d2 "SOLD_SIM").map fun c => .bool (decide (c = .na))) d2 d3)
    (hcols : d4.cols = d3.cols)
    (hrows : d4.rows = d3.rows.filter fun r => decide (cell d3 r "FAILED_SALE" = .bool false))
    (hna : ∀ p ∈ given, p.2 ≠ .na) :
    (d4.rows.map fun x => idIn (cell d4 x "SOLD_SIM")).Perm (given.map Prod.snd) := by
  have e1 : (d4.rows.map fun x => idIn (cell d4 x "SOLD_SIM")) =
      ((d2.rows.map fun x => idIn (cell d2 x "SOLD_SIM")).filter fun v => decide (v ≠ .na)) := by
    have hkept := hadd.kept "SOLD_SIM" hs2
    have hadded := hadd.added
    rw [← hkept, Frame.cellsOf_eq, Frame.cellsOf_eq, List.map_map] at hadded
    have hk : (d2.rows.map fun x => idIn (cell d2 x "SOLD_SIM")) =
        d3.rows.map fun x => idIn (cell d3 x "SOLD_SIM") := by
      have := congrArg (List.map idIn) hkept
      rw [Frame.cellsOf_eq, Frame.cellsOf_eq, List.map_map, List.map_map] at this
      exact this.symm
    rw [hk, List.filter_map, hrows]
    have hcell : ∀ x, cell d4 x "SOLD_SIM" = cell d3 x "SOLD_SIM" := fun x => by simp only [cell, hcols]
    simp only [hcell]
    congr 1
    refine List.filter_congr fun r hr => ?_
    have hfail := List.map_inj_left.1 hadded r hr
    have hmem : cell d3 r "SOLD_SIM" ∈ cellsOf d2 "SOLD_SIM" := by
      rw [← hkept, Frame.cellsOf_eq]
      exact List.mem_map.2 ⟨r, hr, rfl⟩
    rw [Frame.cellsOf_eq] at hmem
    obtain ⟨r2, hr2, he⟩ := List.mem_map.1 hmem
    obtain ⟨v, hv⟩ := hsc r2 hr2
    rw [hv] at he
    rw [hfail]
    simp only [Function.comp_apply, ← he, idIn]
    by_cases hv : v = .na <;> simp [hv, Cell.bool]
  rw [e1]
  refine items_perm fun v => ?_
  by_cases hv : v = .na
  · subst hv
    rw [List.count_eq_zero_of_not_mem, List.count_eq_zero_of_not_mem]
    · rintro hm
      obtain ⟨p, hp, e⟩ := List.mem_map.1 hm
      exact hna p hp e
    · simp
  · rw [List.count_filter (by simpa using hv)]
    have := hcount (fun p => p.2 == v) (fun f => by simpa using fun h => hv h.symm)
    rw [List.countP_map] at this
    simp only [List.count_eq_countP, List.countP_map]
    exact this

theorem stocksOk_set {l : List Nat} {w : World σ γ} {b : Nat} {r' : Relationship σ} (h : StocksOk env l w)
    (hr : Reachable env.R r') : StocksOk env l { w with rels := w.rels.set b r' } := by
  intro i hi
  obtain ⟨ri, k1, k2⟩ := h i hi
  by_cases hib : b = i
  · subst hib
    exact ⟨_, List.getElem?_set_self (List.getElem?_eq_some_iff.1 k1).1, hr⟩
  · exact ⟨ri, by rw [List.getElem?_set_ne hib]; exact k1, k2⟩

theorem stockAt_set {o : Orders} {w : World σ γ} {b i : Nat} {r' : Relationship σ} (h : i ≠ b) :
    stockAt o { w with rels := w.rels.set b r' } i = stockAt o w i := by
  rw [stockAt, stockAt, List.getElem?_set_ne (Ne.symm h)]

theorem cons_runs {op : Op (World σ γ)} {ops : List (Op (World σ γ))} {data out : Frame} {ls : List Logs}
    {w w' : World σ γ} (h : Runs (op :: ops) data w out ls w') :
    ∃ d1 w1 l1 ls1, op data w = .ok (d1, l1) w1 ∧ Runs ops d1 w1 out ls1 w' ∧ ls = l1 :: ls1 := by
  cases h with
  | cons h1 h2 => exact ⟨_, _, _, _, h1, h2, rfl⟩

theorem mem_stocks {i : Nat} (hi : i ∈ [0, 1, 2]) : i ∈ stocks := by
  simp only [List.mem_cons, List.not_mem_nil, or_false] at hi ⊢
  rcases hi with rfl | rfl | rfl <;> simp

/-- a purchase gives the SIMs that the dealers lose to the agents -/
theorem purchase_moves {data out : Frame} {ls : List Logs} {w w' : World σ γ}
    (hc : data.cols = ["AGENT"]) (hr : Rect data) (hn : data.index.Nodup) (hok : StocksOk env stocks w)
    (o : Orders) (hna : ∀ p ∈ stockAt o w 1, p.2 ≠ .na)
    (h : Runs (purchaseOps env fmt 1 3 1 2) data w out ls w') :
    StocksOk env stocks w' ∧ (stockAt o w' 4).Perm (stockAt o w 4) ∧
      (holdings o [0, 1, 2] w').Perm (holdings o [0, 1, 2] w) := by
  have hpre : ∀ op ∈ [Ops.timestamp env "DATETIME" true fmt,
      Ops.selectOne env 3 "AGENT" "DEALER" false false false none],
      Apart env (· ∈ stocks) op ∧ OpWithin env (fun _ => True) (fun _ => True)
        (fun c => Clear "SOLD_SIM" c ∧ Clear "FAILED_SALE" c) (fun _ => True) (fun _ => True) op := by
    intro op hop
    simp only [List.mem_cons, List.not_mem_nil, or_false] at hop
    rcases hop with rfl | rfl
    · exact ⟨.adder (.timestamp _ _), .timestamp _ _ _ ⟨clear_of (by decide), clear_of (by decide)⟩⟩
    · exact ⟨.selectOne _ _ _ _ _ _ _ (by simp),
        .selectOne _ _ _ _ _ _ _ ⟨clear_of (by decide), clear_of (by decide)⟩⟩
  obtain ⟨d1, w1, l1, lb, r1, r2, rfl⟩ := runs_split (a := [Ops.timestamp env "DATETIME" true fmt,
      Ops.selectOne env 3 "AGENT" "DEALER" false false false none]) h
  obtain ⟨ok1, s1⟩ := (runs_apart (fun op hop => (hpre op hop).1) r1).stockAt hok
  obtain ⟨rect1, k1⟩ := C82_field_kept (name := "SOLD_SIM") (fun _ h => h.1) (fun op hop => (hpre op hop).2) hr r1
  obtain ⟨-, k1'⟩ := C82_field_kept (name := "FAILED_SALE") (fun _ h => h.2) (fun op hop => (hpre op hop).2) hr r1
  obtain ⟨nd1, -⟩ := C44_at_each_point (fun op hop => (hpre op hop).2.builtIn) hn r1
  obtain ⟨d2, w2, la, ls2, ha, r3, -⟩ := cons_runs r2
  obtain ⟨d3, w3, la, ls3, hb, r4, -⟩ := cons_runs r3
  obtain ⟨d4, w4, la, ls4, hforce, r5, -⟩ := cons_runs r4
  obtain ⟨d5, w5, la, ls5, hlog, r6, -⟩ := cons_runs r5
  obtain ⟨d6, w6, la, ls6, hdrop, r7, -⟩ := cons_runs r6
  obtain ⟨d7, w7, la, ls7, hput, r8, -⟩ := cons_runs r7
  obtain ⟨d8, w8, la, ls8, hback, r9, -⟩ := cons_runs r8
  cases r9
  suffices H : StocksOk env stocks w7 ∧ (stockAt o w7 4).Perm (stockAt o w 4) ∧
      (holdings o [0, 1, 2] w7).Perm (holdings o [0, 1, 2] w) by
    obtain ⟨ok8, s8⟩ := (apart_rels (S := (· ∈ stocks)) (.maybeBackToDefault _) hback).stockAt H.1
    exact ⟨ok8, (s8 o 4 (by simp)).trans H.2.1,
      (holdings_perm fun i hi => s8 o i (mem_stocks hi)).trans H.2.2⟩
  clear hback
  have hs1 : "SOLD_SIM" ∉ d1.cols := by rw [k1.1, hc]; decide
  have hf1 : "FAILED_SALE" ∉ d1.cols := by rw [k1'.1, hc]; decide
  obtain ⟨rl, hrl, hreach⟩ := ok1 1 (by simp)
  have hsc := selectOne_scalar nd1 rect1 hs1 hrl hreach ha
  obtain ⟨-, -, -, -, given, hgiven, hcount⟩ := popped_pairs nd1 rect1 hs1 (clear_of (by decide))
    (stocksOk_mono ok1 (by simp)) o ha
  obtain ⟨-, c1, rl', -, rfl, hreach', -⟩ := C92_select_one nd1 hrl hreach o ha
  have ok2 := stocksOk_set (b := 1) ok1 hreach'
  have hw2 : OpWithin env (fun _ => True) (fun _ => True) (Clear "FAILED_SALE") (fun _ => True) (fun _ => True)
      (Ops.selectOne env 1 "DEALER" "SOLD_SIM" true true false none) :=
    .selectOne _ _ _ _ _ _ _ (clear_of (by decide))
  obtain ⟨rect2, k2⟩ := within_kept (name := "FAILED_SALE") (fun _ h => h) hw2 ha rect1
  obtain ⟨nd2, -⟩ := builtIn_index hw2.builtIn ha nd1
  have hf2 : "FAILED_SALE" ∉ d2.cols := by rw [k2.1]; exact hf1
  have hs2 : "SOLD_SIM" ∈ d2.cols := by rw [c1 hs1]; simp
  obtain ⟨rfl, rfl, values, hv, hadd⟩ := C91_apply_series nd2 rect2 hf2 hb
  cases hv
  obtain ⟨ok4, s4⟩ := (apart_rels (S := (· ∈ stocks)) (.forceActNext _ _ _) hforce).stockAt ok2
  obtain ⟨-, hd4⟩ := sideEffect_eq_ok.1 hforce
  cases hd4
  obtain ⟨ok5, s5⟩ := (apart_rels (env := env) (S := (· ∈ stocks)) (.fieldLogger _ _ _) hlog).stockAt ok4
  obtain ⟨t0, -, hl2, -⟩ := fieldLogger_eq_ok.1 hlog
  cases hl2
  obtain ⟨rfl, -, hcols, hrows, -⟩ := C46_drop_row hdrop
  obtain ⟨r2, hr2, hreach2⟩ := ok5 2 (by simp)
  obtain ⟨rfl, -, r2', rfl, hreach2', hput⟩ := C93_add hr2 hreach2 o o hput
  have hitems := sold_items hcount hsc hs2 hadd hcols hrows (fun p hp =>
    hna p ((s1 o 1 (by simp)).mem_iff.1 (hgiven.mem_iff.2 (List.mem_append.2 (.inr hp)))))
  refine ⟨stocksOk_set ok5 hreach2', ?_, ?_⟩
  · rw [stockAt_set (by decide)]
    refine (s5 o 4 (by simp)).trans ((s4 o 4 (by simp)).trans ?_)
    rw [stockAt_set (by decide)]
    exact s1 o 4 (by simp)
  · have key := holdings_change (o := o) (stocks := [0, 1, 2]) (w := w)
      (w' := { w6 with rels := w6.rels.set 2 r2' })
      (fun i => if i = 2 then d7.rows.map fun x => (idIn (cell d7 x "AGENT"), idIn (cell d7 x "SOLD_SIM")) else [])
      (fun i => if i = 1 then given else []) ?_
    · rw [show ([0, 1, 2].flatMap fun i => (if i = 1 then given else []).map Prod.snd) = given.map Prod.snd by
          simp,
        show ([0, 1, 2].flatMap fun i => (if i = 2 then d7.rows.map fun x =>
          (idIn (cell d7 x "AGENT"), idIn (cell d7 x "SOLD_SIM")) else []).map Prod.snd) =
          d7.rows.map fun x => idIn (cell d7 x "SOLD_SIM") by simp [Function.comp_def]] at key
      exact (List.perm_append_right_iff _).1 (key.trans (hitems.append_left _))
    · intro i hi
      simp only [List.mem_cons, List.not_mem_nil, or_false] at hi
      rcases hi with rfl | rfl | rfl
      · simp only [stockAt_set (show 0 ≠ 2 by decide), if_neg (show 0 ≠ 1 by decide),
          if_neg (show 0 ≠ 2 by decide), List.append_nil]
        refine (s5 o 0 (by simp)).trans ((s4 o 0 (by simp)).trans ?_)
        rw [stockAt_set (by decide)]
        exact s1 o 0 (by simp)
      · simp only [stockAt_set (show 1 ≠ 2 by decide), if_true, if_neg (show 1 ≠ 2 by decide), List.append_nil]
        refine (((s5 o 1 (by simp)).trans (s4 o 1 (by simp))).append_right _).trans ?_
        exact hgiven.symm.trans (s1 o 1 (by simp))
      · simp only [if_neg (show 2 ≠ 1 by decide), if_true, List.append_nil]
        rw [stockAt_of (r := r2') (List.getElem?_set_self (List.getElem?_eq_some_iff.1 hr2).1)]
        have e := hput.map fun x => (x.1, x.2.1)
        rw [List.map_append, List.map_map, ← stockAt_of hr2] at e
        refine e.trans ?_
        refine List.Perm.append ((s5 o 2 (by simp)).trans ((s4 o 2 (by simp)).trans ?_)) (.refl _)
        rw [stockAt_set (by decide)]
        exact s1 o 2 (by simp)

/-- the sizes of the bulk purchases of the dealers are natural numbers -/
structure SizesOk (w : World σ γ) : Prop where
  sizes : ∃ p a, w.pops[1]? = some p ∧ Population.WF p ∧ p.attributes = [("BULK_BUY_SIZE", a)] ∧
    ∀ x ∈ a.table, ∃ n : Nat, x.2 = .num (n : Rat)

/-- the distributors that the dealers are given -/
theorem distributors_given {d1 d2 : Frame} {logs : Logs} {w w' : World σ γ} (hd : NamesOwn "DEALER_ID" d1)
    (hnew : "DISTRIBUTOR" ∉ d1.cols) (hok : StocksOk env stocks w) (o : Orders)
    (hhas : ∀ i ∈ d1.index, i ∈ (stockAt o w 4).map Prod.fst)
    (h : Ops.selectOne env 4 "DEALER_ID" "DISTRIBUTOR" false false false none d1 w = .ok (d2, logs) w') :
    ∀ y ∈ d2.rows, (y.idx, idIn (cell d2 y "DISTRIBUTOR")) ∈ stockAt o w 4 := by
  obtain ⟨hrect, hn, hown⟩ := hd
  obtain ⟨r, hr, hreach⟩ := hok 4 (by simp)
  obtain ⟨-, c1, r', chosen, -, -, c2, c3, c4, -⟩ := C92_select_one hn hr hreach o h
  intro y hy
  rw [c2] at hy
  obtain ⟨x, hx, hy⟩ := List.mem_filterMap.1 hy
  obtain ⟨t, ht, rfl⟩ := Option.map_eq_some_iff.1 hy
  have hid : idIn (cell d1 x "DEALER_ID") = x.idx := by rw [hown x hx]; rfl
  have hcell : idIn (cell d2 ⟨x.idx, x.cells ++ [.scalar (t.getD .na)]⟩ "DISTRIBUTOR") = t.getD .na := by
    rw [Frame.cell_append_right (f := d1) (g := ⟨["DISTRIBUTOR"], []⟩) (a := x)
      (b := ⟨x.idx, [.scalar (t.getD .na)]⟩) (c1 hnew) (hrect x hx) rfl hnew]
    simp [cell, idIn]
  rw [hcell]
  cases t with
  | none =>
    exfalso
    refine (c4 x hx ht).2 ?_
    rw [hid]
    obtain ⟨p, hp, e⟩ := List.mem_map.1 (hhas x.idx (List.mem_map.2 ⟨x, hx, rfl⟩))
    rw [stockAt_of hr] at hp
    obtain ⟨q, hq, rfl⟩ := List.mem_map.1 hp
    exact ⟨q.2.1, q.2.2, by rw [← e]; exact hq⟩
  | some t =>
    obtain ⟨wt, hwt⟩ := c3 x hx t ht
    rw [hid] at hwt
    rw [stockAt_of hr]
    exact List.mem_map.2 ⟨_, hwt, rfl⟩

/-- pairs that leave a stock of SIMs and enter another one -/
theorem holdings_moved {a b : Nat} (ha : a ∈ [0, 1, 2]) (hb : b ∈ [0, 1, 2]) {o : Orders} {w w' : World σ γ}
    {l l' : List (Val × Val)}
    (hl : (l'.map Prod.snd).Perm (l.map Prod.snd))
    (h : ∀ i ∈ stocks, (stockAt o w' i ++ if i = a then l else []).Perm
      (stockAt o w i ++ if i = b then l' else [])) :
    (holdings o [0, 1, 2] w').Perm (holdings o [0, 1, 2] w) := by
  have key := holdings_change (o := o) (stocks := [0, 1, 2]) (fun i => if i = b then l' else [])
    (fun i => if i = a then l else []) (fun i hi => h i (mem_stocks hi))
  have e : ∀ (a : Nat), a ∈ [0, 1, 2] → ∀ l : List (Val × Val),
      ([0, 1, 2].flatMap fun i => (if i = a then l else []).map Prod.snd) = l.map Prod.snd := by
    intro a ha l
    simp only [List.mem_cons, List.not_mem_nil, or_false] at ha
    rcases ha with rfl | rfl | rfl <;> simp
  rw [e a ha, e b hb] at key
  exact (List.perm_append_right_iff _).1 (key.trans (hl.append_left _))

theorem bulk_moves {data out : Frame} {ls : List Logs} {w w' : World σ γ}
    (hc : data.cols = ["DEALER_ID"]) (hd : NamesOwn "DEALER_ID" data) (hok : StocksOk env stocks w)
    (o : Orders) (hhas : ∀ i ∈ data.index, i ∈ (stockAt o w 4).map Prod.fst)
    (hinj : ((stockAt o w 4).map Prod.snd).Nodup) (hsz : SizesOk w)
    (h : Runs (bulkOps env fmt 2 0 1 0 4 0 1) data w out ls w') :
    StocksOk env stocks w' ∧ (stockAt o w' 4).Perm (stockAt o w 4) ∧
      (holdings o [0, 1, 2] w').Perm (holdings o [0, 1, 2] w) := by
  obtain ⟨d1, w1, l1, ls1, h1, r1, -⟩ := cons_runs h
  obtain ⟨d2, w2, l2, ls2, h2, r2, -⟩ := cons_runs r1
  obtain ⟨d3, w3, l3, ls3, h3, r3, -⟩ := cons_runs r2
  obtain ⟨d5, w5, l5, l6, h4, r6, -⟩ := runs_split (a := [Ops.selectMany env 0 "DISTRIBUTOR" "SIM_BULK"
    "BULK_BUY_SIZE" true true, Ops.relAddGrouped env 1 "DEALER_ID" "SIM_BULK"]) r3
  -- the time
  have own1 : NamesOwn "DEALER_ID" d1 := within_namesOwn (F := fun _ => True) (Z := fun _ => True)
    (D := fun _ => True) (L := fun _ => True) (ops := [Ops.timestamp env "DATETIME" true fmt])
    (by rintro op hop; rw [List.mem_singleton] at hop; subst hop; exact .timestamp _ _ _ (clear_of (by decide)))
    (.cons h1 (.nil _ _)) hd
  have idx1 : ∀ i ∈ d1.index, i ∈ data.index := (builtIn_index (env := env) (F := fun _ => True)
    (Z := fun _ => True) (.adder (.timestamp _ _)) h1 hd.2.1).2
  have new1 : ∀ c, Clear c "DATETIME" → (c ∈ d1.cols ↔ c ∈ data.cols) := fun c hcl =>
    (within_kept (env := env) (F := fun _ => True) (Z := fun _ => True) (D := fun _ => True)
      (L := fun _ => True) (name := c) (fun _ h => h) (.timestamp _ _ _ hcl) h1 hd.1).2.1
  obtain ⟨ok1, s1⟩ := (RelsKept.of_eq (S := (· ∈ stocks)) (columnAdder_rels (.timestamp _ _) h1)).stockAt hok
  have p1 := columnAdder_pops (env := env) (.timestamp _ _) h1
  -- the distributor
  have hdist : "DISTRIBUTOR" ∉ d1.cols := by rw [new1 _ (clear_of (by decide)), hc]; decide
  have hpairs := distributors_given own1 hdist ok1 o (fun i hi =>
    ((s1 o 4 (by simp)).map Prod.fst).mem_iff.2 (hhas i (idx1 i hi))) h2
  have own2 : NamesOwn "DEALER_ID" d2 := within_namesOwn (F := fun _ => True) (Z := fun _ => True)
    (D := fun _ => True) (L := fun _ => True)
    (ops := [Ops.selectOne env 4 "DEALER_ID" "DISTRIBUTOR" false false false none])
    (by rintro op hop; rw [List.mem_singleton] at hop; subst hop
        exact .selectOne _ _ _ _ _ _ _ (clear_of (by decide)))
    (.cons h2 (.nil _ _)) own1
  have new2 : "BULK_BUY_SIZE" ∉ d2.cols := by
    rw [(within_kept (env := env) (F := fun _ => True) (Z := fun _ => True) (D := fun _ => True)
      (L := fun _ => True) (name := "BULK_BUY_SIZE") (fun _ h => h)
      (.selectOne _ _ _ _ _ _ _ (clear_of (by decide))) h2 own1.1).2.1, new1 _ (clear_of (by decide)), hc]
    decide
  obtain ⟨ok2, s2⟩ := (apart_rels (S := (· ∈ stocks)) (.selectOne _ _ _ _ _ _ _ (by simp)) h2).stockAt ok1
  obtain ⟨rel, hrel, hreach⟩ := ok1 4 (by simp)
  obtain ⟨-, c1, rel', -, rfl, -⟩ := C92_select_one own1.2.1 hrel hreach o h2
  have hdist2 : "DISTRIBUTOR" ∈ d2.cols := by rw [c1 hdist]; simp
  -- the size
  obtain ⟨p, a, hp, hwf, hat, hnat⟩ := hsz.sizes
  have own3 : NamesOwn "DEALER_ID" d3 := within_namesOwn (env := env) (F := fun _ => True) (Z := fun _ => True)
    (D := fun _ => True) (L := fun _ => True)
    (ops := [Ops.lookup 1 "DEALER_ID" [("BULK_BUY_SIZE", "BULK_BUY_SIZE")]])
    (by rintro op hop; rw [List.mem_singleton] at hop; subst hop
        exact .lookup _ _ _ (by decide) (by
          intro s hs; rw [List.mem_singleton] at hs; subst hs; exact clear_of (by decide)))
    (.cons h3 (.nil _ _)) own2
  obtain ⟨rfl, -, e1, e2, e3, e4⟩ := C56_lookup (p := p) (by rw [← hp, ← p1]) hwf own2.2.1 own2.1 (by decide)
    (by intro s hs; rw [List.mem_singleton] at hs; subst hs; exact new2) h3
  have hq : ∀ x ∈ d3.rows, ∃ n : Nat, cell d3 x "BULK_BUY_SIZE" = .num (n : Rat) := by
    intro x hx
    obtain ⟨k, hk, rfl⟩ := List.mem_iff_getElem.1 hx
    have hlen : d2.rows.length = d3.rows.length := by
      have := congrArg List.length e1
      simpa [Frame.index] using this.symm
    obtain ⟨a', ha', hl⟩ := e4 k _ _ (List.getElem?_eq_getElem (by omega)) (List.getElem?_eq_getElem hk)
      ("BULK_BUY_SIZE", "BULK_BUY_SIZE") (by simp)
    rw [attributeOf, hat, List.mem_singleton] at ha'
    obtain rfl := (Prod.mk.inj ha').2
    rw [own2.2.2 _ (List.getElem_mem _)] at hl
    exact hnat _ hl
  have hgiver : (d3.rows.map fun x => idIn (cell d3 x "DISTRIBUTOR")).Nodup := by
    have e := congrArg (List.map idIn) (e3 "DISTRIBUTOR" hdist2)
    rw [Frame.cellsOf_eq, Frame.cellsOf_eq, List.map_map, List.map_map] at e
    rw [show (d3.rows.map fun x => idIn (cell d3 x "DISTRIBUTOR")) = _ from e]
    refine List.Nodup.map_on ?_ (List.Nodup.of_map _ own2.2.1)
    intro x hx y hy hxy
    have hx' := hpairs x hx
    have hy' := hpairs y hy
    have hinj1 : ((stockAt o w1 4).map Prod.snd).Nodup := ((s1 o 4 (by simp)).map Prod.snd).nodup_iff.2 hinj
    have := List.inj_on_of_nodup_map hinj1 hx' hy' hxy
    exact List.inj_on_of_nodup_map own2.2.1 hx hy (congrArg Prod.fst this)
  have hq' : ∀ x, ∃ n : Nat, x ∈ d3.rows → cell d3 x "BULK_BUY_SIZE" = .num (n : Rat) := by
    intro x
    by_cases hx : x ∈ d3.rows
    · obtain ⟨n, hn⟩ := hq x hx
      exact ⟨n, fun _ => hn⟩
    · exact ⟨0, fun h => absurd h hx⟩
  choose qty hqty using hq'
  -- the SIMs
  obtain ⟨ok5, moved, -, givers, -, hmv⟩ := C100_bulks_change_hands (stocks := stocks) (mid := [])
    (by simp) (by simp) (by simp) ok2 own3.1 own3.2.1 hgiver (qty := qty) (fun x hx => hqty x hx) h4 o
  have hpost : ∀ op ∈ [Ops.applySeries ["SIM_BULK"] "NUMBER_OF_SIMS" lengths,
      Ops.attrAdd 0 "SIMS_TO_RESTOCK" "DISTRIBUTOR" "NUMBER_OF_SIMS" false,
      Ops.forceActNext 0 "DISTRIBUTOR",
      Ops.fieldLogger "bulk_purchases" ["DEALER_ID", "DISTRIBUTOR", "NUMBER_OF_SIMS"] [],
      Ops.maybeBackToDefault env 2],
      Apart env (· ∈ stocks) op := by
    intro op hop
    simp only [List.mem_cons, List.not_mem_nil, or_false] at hop
    rcases hop with rfl | rfl | rfl | rfl | rfl
    · exact .adder (.applySeries _ _)
    · exact .attrAdd _ _ _ _ _
    · exact .forceActNext _ _ _
    · exact .fieldLogger _ _ _
    · exact .maybeBackToDefault _
  obtain ⟨ok6, s6⟩ := (runs_apart hpost r6).stockAt ok5
  refine ⟨ok6, ?_, ?_⟩
  · have h4 := hmv 4 (by simp)
    simp only [if_neg (show 4 ≠ 0 by decide), if_neg (show 4 ≠ 1 by decide), List.append_nil] at h4
    exact (s6 o 4 (by simp)).trans (h4.trans ((s2 o 4 (by simp)).trans (s1 o 4 (by simp))))
  · have key := holdings_moved (a := 0) (b := 1) (by simp) (by simp) (by
      simp only [List.map_flatMap, List.map_map, Function.comp_def]
      exact .refl _) hmv
    exact (holdings_perm fun i hi => s6 o i (mem_stocks hi)).trans (key.trans
      ((holdings_perm fun i hi => s2 o i (mem_stocks hi)).trans
        (holdings_perm fun i hi => s1 o i (mem_stocks hi))))

/-! ### The dealers -/

/-- an operation that leaves a population as it is -/
def KeepsPop (k : Nat) (op : Op (World σ γ)) : Prop := ∀ (data : Frame) (out : Frame × Logs) (w w' : World σ γ),
  op data w = .ok out w' → w'.pops[k]? = w.pops[k]?

theorem KeepsPop.of_pops {k : Nat} {op : Op (World σ γ)} (h : ∀ (data : Frame) (out : Frame × Logs)
    (w w' : World σ γ), op data w = .ok out w' → w'.pops = w.pops) : KeepsPop k op :=
  fun data out w w' hw => by rw [h data out w w' hw]

theorem KeepsPop.adder {k : Nat} {name : String} {op : Op (World σ γ)} (h : ColumnAdder env name op) :
    KeepsPop k op := .of_pops fun _ _ _ _ => columnAdder_pops h

theorem KeepsPop.relAdd {k rel : Nat} {f i : String} : KeepsPop k (Ops.relAdd env rel f i) :=
  .of_pops fun _ _ _ _ => onRel_pops

theorem KeepsPop.relAddGrouped {k rel : Nat} {f i : String} : KeepsPop k (Ops.relAddGrouped env rel f i) :=
  .of_pops fun _ _ _ _ => onRel_pops

theorem KeepsPop.selectOne {k rel : Nat} {f n : String} {o p d : Bool} {wt : Option (Dict Val Rat)} :
    KeepsPop k (Ops.selectOne env rel f n o p d wt) := .of_pops fun _ _ _ _ h => by
  obtain ⟨_, _, _, _, -, -, -, rfl, -⟩ := selectOne_eq_ok h
  rfl

theorem KeepsPop.selectMany {k rel : Nat} {f n q : String} {p d : Bool} :
    KeepsPop k (Ops.selectMany env rel f n q p d) := .of_pops fun _ _ _ _ h => by
  obtain ⟨_, _, _, _, _, -, -, -, -, rfl, -⟩ := selectMany_eq_ok h
  rfl

theorem KeepsPop.lookup {k pop : Nat} {i : String} {sel : Dict String String} :
    KeepsPop k (Ops.lookup pop i sel : Op (World σ γ)) := .of_pops fun _ _ _ _ h => by
  obtain ⟨o, h1, -⟩ := addColumns_eq_ok.1 h
  obtain ⟨p, w1, h2, h3⟩ := Act.bind_eq_ok.1 h1
  obtain ⟨-, rfl⟩ := getPop_eq_ok.1 h2
  obtain ⟨-, rfl⟩ := Act.ofPy_eq_ok.1 h3
  rfl

theorem KeepsPop.fieldLogger {k : Nat} {id : String} {cols ex : List String} :
    KeepsPop k (Ops.fieldLogger id cols ex : Op (World σ γ)) := .of_pops fun _ _ _ _ h => by
  obtain ⟨_, w1, h1, h⟩ := Act.bind_eq_ok.1 h
  obtain ⟨-, rfl⟩ := Act.ofPy_eq_ok.1 h1
  obtain ⟨-, rfl⟩ := Act.pure_eq_ok.1 h
  rfl

theorem KeepsPop.dropRow {k : Nat} {field : String} : KeepsPop k (Ops.dropRow field : Op (World σ γ)) :=
  .of_pops fun _ _ _ _ h => by
    obtain ⟨rfl, -⟩ := transform_eq_ok.1 h
    rfl

theorem KeepsPop.forceActNext {k story : Nat} {i : String} {c : Option String} :
    KeepsPop k (Ops.forceActNext story i c : Op (World σ γ)) := .of_pops fun _ _ _ _ h => by
  obtain ⟨h, -⟩ := sideEffect_eq_ok.1 h
  split at h
  · obtain ⟨-, rfl⟩ := Act.pure_eq_ok.1 h
    rfl
  · obtain ⟨_, w1, h1, h⟩ := Act.bind_eq_ok.1 h
    obtain ⟨_, w2, h2, h⟩ := Act.bind_eq_ok.1 h
    obtain ⟨-, rfl⟩ := Act.ofPy_eq_ok.1 h1
    obtain ⟨-, rfl⟩ := Act.ofPy_eq_ok.1 h2
    obtain ⟨s, s', h3, h4, rfl⟩ := onStory_eq_ok.1 h
    rfl

theorem KeepsPop.resetTimers {k story : Nat} {i : Option String} : KeepsPop k (Ops.resetTimers env story i) :=
  .of_pops fun _ _ _ _ h => by
    obtain ⟨h, -⟩ := sideEffect_eq_ok.1 h
    obtain ⟨_, w1, h1, h⟩ := Act.bind_eq_ok.1 h
    obtain ⟨-, rfl⟩ := Act.ofPy_eq_ok.1 h1
    exact resetTimers_pops h

theorem KeepsPop.maybeBack {k story : Nat} : KeepsPop k (Ops.maybeBackToDefault env story) :=
  .of_pops fun _ _ _ _ h => by
    obtain ⟨h, -⟩ := sideEffect_eq_ok.1 h
    obtain ⟨s, s', h3, h4, rfl⟩ := onStory_eq_ok.1 h
    rfl

theorem KeepsPop.transitToState {k story : Nat} {i : String} {src : Ops.StateSource} {c : Option String} :
    KeepsPop k (Ops.transitToState story i src c : Op (World σ γ)) := .of_pops fun _ _ _ _ h => by
  obtain ⟨h, -⟩ := sideEffect_eq_ok.1 h
  obtain ⟨_, w1, h1, h⟩ := Act.bind_eq_ok.1 h
  obtain ⟨_, w2, h2, h⟩ := Act.bind_eq_ok.1 h
  obtain ⟨-, rfl⟩ := Act.ofPy_eq_ok.1 h1
  obtain ⟨-, rfl⟩ := Act.ofPy_eq_ok.1 h2
  obtain ⟨s, s', h3, h4, rfl⟩ := onStory_eq_ok.1 h
  rfl

theorem KeepsPop.attrAdd {k pop : Nat} (hp : pop ≠ k) {name i a : String} {sub : Bool} :
    KeepsPop k (Ops.attrAdd pop name i a sub : Op (World σ γ)) := by
  intro data out w w' h
  obtain ⟨h, -⟩ := sideEffect_eq_ok.1 h
  split at h
  · obtain ⟨-, rfl⟩ := Act.pure_eq_ok.1 h
    rfl
  · obtain ⟨_, w1, h1, h⟩ := Act.bind_eq_ok.1 h
    obtain ⟨_, w2, h2, h⟩ := Act.bind_eq_ok.1 h
    obtain ⟨_, w3, h3, h⟩ := Act.bind_eq_ok.1 h
    obtain ⟨-, rfl⟩ := Act.ofPy_eq_ok.1 h1
    obtain ⟨-, rfl⟩ := Act.ofPy_eq_ok.1 h2
    obtain ⟨-, rfl⟩ := Act.ofPy_eq_ok.1 h3
    obtain ⟨p, w1, h1, h⟩ := Act.bind_eq_ok.1 h
    obtain ⟨a, w2, h2, h⟩ := Act.bind_eq_ok.1 h
    obtain ⟨a', w3, h3, h⟩ := Act.bind_eq_ok.1 h
    obtain ⟨-, rfl⟩ := getPop_eq_ok.1 h1
    obtain ⟨-, rfl⟩ := Act.ofPy_eq_ok.1 h2
    obtain ⟨-, rfl⟩ := Act.ofPy_eq_ok.1 h3
    have h3 := setPop_eq_ok.1 h
    subst h3
    exact List.getElem?_set_ne hp

theorem KeepsPop.popUpdate {k pop : Nat} (hp : pop ≠ k) {i : String} {copy : Dict String String} :
    KeepsPop k (Ops.popUpdate pop i copy : Op (World σ γ)) := by
  intro data out w w' h
  obtain ⟨h, -⟩ := sideEffect_eq_ok.1 h
  obtain ⟨_, w1, h1, h⟩ := Act.bind_eq_ok.1 h
  obtain ⟨_, w2, h2, h⟩ := Act.bind_eq_ok.1 h
  obtain ⟨_, w3, h3, h⟩ := Act.bind_eq_ok.1 h
  obtain ⟨-, rfl⟩ := Act.ofPy_eq_ok.1 h1
  obtain ⟨-, rfl⟩ := getPop_eq_ok.1 h2
  obtain ⟨-, rfl⟩ := Act.ofPy_eq_ok.1 h3
  have h3 := setPop_eq_ok.1 h
  subst h3
  exact List.getElem?_set_ne hp

theorem runs_keepsPop {k : Nat} {ops : List (Op (World σ γ))} (hops : ∀ op ∈ ops, KeepsPop k op)
    {data out : Frame} {ls : List Logs} {w w' : World σ γ} (h : Runs ops data w out ls w') :
    w'.pops[k]? = w.pops[k]? := by
  induction h with
  | nil => rfl
  | cons h _ ih => exact (ih fun o ho => hops o (by simp [ho])).trans (hops _ (by simp) _ _ _ _ h)

/-- the operations of all the stories of the scenario leave the dealers as they are -/
theorem chains_keepsPop {rg xg : GenRef} : ∀ ops ∈ [restockOps env fmt 0 0 0 (.ref 1), purchaseOps env fmt 1 3 1 2,
    bulkOps env fmt 2 0 1 0 4 0 1, leaveOps env fmt 3 1 4, returnOps env fmt 4 1, reviewOps env fmt 5 2 3 rg xg],
    ∀ op ∈ ops, KeepsPop 1 op := by
  intro ops hops op hop
  simp only [List.mem_cons, List.not_mem_nil, or_false] at hops
  rcases hops with rfl | rfl | rfl | rfl | rfl | rfl <;>
    simp only [restockOps, purchaseOps, bulkOps, leaveOps, returnOps, reviewOps, List.mem_cons,
      List.not_mem_nil, or_false] at hop
  · rcases hop with rfl | rfl | rfl | rfl | rfl | rfl | rfl
    · exact .adder (.timestamp _ _)
    · exact .lookup
    · exact .adder (.randomValues _ _)
    · exact .relAddGrouped
    · exact .attrAdd (by decide)
    · exact .fieldLogger
    · exact .maybeBack
  · rcases hop with rfl | rfl | rfl | rfl | rfl | rfl | rfl | rfl | rfl
    · exact .adder (.timestamp _ _)
    · exact .selectOne
    · exact .selectOne
    · exact .adder (env := env) (.applySeries _ _)
    · exact .forceActNext
    · exact .fieldLogger
    · exact .dropRow
    · exact .relAdd
    · exact .maybeBack
  · rcases hop with rfl | rfl | rfl | rfl | rfl | rfl | rfl | rfl | rfl | rfl
    · exact .adder (.timestamp _ _)
    · exact .selectOne
    · exact .lookup
    · exact .selectMany
    · exact .relAddGrouped
    · exact .adder (env := env) (.applySeries _ _)
    · exact .attrAdd (by decide)
    · exact .forceActNext
    · exact .fieldLogger
    · exact .maybeBack
  · rcases hop with rfl | rfl | rfl | rfl | rfl | rfl
    · exact .transitToState
    · exact .resetTimers
    · exact .adder (.timestamp _ _)
    · exact .adder (.randomValues _ _)
    · exact .fieldLogger
    · exact .maybeBack
  · rcases hop with rfl | rfl | rfl | rfl | rfl
    · exact .transitToState
    · exact .adder (.timestamp _ _)
    · exact .adder (.randomValues _ _)
    · exact .fieldLogger
    · exact .maybeBack
  · rcases hop with rfl | rfl | rfl | rfl | rfl | rfl | rfl
    · exact .adder (.timestamp _ _)
    · exact .lookup
    · exact .adder (.randomValues _ _)
    · exact .adder (.randomValues _ _)
    · exact .popUpdate (by decide)
    · exact .fieldLogger
    · exact .maybeBack

section
variable {R : Rng σ} {env : Env σ (AnyGen σ)}

/-- a restock adds new SIMs only, each with the next id -/
theorem restock_adds (hs : env.sem = AnyGen.sem R) {data out : Frame} {ls : List Logs}
    {w w' : World σ (AnyGen σ)} (hc : data.cols = ["DISTRIBUTOR_ID"]) (hr : Rect data)
    (hn : data.index.Nodup) (hok : StocksOk env stocks w) (o : Orders) {a : SeqGen}
    (ha : w.gens[1]? = some (.seq a)) (hnt : NoTimerUses 1 w)
    (h : Runs (restockOps env fmt 0 0 0 (.ref 1)) data w out ls w') :
    StocksOk env stocks w' ∧ (stockAt o w' 4).Perm (stockAt o w 4) ∧ ∃ m : Nat,
      w'.gens[1]? = some (.seq { a with counter := a.counter + m }) ∧
      (holdings o [0, 1, 2] w').Perm (holdings o [0, 1, 2] w ++ Spec.idsFrom a m) := by
  have hpre : ∀ op ∈ [Ops.timestamp env "DATETIME" true fmt,
      Ops.lookup 0 "DISTRIBUTOR_ID" [("SIMS_TO_RESTOCK", "SIMS_TO_RESTOCK")]],
      Apart env (· ∈ stocks) op ∧ OpWithin env (fun _ => True) (fun _ => True)
        (Clear "NEW_SIMS_IDS") (· ≠ 1) (fun _ => True) op := by
    intro op hop
    simp only [List.mem_cons, List.not_mem_nil, or_false] at hop
    rcases hop with rfl | rfl
    · exact ⟨.adder (.timestamp _ _), .timestamp _ _ _ (clear_of (by decide))⟩
    · exact ⟨.lookup _ _ _, .lookup _ _ _ (by decide) (by
        intro s hs; rw [List.mem_singleton] at hs; subst hs; exact clear_of (by decide))⟩
  have hpost : ∀ op ∈ [Ops.attrAdd 0 "SIMS_TO_RESTOCK" "DISTRIBUTOR_ID" "SIMS_TO_RESTOCK" true,
      Ops.fieldLogger "distributor_restock" ["DATETIME", "DISTRIBUTOR_ID", "SIMS_TO_RESTOCK"] [],
      Ops.maybeBackToDefault env 0],
      Apart env (· ∈ stocks) op ∧ OpWithin env (fun _ => True) (fun _ => True)
        (fun _ => True) (· ≠ 1) (fun _ => True) op := by
    intro op hop
    simp only [List.mem_cons, List.not_mem_nil, or_false] at hop
    rcases hop with rfl | rfl | rfl
    · exact ⟨.attrAdd _ _ _ _ _, .effect (.attrAdd _ _ _ _ _)⟩
    · exact ⟨.fieldLogger _ _ _, .fieldLogger _ _ _ trivial⟩
    · exact ⟨.maybeBackToDefault _, .effect (.maybeBackToDefault _)⟩
  obtain ⟨d1, w1, l1, lb, r1, r2, -⟩ := runs_split (a := [Ops.timestamp env "DATETIME" true fmt,
      Ops.lookup 0 "DISTRIBUTOR_ID" [("SIMS_TO_RESTOCK", "SIMS_TO_RESTOCK")]]) h
  obtain ⟨d2, w2, l2, ls2, h2, r3, -⟩ := cons_runs r2
  obtain ⟨d3, w3, l3, ls3, h3, r4, -⟩ := cons_runs r3
  obtain ⟨ok1, s1⟩ := (runs_apart (fun op hop => (hpre op hop).1) r1).stockAt hok
  obtain ⟨rect1, k1⟩ := C82_field_kept (name := "NEW_SIMS_IDS") (fun _ h => h) (fun op hop => (hpre op hop).2) hr r1
  obtain ⟨nd1, -⟩ := C44_at_each_point (fun op hop => (hpre op hop).2.builtIn) hn r1
  obtain ⟨g1, nt1⟩ := C82_generator_kept (i := 1) (by simp) (fun op hop => (hpre op hop).2) hnt r1
  have hnew : "NEW_SIMS_IDS" ∉ d1.cols := by rw [k1.1, hc]; decide
  obtain ⟨-, qties, lists, flat, -, hadd, hgen, hflat⟩ := C91_bulk_values nd1 rect1 hnew h2
  obtain ⟨rfl, g2⟩ := call_seq hs (g1.trans ha) hgen
  have hids : (a.generate ((qties.sum : Nat) : Rat)).1.map Cell.str = (Spec.idsFrom a qties.sum).map Cell.scalar := by
    rw [SeqGen.generate, build_ids]
    simp [Spec.idsFrom, arange, AnyGen.pyInt_natCast]
  obtain ⟨-, hlists⟩ := hflat (by rw [hids]; simp [Spec.idsFrom])
  rw [hids] at hlists
  have hlists : lists.flatten = Spec.idsFrom a qties.sum := by
    refine List.map_injective_iff.2 ?_ hlists
    intro x y hxy; cases hxy; rfl
  obtain ⟨l, -, e2⟩ := call_rest hgen
  have nt2 : NoTimerUses 1 w2 := by rw [e2]; exact nt1
  obtain ⟨ok2, s2⟩ := (RelsKept.of_eq (S := (· ∈ stocks)) (columnAdder_rels (.randomValues _ _) h2)).stockAt ok1
  obtain ⟨r0, hr0, hreach0⟩ := ok2 0 (by simp)
  obtain ⟨g3, nt3⟩ := C82_generator_kept (env := env) (i := 1) (F := fun _ => True) (Z := fun _ => True)
    (A := fun _ => True) (D := (· ≠ 1)) (L := fun _ => True) (by simp)
    (ops := [Ops.relAddGrouped env 0 "DISTRIBUTOR_ID" "NEW_SIMS_IDS"])
    (by rintro op hop; rw [List.mem_singleton] at hop; subst hop; exact .effect (.relAddGrouped _ _ _)) nt2
    (.cons h3 (.nil _ _))
  obtain ⟨rfl, -, r0', rfl, hreach0', hput⟩ := C93_add_grouped hr0 hreach0 o o h3
  have ok3 := stocksOk_set (b := 0) ok2 hreach0'
  obtain ⟨ok4, s4⟩ := (runs_apart (fun op hop => (hpost op hop).1) r4).stockAt ok3
  obtain ⟨g4, -⟩ := C82_generator_kept (i := 1) (by simp) (fun op hop => (hpost op hop).2) nt3 r4
  refine ⟨ok4, ?_, qties.sum, ?_, ?_⟩
  · refine (s4 o 4 (by simp)).trans ?_
    rw [stockAt_set (by decide)]
    exact (s2 o 4 (by simp)).trans (s1 o 4 (by simp))
  · rw [g4, g3, g2]
    simp [SeqGen.generate, AnyGen.pyInt_natCast]
  · have e := hput.map fun x => (x.1, x.2.1)
    rw [List.map_append, ← stockAt_of hr0, List.map_flatMap] at e
    have key := holdings_change (o := o) (stocks := [0, 1, 2]) (w := w2)
      (w' := { w2 with rels := w2.rels.set 0 r0' }) (fun i => if i = 0 then d3.rows.flatMap fun x =>
        (listIn (cell d3 x "NEW_SIMS_IDS")).map fun t => (idIn (cell d3 x "DISTRIBUTOR_ID"), t) else [])
      (fun _ => []) ?_
    · refine (holdings_perm fun i hi => s4 o i (mem_stocks hi)).trans ?_
      rw [show ([0, 1, 2].flatMap fun _ => ([] : List (Val × Val)).map Prod.snd) = [] by simp,
        List.append_nil, show ([0, 1, 2].flatMap fun i => (if i = 0 then d3.rows.flatMap fun x =>
          (listIn (cell d3 x "NEW_SIMS_IDS")).map fun t => (idIn (cell d3 x "DISTRIBUTOR_ID"), t)
          else []).map Prod.snd) = d3.rows.flatMap fun x => listIn (cell d3 x "NEW_SIMS_IDS") by
          simp [List.map_flatMap, Function.comp_def]] at key
      have hl : (d3.rows.flatMap fun x => listIn (cell d3 x "NEW_SIMS_IDS")) = lists.flatten := by
        have := congrArg (List.flatMap listIn) hadd.added
        rw [Frame.cellsOf_eq, List.flatMap_map, List.flatMap_map] at this
        rw [this]
        simp [listIn, List.flatMap_id']
      rw [hl, hlists] at key
      refine key.trans (List.Perm.append_right _ ?_)
      exact (holdings_perm fun i hi => s2 o i (mem_stocks hi)).trans
        (holdings_perm fun i hi => s1 o i (mem_stocks hi))
    · intro i hi
      rw [List.append_nil]
      by_cases h0 : i = 0
      · subst h0
        rw [if_pos rfl, stockAt_of (r := r0') (List.getElem?_set_self (List.getElem?_eq_some_iff.1 hr0).1)]
        simpa [List.map_map, Function.comp_def] using e
      · rw [if_neg h0, List.append_nil, stockAt_set h0]

end

end Snd
end Trumania
