import Verif.Spec.Shop
import Verif.Proofs.ShopOps

/-! Helper lemmas: what one execution of a story of examples/tutorial/example2.py does. -/

namespace Trumania
namespace Shop
open Spec World Cdr
variable {σ : Type} {env : Env σ (AnyGen σ)} {w w' w0 w1 : World σ (AnyGen σ)} {data out : Frame} {ls : List Logs}
  {o : Orders} {a : SeqGen} {vols : List Val} {T : String → List Frame} {given : List (Val × Val)} {S : List Nat}

/-- the number of things that somebody has -/
def countFor (pos : Val) (l : List (Val × Val)) : Nat := l.countP fun p => decide (p.1 = pos)

theorem held_eq {i : Nat} {pos : Val} : held o w i pos = countFor pos (stockAt o w i) := rfl

/-- What the execution of a story does, `T` being the tables that it logs. `given` are the items that the points of
sale get. -/
structure Effect (env : Env σ (AnyGen σ)) (S : List Nat) (o : Orders) (vols : List Val) (a : SeqGen) (w w' : World σ (AnyGen σ))
    (T : String → List Frame) (given : List (Val × Val)) : Prop where
  ok : StocksOk env S w'
  pops : w'.pops = w.pops
  items : (stockAt o w' 0 ++ (purchasesIn (T "purchases")).map fun m => (m.1, m.2.2)).Perm (stockAt o w 0 ++ given)
  mine : (stockAt o w' 1).Perm (stockAt o w 1 ++ (purchasesIn (T "purchases")).map fun m => m.2)
  fresh : given.map Prod.snd = Spec.idsFrom a given.length
  gen : w'.gens[4]? = some (.seq { a with counter := a.counter + (given.length : Nat) })
  volume : ∀ pos, volumeIn pos (T "restock") = (countFor pos given : Rat)
  restocks : ∀ t ∈ T "restock", t.index.Nodup ∧ ∀ r ∈ t.rows, cell t r "POS_ID" = .scalar r.idx ∧
    ValueOf w 0 "NAME" r.idx (cell t r "POS_NAME") ∧ ∃ n : Nat, cell t r "RESTOCK_VOLUME" = .num (n : Rat) ∧
      .num (n : Rat) ∈ vols ∧ held o w' 0 r.idx = held o w 0 r.idx + n
  reports : ∀ t ∈ T "report", t.index.Nodup ∧ ∀ r ∈ t.rows, cell t r "POS_ID" = .scalar r.idx ∧
    cell t r "STOCK_LEVEL" = .num (held o w 0 r.idx : Rat)
  sales : ∀ t ∈ T "purchases", t.index.Nodup ∧ ∀ r ∈ t.rows, cell t r "CUST_ID" = .scalar r.idx ∧
    ValueOf w 1 "FIRST_NAME" r.idx (cell t r "BUYER_FIRST_NAME") ∧
    ValueOf w 1 "LAST_NAME" r.idx (cell t r "BUYER_LAST_NAME") ∧ ∃ pos item, cell t r "POS_ID" = .scalar pos ∧
      ValueOf w 0 "COMPANY" pos (cell t r "POS_NAME") ∧ cell t r "BOUGHT_ITEM_ID" = .scalar item ∧
      (pos, item) ∈ stockAt o w 0

theorem stockAt_rels (h : w'.rels = w.rels) (i : Nat) : stockAt o w' i = stockAt o w i := by
  rw [stockAt, stockAt, h]

theorem valueOf_pops {k : Nat} {n : String} {i : Val} {c : Cell} (h : w'.pops = w.pops) :
    ValueOf w' k n i c ↔ ValueOf w k n i c := by
  rw [ValueOf, ValueOf, h]

/-- only the stocks, the populations and the ids matter -/
theorem Effect.congr {u u' : World σ (AnyGen σ)} (h : Effect env S o vols a w w' T given) (r1 : u.rels = w.rels)
    (p1 : u.pops = w.pops) (r2 : u'.rels = w'.rels) (p2 : u'.pops = w'.pops) (g2 : u'.gens[4]? = w'.gens[4]?) :
    Effect env S o vols a u u' T given := by
  have s1 := stockAt_rels (o := o) r1
  have s2 := stockAt_rels (o := o) r2
  refine ⟨?_, by rw [p2, p1, h.pops], by rw [s1, s2]; exact h.items, by rw [s1, s2]; exact h.mine, h.fresh,
    g2.trans h.gen, h.volume, fun t ht => ?_, fun t ht => ?_, fun t ht => ?_⟩
  · intro i hi
    rw [r2]
    exact h.ok i hi
  · refine ⟨(h.restocks t ht).1, fun r hr => ?_⟩
    rw [valueOf_pops p1, held_eq, held_eq, s1, s2]
    exact (h.restocks t ht).2 r hr
  · refine ⟨(h.reports t ht).1, fun r hr => ?_⟩
    rw [held_eq, s1]
    exact (h.reports t ht).2 r hr
  · refine ⟨(h.sales t ht).1, fun r hr => ?_⟩
    simp only [valueOf_pops p1, s1]
    exact (h.sales t ht).2 r hr

/-- nothing happens -/
theorem Effect.none (hok : StocksOk env S w) (hg : w.gens[4]? = some (.seq a)) (h1 : T "restock" = [])
    (h2 : T "purchases" = []) (h3 : ∀ t ∈ T "report", t.index.Nodup ∧ ∀ r ∈ t.rows,
      cell t r "POS_ID" = .scalar r.idx ∧ cell t r "STOCK_LEVEL" = .num (held o w 0 r.idx : Rat)) :
    Effect env S o vols a w w T [] := by
  refine ⟨hok, rfl, ?_, ?_, by simp [Spec.idsFrom], by simpa using hg, fun pos => ?_, ?_, h3, ?_⟩
  · simp [h2, purchasesIn]
  · simp [h2, purchasesIn]
  · simp [h1, volumeIn, countFor]
  · simp [h1]
  · simp [h2]

/-! ### Restocks -/

theorem countFor_flatMap {l : List Val} (hl : l.Nodup) {f : Val → List Val} {pos : Val} :
    countFor pos (l.flatMap fun i => (f i).map fun t => (i, t)) = if pos ∈ l then (f pos).length else 0 := by
  induction l with
  | nil => simp [countFor]
  | cons x l ih =>
    have hx := List.nodup_cons.1 hl
    have e : countFor pos ((f x).map fun t => (x, t)) = if x = pos then (f x).length else 0 := by
      rw [countFor, List.countP_map]
      split
      · next h => simp [Function.comp_def, h]
      · next h => simp [Function.comp_def, h]
    rw [List.flatMap_cons, countFor, List.countP_append, ← countFor, ← countFor, ih hx.2, e]
    by_cases h : x = pos
    · subst h
      simp [hx.1]
    · rw [if_neg h]
      simp [Ne.symm h]

theorem held_perm {i : Nat} {pos : Val} {l : List (Val × Val)} (h : (stockAt o w' i).Perm (stockAt o w i ++ l)) :
    held o w' i pos = held o w i pos + countFor pos l := by
  rw [held_eq, held_eq, countFor, h.countP_eq, List.countP_append]
  rfl

theorem Restocked.held {items : Val → List Val} (h : Restocked (env := env) S o w w' a vols data out items)
    {i : Val} (hi : i ∈ out.index) : Spec.held o w' 0 i = Spec.held o w 0 i + (items i).length := by
  rw [held_perm h.stock, countFor_flatMap h.grows.nodup, if_pos hi]

theorem sum_filter_label {l : List Row} (hn : (l.map (·.idx)).Nodup) {f : Row → Rat} {pos : Val} {g : Val → Nat}
    (h : ∀ r ∈ l, f r = g r.idx) :
    ((l.filter fun r => decide (r.idx = pos)).map f).sum = ((if pos ∈ l.map (·.idx) then g pos else 0 : Nat) : Rat) := by
  induction l with
  | nil => simp
  | cons x l ih =>
    rw [List.map_cons, List.nodup_cons] at hn
    have ih := ih hn.2 fun r hr => h r (by simp [hr])
    rw [List.filter_cons]
    by_cases e : x.idx = pos
    · subst e
      rw [if_neg hn.1] at ih
      rw [if_pos (by simp), List.map_cons, List.sum_cons, ih, h x (by simp)]
      simp
    · rw [if_neg (by simpa using e), ih, List.map_cons]
      simp [Ne.symm e]

theorem Restocked.effect {items : Val → List Val} {tbl : Frame}
    (h : Restocked (env := env) S o w w' a vols data out items) (h1 : T "restock" = [tbl])
    (h2 : ∀ id, id ≠ "restock" → T id = []) (hidx : tbl.index = out.index)
    (hpos : ∀ r ∈ tbl.rows, cell tbl r "POS_ID" = .scalar r.idx)
    (hname : ∀ r ∈ tbl.rows, ValueOf w 0 "NAME" r.idx (cell tbl r "POS_NAME"))
    (hvol : ∀ r ∈ tbl.rows, cell tbl r "RESTOCK_VOLUME" = valueAt out r.idx "RESTOCK_VOLUME") :
    Effect env S o vols a w w' T (out.index.flatMap fun i => (items i).map fun t => (i, t)) := by
  have hnd : tbl.index.Nodup := hidx ▸ h.grows.nodup
  have hin : ∀ r ∈ tbl.rows, r.idx ∈ out.index := fun r hr => by
    rw [← hidx]
    exact mem_index.2 ⟨r, hr, rfl⟩
  have hlen : (out.index.flatMap fun i => (items i).map fun t => (i, t)).length =
      (out.index.map fun i => (items i).length).sum := by
    rw [List.length_flatMap]
    simp
  refine ⟨h.ok, h.pops, ?_, ?_, ?_, ?_, fun pos => ?_, ?_, ?_, ?_⟩
  · rw [h2 _ (by decide)]
    simpa [purchasesIn] using h.stock
  · rw [h2 _ (by decide)]
    simpa [purchasesIn] using h.other
  · rw [hlen, ← h.ids, List.map_flatMap]
    simp [Function.comp_def]
  · rw [hlen]
    exact h.gen
  · rw [countFor_flatMap h.grows.nodup, h1, volumeIn, ← hidx]
    simp only [List.map_cons, List.map_nil, List.sum_cons, List.sum_nil, add_zero]
    have e : (tbl.rows.filter fun r => decide (cell tbl r "POS_ID" = .scalar pos)) =
        tbl.rows.filter fun r => decide (r.idx = pos) := by
      refine List.filter_congr fun r hr => ?_
      rw [hpos r hr]
      simp
    rw [e]
    refine sum_filter_label (l := tbl.rows) (g := fun i => (items i).length) hnd fun r hr => ?_
    rw [hvol r hr, (h.volume _ (hin r hr)).1]
    rfl
  · intro t ht
    rw [h1, List.mem_singleton] at ht
    subst ht
    refine ⟨hnd, fun r hr => ⟨hpos r hr, hname r hr, (items r.idx).length, ?_, (h.volume _ (hin r hr)).2,
      h.held (hin r hr)⟩⟩
    rw [hvol r hr]
    exact (h.volume _ (hin r hr)).1
  · rw [h2 _ (by decide)]
    simp
  · rw [h2 _ (by decide)]
    simp

/-- the tables that some operations log -/
abbrev tabs (ls : List Logs) (id : String) : List Frame := ls.filterMap fun l => l.get? id

/-! ### The operations that draw no ids of items -/

/-- the operations draw no id of an item, and are built-in -/
def Harmless (env : Env σ (AnyGen σ)) (ops : List (Op (World σ (AnyGen σ)))) : Prop :=
  ∀ op ∈ ops, OpWithin env (fun _ => True) (fun _ => True) (fun _ => True) (· ≠ 4) (fun _ => True) op

theorem Harmless.gen {ops : List (Op (World σ (AnyGen σ)))} (h : Harmless env ops) (hnt : NoTimerUses 4 w)
    (hr : Runs ops data w out ls w') : w'.gens[4]? = w.gens[4]? ∧ NoTimerUses 4 w' :=
  C82_generator_kept (i := 4) (by simp) h hnt hr

theorem back_kept {own : Nat} {l : Logs} (h : Ops.maybeBackToDefault env own data w = .ok (out, l) w') :
    out = data ∧ l = [] ∧ w'.rels = w.rels ∧ w'.pops = w.pops := by
  obtain ⟨rfl, rfl⟩ := effect_same (env := env) (.maybeBackToDefault _) h
  obtain ⟨h1, -⟩ := sideEffect_eq_ok.1 h
  obtain ⟨s, s', -, -, rfl⟩ := World.onStory_eq_ok.1 h1
  exact ⟨rfl, rfl, rfl, rfl⟩

/-- the size of the stock of each point of sale -/
theorem grows_size (hS : 0 ∈ S) {name : String} {l : Logs} (hok : StocksOk env S w) (hr : Rect data) (hn : data.index.Nodup)
    (hname : name ∉ data.cols) (hpos : ∀ i ∈ data.index, ∃ p, valueAt data i "POS_ID" = .scalar p)
    (h : Ops.neighbourhoodSize 0 "POS_ID" name data w = .ok (out, l) w') (o : Orders) :
    w' = w ∧ l = [] ∧ Grows [name] data out ∧ out.index = data.index ∧ ∀ i ∈ out.index, ∀ p,
      valueAt data i "POS_ID" = .scalar p → valueAt out i name = .num (held o w 0 p : Rat) := by
  obtain ⟨r, hr0, hreach⟩ := hok 0 hS
  obtain ⟨rfl, rfl, hadds⟩ := C91_neighbourhood_size hn hr hname o h r hr0 hreach
  obtain ⟨-, g, hi⟩ := grows_adder (env := env) (.neighbourhoodSize _ _) hr hn hname h
  refine ⟨rfl, rfl, g, hi, fun i hm p hp => ?_⟩
  obtain ⟨x, hx, rfl⟩ := mem_index.1 (g.labels i hm)
  obtain ⟨k, hk⟩ := List.mem_iff_getElem?.1 hx
  refine valueAt_added hn hadds hk ?_
  rw [List.getElem?_map, hk]
  rw [valueAt_row hn hx] at hp
  rw [Option.map_some, hp, held_eq, stockAt_of hr0, countFor, List.countP_map]
  rfl

/-! ### The reports -/

theorem report_effect (hS : 0 ∈ S) {day : Int → Cell} {own : Nat} (hok : StocksOk env S w) (hg : w.gens[4]? = some (.seq a))
    (hnt : NoTimerUses 4 w) (hcols : data.cols = ["POS_ID"]) (hr : Rect data) (hn : data.index.Nodup)
    (hid : ∀ i ∈ data.index, valueAt data i "POS_ID" = .scalar i)
    (h : Runs (reportOps env day own 0) data w out ls w') :
    Effect env S o vols a w w' (tabs ls) [] ∧
    (∃ tbl, tabs ls "report" = [tbl] ∧ tbl.index = data.index) ∧
    (∀ id, id ≠ "report" → tabs ls id = []) ∧ NoTimerUses 4 w' := by
  have hh : Harmless env (reportOps env day own 0) := by
    intro op hop
    simp only [reportOps, Ops.setOperations, List.cons_append, List.nil_append, List.mem_cons, List.not_mem_nil,
      or_false] at hop
    rcases hop with rfl | rfl | rfl | rfl
    · exact .timestamp _ _ _ trivial
    · exact .neighbourhoodSize _ _ _ trivial
    · exact .fieldLogger _ _ _ trivial
    · exact .effect (.maybeBackToDefault _)
  obtain ⟨hgen, hnt'⟩ := hh.gen hnt h
  rw [reportOps, Ops.setOperations] at h
  obtain ⟨d1, w1, l1, ls1, h1, hk1, rfl⟩ := Snd.cons_runs h
  obtain ⟨d2, w2, l2, ls2, h2, hk2, rfl⟩ := Snd.cons_runs hk1
  obtain ⟨d3, w3, l3, ls3, h3, hk3, rfl⟩ := Snd.cons_runs hk2
  obtain ⟨d4, w4, l4, ls4, h4, hk4, rfl⟩ := Snd.cons_runs hk3
  cases hk4
  obtain ⟨rfl, g1, i1⟩ := grows_adder (env := env) (.timestamp false day) hr hn (by rw [hcols]; decide) h1
  have r1 : w1.rels = w.rels := columnAdder_rels (env := env) (.timestamp false day) h1
  have p1 : w1.pops = w.pops := columnAdder_pops (env := env) (.timestamp false day) h1
  have c1 : d1.cols = ["POS_ID", "TIME"] := by rw [g1.cols, hcols]; rfl
  have hok1 : StocksOk env S w1 := ((RelsKept.of_eq (S := (· ∈ S)) r1).stockAt hok).1
  have hid1 : ∀ i ∈ d1.index, valueAt d1 i "POS_ID" = .scalar i := fun i hi => by
    rw [g1.kept i hi _ (by rw [hcols]; decide)]
    exact hid i (g1.labels i hi)
  obtain ⟨rfl, rfl, g2, i2, f2⟩ := grows_size hS hok1 g1.rect g1.nodup (by rw [c1]; decide)
    (fun i hi => ⟨i, hid1 i hi⟩) h2 o
  obtain ⟨rfl, rfl, tbl, rfl, e1, e2⟩ := logged_rows (by simp) g2.nodup h3
  obtain ⟨rfl, rfl, r4, p4⟩ := back_kept h4
  have hT : tabs [[], [], [("report", tbl)], []] "report" = [tbl] := by
    simp [List.filterMap_cons, Dict.get?]
  have hT' : ∀ id, id ≠ "report" →
      tabs [[], [], [("report", tbl)], []] id = [] := fun id hid' => by
    simp [List.filterMap_cons, Dict.get?, Ne.symm hid']
  refine ⟨?_, ⟨tbl, hT, by rw [e1, i2, i1]⟩, hT', hnt'⟩
  refine Effect.congr (w := w) (w' := w) (Effect.none hok hg (hT' _ (by decide)) (hT' _ (by decide)) ?_) rfl rfl
    (r4.trans r1) (p4.trans p1) hgen
  intro t ht
  simp only [hT, List.mem_singleton] at ht
  subst ht
  refine ⟨e1 ▸ g2.nodup, fun r hr' => ?_⟩
  have hi : r.idx ∈ out.index := by rw [← e1]; exact mem_index.2 ⟨r, hr', rfl⟩
  have hi1 := g2.labels _ hi
  rw [e2 r hr' _ (by decide), e2 r hr' _ (by decide)]
  refine ⟨(g2.kept _ hi _ (by rw [c1]; decide)).trans (hid1 _ hi1), ?_⟩
  rw [f2 _ hi _ (hid1 _ hi1), held_eq, held_eq, stockAt_rels r1]

/-! ### The restocks -/

section Restocks
variable {v : Nat} {p : Option (List Rat)} {s0 : σ}

theorem began_rv {w w' : World σ (AnyGen σ)} {r : GenRef} {g : AnyGen σ} {ops : List (Op (World σ (AnyGen σ)))}
    (hh : Harmless env ops) (hb : Began env w r g) (h : Runs ops data w out ls w') : Began env w' r g :=
  began_runs (fun op hop => (hh op hop).builtIn) h hb

theorem three_same (h : Runs [Ops.randomValues env (.ref v) "RESTOCK_VOLUME",
    Ops.randomValuesFromField env (.bulk (.ref 4)) "NEW_ITEM_IDS" "RESTOCK_VOLUME",
    Ops.relAddGrouped env 0 "POS_ID" "NEW_ITEM_IDS"] data w out ls w') : SameStories w w' := by
  refine runs_same (env := env) (F := fun _ => True) (Z := fun _ => True) (A := fun _ => True) (L := fun _ => True)
    (D := (· ≠ v + 5)) (i := v + 5) (fun op hop => ?_) (by simp) h
  simp only [List.mem_cons, List.not_mem_nil, or_false] at hop
  rcases hop with rfl | rfl | rfl
  · exact .randomValues _ _ _ trivial fun i hi => by
      obtain rfl := List.mem_singleton.1 hi
      omega
  · exact .randomValuesFromField _ _ _ trivial fun i hi => by
      obtain rfl := List.mem_singleton.1 hi
      omega
  · exact .effect (.relAddGrouped _ _ _)

/-- the restocks of steps 3 and 4 -/
theorem periodic_effect (hS : 0 ∈ S) {day : Int → Cell} {own : Nat} (hsem : env.sem = AnyGen.sem env.R) (hv : v ≠ 4)
    (hvols : ∀ x ∈ vols, ∃ n : Nat, x = .num (n : Rat)) (hbegan : Began env w (.ref v) (.choice vols p s0))
    (hwf : ∀ q ∈ w.pops, Population.WF q)
    (hok : StocksOk env S w) (hg : w.gens[4]? = some (.seq a))
    (hnt : NoTimerUses 4 w) (hcols : data.cols = ["POS_ID"]) (hr : Rect data) (hn : data.index.Nodup)
    (hid : ∀ i ∈ data.index, valueAt data i "POS_ID" = .scalar i)
    (h : Runs (periodicOps env day own 0 0 (.ref v) (.ref 4)) data w out ls w') :
    ∃ given tbl, Effect env S o vols a w w' (tabs ls) given ∧
    tabs ls "restock" = [tbl] ∧ tbl.index = data.index ∧
    (∀ id, id ≠ "restock" → tabs ls id = []) := by
  rw [periodicOps, Ops.setOperations] at h
  obtain ⟨m1, u1, k1, kb, ha, hb, rfl⟩ := runs_split (a := [_, _]) h
  obtain ⟨m2, u2, k2, kc, hc, hd, rfl⟩ := runs_split (a := [_, _, _]) hb
  have hh1 : Harmless env [Ops.timestamp env "TIME" true day, Ops.lookup 0 "POS_ID" [("NAME", "POS_NAME")]] := by
    intro op hop
    simp only [List.mem_cons, List.not_mem_nil, or_false] at hop
    rcases hop with rfl | rfl
    · exact .timestamp _ _ _ trivial
    · exact .lookup _ _ _ (by decide) fun _ _ => trivial
  obtain ⟨hg1, hnt1⟩ := hh1.gen hnt ha
  have hbegan1 := began_rv hh1 hbegan ha
  obtain ⟨d1, w1, l1, ls1, h1, hak1, rfl⟩ := Snd.cons_runs ha
  obtain ⟨d2, w2, l2, ls2, h2, hak2, rfl⟩ := Snd.cons_runs hak1
  cases hak2
  obtain ⟨rfl, g1, i1⟩ := grows_adder (env := env) (.timestamp true day) hr hn (by rw [hcols]; decide) h1
  have r1 : w1.rels = w.rels := columnAdder_rels (env := env) (.timestamp true day) h1
  have p1 : w1.pops = w.pops := columnAdder_pops (env := env) (.timestamp true day) h1
  have c1 : d1.cols = ["POS_ID", "TIME"] := by rw [g1.cols, hcols]; rfl
  obtain ⟨rfl, rfl, g2, i2, q, hq, f2⟩ := grows_lookup_of (by rw [p1]; exact hwf) g1.rect g1.nodup (by decide)
    (by rw [c1]; decide) h2
  have c2 : m1.cols = ["POS_ID", "TIME", "POS_NAME"] := by rw [g2.cols, c1]; rfl
  have g12 := g1.trans g2
  have hid1 : ∀ i ∈ m1.index, valueAt m1 i "POS_ID" = .scalar i := fun i hi => by
    rw [g12.kept i hi _ (by rw [hcols]; decide)]
    exact hid i (g12.labels i hi)
  have hok1 : StocksOk env S u1 := ((RelsKept.of_eq (S := (· ∈ S)) r1).stockAt hok).1
  obtain ⟨rfl, items, hre⟩ := restock_core hS hsem hv hvols hbegan1 (hg1.trans hg) hok1 o (by rw [c2]; decide)
    (by rw [c2]; decide) g2.rect g2.nodup hid1 hc
  have c3 : m2.cols = ["POS_ID", "TIME", "POS_NAME", "RESTOCK_VOLUME", "NEW_ITEM_IDS"] := by
    rw [hre.grows.cols, c2]; rfl
  have hnt2 : NoTimerUses 4 u2 := (three_same hc).noTimer hnt1
  have hh3 : Harmless env [Ops.fieldLogger "restock" ["TIME", "POS_ID", "POS_NAME", "RESTOCK_VOLUME"] [],
      Ops.maybeBackToDefault env own] := by
    intro op hop
    simp only [List.mem_cons, List.not_mem_nil, or_false] at hop
    rcases hop with rfl | rfl
    · exact .fieldLogger _ _ _ trivial
    · exact .effect (.maybeBackToDefault _)
  obtain ⟨hg3, -⟩ := hh3.gen hnt2 hd
  obtain ⟨d3, w3, l3, ls3, h3, hdk3, rfl⟩ := Snd.cons_runs hd
  obtain ⟨d4, w4, l4, ls4, h4, hdk4, rfl⟩ := Snd.cons_runs hdk3
  cases hdk4
  obtain ⟨rfl, rfl, tbl, rfl, e1, e2⟩ := logged_rows (by simp) hre.grows.nodup h3
  obtain ⟨rfl, rfl, r4, p4⟩ := back_kept h4
  have hT : tabs ([[], []] ++ ([[], [], []] ++ [[("restock", tbl)], []]))
      "restock" = [tbl] := by
    simp [List.filterMap_cons, Dict.get?]
  have hT' : ∀ id, id ≠ "restock" →
      tabs ([[], []] ++ ([[], [], []] ++ [[("restock", tbl)], []])) id = [] :=
    fun id hid' => by simp [List.filterMap_cons, Dict.get?, Ne.symm hid']
  have hin : ∀ r ∈ tbl.rows, r.idx ∈ out.index := fun r hr' => by
    rw [← e1]
    exact mem_index.2 ⟨r, hr', rfl⟩
  refine ⟨_, tbl, Effect.congr (hre.effect hT hT' e1 (fun r hr' => ?_) (fun r hr' => ?_) fun r hr' => ?_)
    r1.symm p1.symm r4 p4 hg3, hT, by rw [e1, hre.index, i2, i1], hT'⟩
  · rw [e2 r hr' _ (by decide), hre.grows.kept _ (hin r hr') _ (by rw [c2]; decide)]
    exact hid1 _ (hre.grows.labels _ (hin r hr'))
  · rw [e2 r hr' _ (by decide), hre.grows.kept _ (hin r hr') _ (by rw [c2]; decide)]
    have hm := hre.grows.labels _ (hin r hr')
    obtain ⟨at_, ha, hl⟩ := f2 _ hm ("NAME", "POS_NAME") (by decide)
    rw [g1.kept _ (g2.labels _ hm) _ (by rw [hcols]; decide), hid _ (g12.labels _ hm)] at hl
    exact ⟨q, at_, hq, ha, hl⟩
  · exact e2 r hr' _ (by decide)

/-- the restocks of step 5 -/
theorem restock_effect (hS : 0 ∈ S) {time : Int → Cell} {own : Nat} (hsem : env.sem = AnyGen.sem env.R) (hv : v ≠ 4)
    (hvols : ∀ x ∈ vols, ∃ n : Nat, x = .num (n : Rat)) (hbegan : Began env w (.ref v) (.choice vols p s0))
    (hwf : ∀ q ∈ w.pops, Population.WF q)
    (hok : StocksOk env S w) (hg : w.gens[4]? = some (.seq a))
    (hnt : NoTimerUses 4 w) (hcols : data.cols = ["POS_ID"]) (hr : Rect data) (hn : data.index.Nodup)
    (hid : ∀ i ∈ data.index, valueAt data i "POS_ID" = .scalar i)
    (h : Runs (restockOps env time own 0 0 (.ref v) (.ref 4)) data w out ls w') :
    ∃ given tbl, Effect env S o vols a w w' (tabs ls) given ∧
    tabs ls "restock" = [tbl] ∧ tbl.index = data.index ∧
    (∀ id, id ≠ "restock" → tabs ls id = []) ∧
    ∀ r ∈ tbl.rows, cell tbl r "PREV_STOCK_LEVEL" = .num (held o w 0 r.idx : Rat) ∧
      cell tbl r "NEW_STOCK_LEVEL" = .num (held o w' 0 r.idx : Rat) := by
  rw [restockOps, Ops.setOperations] at h
  obtain ⟨m1, u1, k1, kb, ha, hb, rfl⟩ := runs_split (a := [_, _, _]) h
  obtain ⟨m2, u2, k2, kc, hc, hd, rfl⟩ := runs_split (a := [_, _, _]) hb
  have hh1 : Harmless env [Ops.timestamp env "TIME" true time, Ops.lookup 0 "POS_ID" [("NAME", "POS_NAME")],
      Ops.neighbourhoodSize 0 "POS_ID" "PREV_STOCK_LEVEL"] := by
    intro op hop
    simp only [List.mem_cons, List.not_mem_nil, or_false] at hop
    rcases hop with rfl | rfl | rfl
    · exact .timestamp _ _ _ trivial
    · exact .lookup _ _ _ (by decide) fun _ _ => trivial
    · exact .neighbourhoodSize _ _ _ trivial
  obtain ⟨hg1, hnt1⟩ := hh1.gen hnt ha
  have hbegan1 := began_rv hh1 hbegan ha
  obtain ⟨d1, w1, l1, ls1, h1, hak1, rfl⟩ := Snd.cons_runs ha
  obtain ⟨d2, w2, l2, ls2, h2, hak2, rfl⟩ := Snd.cons_runs hak1
  obtain ⟨d3, w3, l3, ls3, h3, hak3, rfl⟩ := Snd.cons_runs hak2
  cases hak3
  obtain ⟨rfl, g1, i1⟩ := grows_adder (env := env) (.timestamp true time) hr hn (by rw [hcols]; decide) h1
  have r1 : w1.rels = w.rels := columnAdder_rels (env := env) (.timestamp true time) h1
  have p1 : w1.pops = w.pops := columnAdder_pops (env := env) (.timestamp true time) h1
  have c1 : d1.cols = ["POS_ID", "TIME"] := by rw [g1.cols, hcols]; rfl
  obtain ⟨rfl, rfl, g2, i2, q, hq, f2⟩ := grows_lookup_of (by rw [p1]; exact hwf) g1.rect g1.nodup (by decide)
    (by rw [c1]; decide) h2
  have c2 : d2.cols = ["POS_ID", "TIME", "POS_NAME"] := by rw [g2.cols, c1]; rfl
  have g12 := g1.trans g2
  have hid2 : ∀ i ∈ d2.index, valueAt d2 i "POS_ID" = .scalar i := fun i hi => by
    rw [g12.kept i hi _ (by rw [hcols]; decide)]
    exact hid i (g12.labels i hi)
  have hok1 : StocksOk env S w2 := ((RelsKept.of_eq (S := (· ∈ S)) r1).stockAt hok).1
  obtain ⟨rfl, rfl, g3, i3, f3⟩ := grows_size hS hok1 g2.rect g2.nodup (by rw [c2]; decide)
    (fun i hi => ⟨i, hid2 i hi⟩) h3 o
  have c3 : m1.cols = ["POS_ID", "TIME", "POS_NAME", "PREV_STOCK_LEVEL"] := by rw [g3.cols, c2]; rfl
  have g13 := g12.trans g3
  have hid1 : ∀ i ∈ m1.index, valueAt m1 i "POS_ID" = .scalar i := fun i hi => by
    rw [g13.kept i hi _ (by rw [hcols]; decide)]
    exact hid i (g13.labels i hi)
  obtain ⟨rfl, items, hre⟩ := restock_core hS hsem hv hvols hbegan1 (hg1.trans hg) hok1 o (by rw [c3]; decide)
    (by rw [c3]; decide) g3.rect g3.nodup hid1 hc
  have c4 : m2.cols = ["POS_ID", "TIME", "POS_NAME", "PREV_STOCK_LEVEL", "RESTOCK_VOLUME", "NEW_ITEM_IDS"] := by
    rw [hre.grows.cols, c3]; rfl
  have hnt2 : NoTimerUses 4 u2 := (three_same hc).noTimer hnt1
  have hh3 : Harmless env [Ops.neighbourhoodSize 0 "POS_ID" "NEW_STOCK_LEVEL",
      Ops.fieldLogger "restock" ["TIME", "POS_ID", "POS_NAME", "RESTOCK_VOLUME", "PREV_STOCK_LEVEL",
        "NEW_STOCK_LEVEL"] [], Ops.maybeBackToDefault env own] := by
    intro op hop
    simp only [List.mem_cons, List.not_mem_nil, or_false] at hop
    rcases hop with rfl | rfl | rfl
    · exact .neighbourhoodSize _ _ _ trivial
    · exact .fieldLogger _ _ _ trivial
    · exact .effect (.maybeBackToDefault _)
  obtain ⟨hg3, -⟩ := hh3.gen hnt2 hd
  obtain ⟨d5, w5, l5, ls5, h5, hdk5, rfl⟩ := Snd.cons_runs hd
  obtain ⟨d6, w6, l6, ls6, h6, hdk6, rfl⟩ := Snd.cons_runs hdk5
  obtain ⟨d7, w7, l7, ls7, h7, hdk7, rfl⟩ := Snd.cons_runs hdk6
  cases hdk7
  have hid4 : ∀ i ∈ m2.index, valueAt m2 i "POS_ID" = .scalar i := fun i hi => by
    rw [hre.grows.kept i hi _ (by rw [c3]; decide)]
    exact hid1 i (hre.grows.labels i hi)
  obtain ⟨rfl, rfl, g5, i5, f5⟩ := grows_size hS hre.ok hre.grows.rect hre.grows.nodup (by rw [c4]; decide)
    (fun i hi => ⟨i, hid4 i hi⟩) h5 o
  obtain ⟨rfl, rfl, tbl, rfl, e1, e2⟩ := logged_rows (by simp) g5.nodup h6
  obtain ⟨rfl, rfl, r4, p4⟩ := back_kept h7
  have hT : tabs ([[], [], []] ++ ([[], [], []] ++ [[], [("restock", tbl)], []])) "restock" = [tbl] := by
    simp [List.filterMap_cons, Dict.get?]
  have hT' : ∀ id, id ≠ "restock" → tabs ([[], [], []] ++ ([[], [], []] ++ [[], [("restock", tbl)], []])) id = [] :=
    fun id hid' => by simp [List.filterMap_cons, Dict.get?, Ne.symm hid']
  have hin5 : ∀ r ∈ tbl.rows, r.idx ∈ out.index := fun r hr' => by
    rw [← e1]
    exact mem_index.2 ⟨r, hr', rfl⟩
  have hin : ∀ r ∈ tbl.rows, r.idx ∈ m2.index := fun r hr' => g5.labels _ (hin5 r hr')
  have hin1 : ∀ r ∈ tbl.rows, r.idx ∈ m1.index := fun r hr' => hre.grows.labels _ (hin r hr')
  have hval : ∀ r ∈ tbl.rows, ∀ c ∈ ["POS_ID", "POS_NAME", "PREV_STOCK_LEVEL"],
      cell tbl r c = valueAt m1 r.idx c := by
    intro r hr' c hc'
    have key : ∀ c ∈ ["POS_ID", "POS_NAME", "PREV_STOCK_LEVEL"], c ∈ ["TIME", "POS_ID", "POS_NAME", "RESTOCK_VOLUME",
        "PREV_STOCK_LEVEL", "NEW_STOCK_LEVEL"] ∧ c ∈ ["POS_ID", "TIME", "POS_NAME", "PREV_STOCK_LEVEL"] := by decide
    rw [e2 r hr' _ (key c hc').1, (hre.grows.trans g5).kept _ (hin5 r hr') _ (by rw [c3]; exact (key c hc').2)]
  refine ⟨_, tbl, Effect.congr (hre.effect hT hT' (e1.trans i5) (fun r hr' => ?_) (fun r hr' => ?_) fun r hr' => ?_)
    r1.symm p1.symm r4 p4 hg3, hT, by rw [e1, i5, hre.index, i3, i2, i1], hT', fun r hr' => ⟨?_, ?_⟩⟩
  · rw [hval r hr' _ (by decide)]
    exact hid1 _ (hin1 r hr')
  · rw [hval r hr' _ (by decide), g3.kept _ (hin1 r hr') _ (by rw [c2]; decide)]
    have hm := g3.labels _ (hin1 r hr')
    obtain ⟨at_, ha, hl⟩ := f2 _ hm ("NAME", "POS_NAME") (by decide)
    rw [g1.kept _ (g2.labels _ hm) _ (by rw [hcols]; decide), hid _ (g12.labels _ hm)] at hl
    exact ⟨q, at_, hq, ha, hl⟩
  · rw [e2 r hr' _ (by decide), g5.kept _ (hin5 r hr') _ (by rw [c4]; decide)]
  · rw [hval r hr' _ (by decide), f3 _ (hin1 r hr') _ (hid2 _ (g3.labels _ (hin1 r hr'))), held_eq, held_eq,
      stockAt_rels r1]
  · rw [e2 r hr' _ (by decide), f5 _ (hin5 r hr') _ (hid4 _ (hin r hr')), held_eq, held_eq, stockAt_rels r4]

end Restocks

/-! ### The purchases -/

/-- all the columns are logged -/
theorem logged_all {logId : String} {l : Logs} (h : Ops.fieldLogger logId [] [] data w = .ok (out, l) w') :
    w' = w ∧ out = data ∧ l = [(logId, data)] := by
  obtain ⟨logged, h1, h2, rfl⟩ := fieldLogger_eq_ok.1 h
  cases h2
  cases h1
  exact ⟨rfl, rfl, rfl⟩

/-- what follows a purchase: nothing that moves items, logs or draws ids -/
def Idle (env : Env σ (AnyGen σ)) (more : List (Op (World σ (AnyGen σ)))) : Prop :=
  Harmless env more ∧ ∀ {d u d' l u'}, StocksOk env stocks u → (∀ q ∈ u.pops, Population.WF q) → Rect d →
    d.index.Nodup → d.cols = ["CUST_ID", "BUYER_FIRST_NAME", "BUYER_LAST_NAME", "POS_ID", "POS_NAME",
      "BOUGHT_ITEM_ID"] → Runs more d u d' l u' → u'.rels = u.rels ∧ u'.pops = u.pops ∧ ∀ id, tabs l id = []

theorem purchase_effect {own c : Nat} {ids : List Val} {p : Option (List Rat)} {s0 : σ}
    {more : List (Op (World σ (AnyGen σ)))} (hmore : Idle env more) (hsem : env.sem = AnyGen.sem env.R) (hc : c ≠ 4)
    (hbegan : Began env w (.ref c) (.choice ids p s0)) (hwf : ∀ q ∈ w.pops, Population.WF q)
    (hok : StocksOk env stocks w) (hg : w.gens[4]? = some (.seq a))
    (hnt : NoTimerUses 4 w) (hcols : data.cols = ["CUST_ID"]) (hr : Rect data) (hn : data.index.Nodup)
    (hid : ∀ i ∈ data.index, valueAt data i "CUST_ID" = .scalar i)
    (h : Runs (purchaseOps env own 1 0 0 1 (.ref c) ++ more) data w out ls w') :
    ∃ tbl, Effect env stocks o vols a w w' (tabs ls) [] ∧ tabs ls "purchases" = [tbl] ∧
    (∀ id, id ≠ "purchases" → tabs ls id = []) ∧ (∀ i ∈ tbl.index, i ∈ data.index) ∧
    (∀ r ∈ tbl.rows, idIn (cell tbl r "POS_ID") ∈ ids) ∧
    ∃ km um kn, Runs (purchaseOps env own 1 0 0 1 (.ref c)) data w tbl km um ∧ Runs more tbl um out kn w' ∧
      StocksOk env stocks um ∧ w'.rels = um.rels ∧ Rect tbl ∧ tbl.cols = ["CUST_ID", "BUYER_FIRST_NAME",
        "BUYER_LAST_NAME", "POS_ID", "POS_NAME", "BOUGHT_ITEM_ID"] := by
  have hh : Harmless env (purchaseOps env own 1 0 0 1 (.ref c) ++ more) := by
    intro op hop
    rcases List.mem_append.1 hop with hop | hop
    · simp only [purchaseOps, Ops.setOperations, List.cons_append, List.nil_append, List.mem_cons, List.not_mem_nil,
        or_false] at hop
      rcases hop with rfl | rfl | rfl | rfl | rfl | rfl | rfl
      · exact .lookup _ _ _ (by decide) fun _ _ => trivial
      · exact .randomValues _ _ _ trivial fun i hi => by
          obtain rfl := List.mem_singleton.1 hi
          exact hc
      · exact .lookup _ _ _ (by decide) fun _ _ => trivial
      · exact .selectOne _ _ _ _ _ _ _ trivial
      · exact .effect (.relAdd _ _ _)
      · exact .fieldLogger _ _ _ trivial
      · exact .effect (.maybeBackToDefault _)
    · exact hmore.1 op hop
  obtain ⟨hgen, -⟩ := hh.gen hnt h
  obtain ⟨dm, um, km, kn, hp, hmo, rfl⟩ := runs_split h
  have hp0 := hp
  rw [purchaseOps, Ops.setOperations] at hp
  obtain ⟨m1, u1, k1, kb, ha, hb, rfl⟩ := runs_split (a := [_, _, _]) hp
  obtain ⟨m2, u2, k2, kc, hmv, hd, rfl⟩ := runs_split (a := [_, _]) hb
  obtain ⟨d1, w1, l1, ls1, h1, j1, rfl⟩ := Snd.cons_runs ha
  obtain ⟨d2, w2, l2, ls2, h2, j2, rfl⟩ := Snd.cons_runs j1
  obtain ⟨d3, w3, l3, ls3, h3, j3, rfl⟩ := Snd.cons_runs j2
  cases j3
  -- who buys, and where
  obtain ⟨rfl, rfl, g1, i1, q1, hq1, f1⟩ := grows_lookup_of hwf hr hn (by decide) (by rw [hcols]; decide) h1
  have c1 : d1.cols = ["CUST_ID", "BUYER_FIRST_NAME", "BUYER_LAST_NAME"] := by rw [g1.cols, hcols]; rfl
  obtain ⟨rfl, g2, i2⟩ := grows_adder (env := env) (.randomValues _ _) g1.rect g1.nodup (by rw [c1]; decide) h2
  have r2 : w2.rels = w1.rels := columnAdder_rels (env := env) (.randomValues _ _) h2
  have p2 : w2.pops = w1.pops := columnAdder_pops (env := env) (.randomValues _ _) h2
  obtain ⟨-, values, ad2, e2⟩ := C91_random_values g1.nodup g1.rect (by rw [c1]; decide) h2
  have hvals := began_choice hsem hbegan e2
  have c2 : d2.cols = ["CUST_ID", "BUYER_FIRST_NAME", "BUYER_LAST_NAME", "POS_ID"] := by rw [g2.cols, c1]; rfl
  have hpos2 : ∀ i ∈ d2.index, ∃ pos ∈ ids, valueAt d2 i "POS_ID" = .scalar pos := by
    intro i hi
    obtain ⟨y, hy, rfl⟩ := mem_index.1 hi
    rw [valueAt_row g2.nodup hy]
    exact hvals _ (ad2.added ▸ List.mem_map.2 ⟨y, hy, rfl⟩)
  obtain ⟨rfl, rfl, g3, i3, q3, hq3, f3⟩ := grows_lookup_of (by rw [p2]; exact hwf) g2.rect g2.nodup (by decide)
    (by rw [c2]; decide) h3
  have c3 : m1.cols = ["CUST_ID", "BUYER_FIRST_NAME", "BUYER_LAST_NAME", "POS_ID", "POS_NAME"] := by
    rw [g3.cols, c2]; rfl
  have g13 := (g1.trans g2).trans g3
  have hok1 : StocksOk env stocks u1 := ((RelsKept.of_eq (S := (· ∈ stocks)) r2).stockAt hok).1
  -- the item
  obtain ⟨hok2, moved, hmoved, hperm⟩ := C100_items_change_hands (mid := []) (stocks := stocks) (by simp) (by simp)
    (by simp) hok1 g3.rect g3.nodup (.inl rfl) hmv o
  obtain ⟨d4, w4, l4, ls4, h4, j4, rfl⟩ := Snd.cons_runs hmv
  obtain ⟨d5, w5, l5, ls5, h5, j5, rfl⟩ := Snd.cons_runs j4
  cases j5
  obtain ⟨r, hr0, hreach⟩ := hok1 0 (by simp)
  obtain ⟨rfl, g4, p4, f4, -⟩ := grows_selectOne g3.rect g3.nodup (by rw [c3]; decide) hr0 hreach o h4
  have c4 : d4.cols = ["CUST_ID", "BUYER_FIRST_NAME", "BUYER_LAST_NAME", "POS_ID", "POS_NAME", "BOUGHT_ITEM_ID"] := by
    rw [g4.cols, c3]; rfl
  obtain ⟨rfl, rfl⟩ := effect_same (env := env) (.relAdd _ _ _) h5
  have p5 : u2.pops = w4.pops := onRel_pops h5
  -- what is logged
  obtain ⟨d6, w6, l6, ls6, h6, j6, rfl⟩ := Snd.cons_runs hd
  obtain ⟨d7, w7, l7, ls7, h7, j7, rfl⟩ := Snd.cons_runs j6
  cases j7
  obtain ⟨rfl, rfl, rfl⟩ := logged_all h6
  obtain ⟨rfl, rfl, r7, p7⟩ := back_kept h7
  have pm : um.pops = w1.pops := p7.trans (p5.trans (p4.trans p2))
  have hokm : StocksOk env stocks um := ((RelsKept.of_eq (S := (· ∈ stocks)) r7).stockAt hok2).1
  obtain ⟨r8, p8, t8⟩ := hmore.2 hokm (by rw [pm]; exact hwf) g4.rect g4.nodup c4 hmo
  have hT : tabs ([[], [], []] ++ ([[], []] ++ [[("purchases", dm)], []]) ++ kn) "purchases" = [dm] := by
    rw [tabs, List.filterMap_append]
    simp [List.filterMap_cons, Dict.get?, t8]
  have hT' : ∀ id, id ≠ "purchases" →
      tabs ([[], [], []] ++ ([[], []] ++ [[("purchases", dm)], []]) ++ kn) id = [] := fun id hid' => by
    rw [tabs, List.filterMap_append]
    simp [List.filterMap_cons, Dict.get?, Ne.symm hid', t8]
  have hval : ∀ y ∈ dm.rows, ∀ f ∈ m1.cols, cell dm y f = valueAt m1 y.idx f := fun y hy f hf => by
    rw [← valueAt_row g4.nodup hy, g4.kept _ (mem_index.2 ⟨y, hy, rfl⟩) _ hf]
  have hin : ∀ y ∈ dm.rows, y.idx ∈ m1.index := fun y hy => g4.labels _ (mem_index.2 ⟨y, hy, rfl⟩)
  have hsold : purchasesIn (tabs ([[], [], []] ++ ([[], []] ++ [[("purchases", dm)], []]) ++ kn) "purchases") =
      moved := by
    rw [hT, purchasesIn, List.flatMap_singleton]
    refine List.ext_getElem (by rw [List.length_map, hmoved.length_eq]) fun k hk hk' => ?_
    rw [List.length_map] at hk
    obtain ⟨x, hx, e1, e2, e3, e4, -⟩ := hmoved.get hk hk'
    rw [List.getElem_map]
    simp only [List.get_eq_getElem] at e1 e2 e3 e4
    refine Prod.ext ?_ (Prod.ext ?_ ?_)
    · rw [e2, hval _ (List.getElem_mem hk) _ (by rw [c3]; decide), ← e1, valueAt_row g3.nodup hx]
    · exact e3.symm
    · exact e4.symm
  have s8 : ∀ i, stockAt o w' i = stockAt o w6 i := fun i => stockAt_rels (r8.trans r7) i
  have s2 : ∀ i, stockAt o u1 i = stockAt o w1 i := fun i => stockAt_rels r2 i
  refine ⟨dm, ⟨((RelsKept.of_eq (S := (· ∈ stocks)) r8).stockAt hokm).1, p8.trans pm, ?_, ?_, rfl, ?_, ?_, ?_, ?_, ?_⟩,
    hT, hT', fun i hi => g13.labels _ (g4.labels i hi), fun y hy => ?_, _, um, kn, hp0, hmo, hokm, r8, g4.rect, c4⟩
  · rw [hsold, s8, ← s2]
    exact hperm 0 (by simp)
  · rw [hsold, s8, ← s2]
    simpa using hperm 1 (by simp)
  · rw [hgen, hg]
    simp
  · intro pos
    rw [hT' _ (by decide)]
    simp [volumeIn, countFor]
  · intro t ht
    rw [hT' _ (by decide)] at ht
    cases ht
  · intro t ht
    rw [hT' _ (by decide)] at ht
    cases ht
  · intro t ht
    rw [hT, List.mem_singleton] at ht
    subst ht
    refine ⟨g4.nodup, fun y hy => ?_⟩
    have hy3 := hin y hy
    have hy2 := g3.labels _ hy3
    have hy1 := g2.labels _ hy2
    have hy0 := g1.labels _ hy1
    obtain ⟨pos, -, hpos⟩ := hpos2 _ hy2
    obtain ⟨it, ht, -⟩ := f4 _ (mem_index.2 ⟨y, hy, rfl⟩)
    rw [valueAt_row g4.nodup hy] at ht
    have hpos3 : cell t y "POS_ID" = .scalar pos := by
      rw [hval y hy _ (by rw [c3]; decide), g3.kept _ hy3 _ (by rw [c2]; decide), hpos]
    refine ⟨?_, ?_, ?_, pos, it, hpos3, ?_, ht, ?_⟩
    · rw [hval y hy _ (by rw [c3]; decide), g13.kept _ hy3 _ (by rw [hcols]; decide), hid _ hy0]
    · obtain ⟨at_, ha', hl⟩ := f1 _ hy1 ("FIRST_NAME", "BUYER_FIRST_NAME") (by decide)
      rw [hid _ hy0] at hl
      rw [hval y hy _ (by rw [c3]; decide), (g2.trans g3).kept _ hy3 _ (by rw [c1]; decide)]
      exact ⟨q1, at_, hq1, ha', hl⟩
    · obtain ⟨at_, ha', hl⟩ := f1 _ hy1 ("LAST_NAME", "BUYER_LAST_NAME") (by decide)
      rw [hid _ hy0] at hl
      rw [hval y hy _ (by rw [c3]; decide), (g2.trans g3).kept _ hy3 _ (by rw [c1]; decide)]
      exact ⟨q1, at_, hq1, ha', hl⟩
    · obtain ⟨at_, ha', hl⟩ := f3 _ hy3 ("COMPANY", "POS_NAME") (by decide)
      rw [hpos] at hl
      rw [hval y hy _ (by rw [c3]; decide)]
      exact ⟨q3, at_, by rw [← p2]; exact hq3, ha', hl⟩
    · obtain ⟨k, hk, rfl⟩ := List.getElem_of_mem hy
      obtain ⟨x, hx, e1, e2, e3, e4, e5⟩ := hmoved.get hk (hmoved.length_eq ▸ hk)
      simp only [List.get_eq_getElem] at e1 e2 e3 e4 e5
      rw [e2, e4, s2, ht, ← valueAt_row g3.nodup hx, e1, ← hval _ hy _ (by rw [c3]; decide), hpos3] at e5
      exact e5
  · obtain ⟨pos, hpos, e⟩ := hpos2 _ (g3.labels _ (hin y hy))
    rw [hval y hy _ (by rw [c3]; decide), g3.kept _ (hin y hy) _ (by rw [c2]; decide), e]
    exact hpos

end Shop
end Trumania
