import Verif.Spec.ShopEarly
import Verif.Props.Shop

/-! Helper lemmas: the executions of the stories of the first steps of examples/tutorial/example2.py. -/

namespace Trumania
namespace Shop
open Spec World Cdr
variable {σ : Type} {env : Env σ (AnyGen σ)} {w w' w0 w1 : World σ (AnyGen σ)} {data out : Frame} {ls : List Logs}
  {o : Orders} {a : SeqGen} {vols : List Val} {T : String → List Frame} {given : List (Val × Val)} {S : List Nat}
  {k : Supply} {day : Int → Cell}

/-! ### The draw of both the volumes and the items -/

/-- as `Restocked`, without the volumes -/
structure Combined (S : List Nat) (o : Orders) (w w' : World σ (AnyGen σ)) (a : SeqGen) (vols : List Val)
    (data out : Frame) (items : Val → List Val) : Prop where
  grows : Grows ["NEW_ITEM_IDS"] data out
  index : out.index = data.index
  volume : ∀ i ∈ out.index, .num ((items i).length : Rat) ∈ vols
  ok : StocksOk env S w'
  stock : (stockAt o w' 0).Perm (stockAt o w 0 ++ out.index.flatMap fun i => (items i).map fun t => (i, t))
  ids : out.index.flatMap items = Spec.idsFrom a (out.index.map fun i => (items i).length).sum
  gen : w'.gens[4]? = some (.seq { a with counter := a.counter + ((out.index.map fun i => (items i).length).sum : Nat) })
  pops : w'.pops = w.pops

theorem combined_core {S : List Nat} (hS : 0 ∈ S) (hsem : env.sem = AnyGen.sem env.R) {v : Nat} (hv : v ≠ 4)
    (hvols : ∀ x ∈ vols, ∃ n : Nat, x = .num (n : Rat)) {p : Option (List Rat)} {s : σ}
    (hbegan : Began env w (.ref v) (.choice vols p s)) (hgen : w.gens[4]? = some (.seq a))
    (hok : StocksOk env S w) (o : Orders) (hpos : "POS_ID" ∈ data.cols)
    (hnew : "NEW_ITEM_IDS" ∉ data.cols) (hr : Rect data) (hn : data.index.Nodup)
    (hid : ∀ i ∈ data.index, valueAt data i "POS_ID" = .scalar i)
    (h : Runs [Ops.randomValues env (.flatmapped (.ref v) (.bulk (.ref 4))) "NEW_ITEM_IDS" none,
      Ops.relAddGrouped env 0 "POS_ID" "NEW_ITEM_IDS"] data w out ls w') :
    ls = [[], []] ∧ ∃ items, Combined (env := env) S o w w' a vols data out items := by
  obtain ⟨d2, w2, l2, ls2, h2, hk2, rfl⟩ := Snd.cons_runs h
  obtain ⟨d3, w3, l3, ls3, h3, hk3, rfl⟩ := Snd.cons_runs hk2
  cases hk3
  obtain ⟨-, g, hidx⟩ := grows_adder (env := env) (.randomValues _ _) hr hn hnew h2
  obtain ⟨rfl, lists, ad2, e2⟩ := C91_random_values hn hr hnew h2
  rw [World.generate, World.call] at e2
  obtain ⟨values, u1, e1, e4⟩ := Act.bind_eq_ok.1 e2
  clear e2
  obtain ⟨arr, u2, e3, e2⟩ := Act.bind_eq_ok.1 e4
  clear e4
  obtain rfl := isArray_eq_ok e3
  -- the volumes
  have hvals := began_choice hsem hbegan e1
  have hnat : ∀ c ∈ values, ∃ n : Nat, c = .num (n : Rat) ∧ .num (n : Rat) ∈ vols := by
    intro c hc
    obtain ⟨x, hx, rfl⟩ := hvals c hc
    obtain ⟨n, rfl⟩ := hvols x hx
    exact ⟨n, rfl, hx⟩
  obtain ⟨ns, rfl, hns⟩ : ∃ ns : List Nat, values = ns.map (fun n : Nat => Cell.num (n : Rat)) ∧
      ∀ n ∈ ns, Val.num (n : Rat) ∈ vols := by
    clear e1 hvals e2
    induction values with
    | nil => exact ⟨[], rfl, by simp⟩
    | cons c l ih =>
      obtain ⟨n, rfl, hm⟩ := hnat c (by simp)
      obtain ⟨ns, rfl, k⟩ := ih fun c hc => hnat c (by simp [hc])
      exact ⟨n :: ns, rfl, by simpa using ⟨hm, k⟩⟩
  -- the items
  have hgen1 : u2.gens[4]? = some (.seq a) := by
    obtain ⟨g, g', -, -, rfl⟩ := generate_ref_ok.1 e1
    rw [World.gens, List.getElem?_set_ne hv]
    exact hgen
  have e2' : World.observe env (.bulk (.ref 4)) (ns.map fun n : Nat => Cell.num (n : Rat)) u2 = .ok lists w2 := by
    rw [World.observe, World.call]
    rwa [World.call] at e2
  obtain ⟨items, rfl, k1, k2, k3⟩ := bulk_seq hsem hgen1 e2'
  -- their addition
  have r2 : w2.rels = w.rels := columnAdder_rels (env := env) (.randomValues _ _) h2
  have p2 : w2.pops = w.pops := columnAdder_pops (env := env) (.randomValues _ _) h2
  obtain ⟨ok2, s2⟩ := (RelsKept.of_eq (S := (· ∈ S)) r2).stockAt hok
  obtain ⟨r, hr0, hreach⟩ := ok2 0 hS
  obtain ⟨rfl, rfl, r', rfl, hreach', hput⟩ := C93_add_grouped hr0 hreach o o h3
  have hown : ∀ i ∈ out.index, valueAt out i "POS_ID" = .scalar i := fun i hi => by
    rw [g.kept i hi _ hpos]
    exact hid i (g.labels i hi)
  have hlists := listIn_added hn ad2
  have hitems : items = out.index.map fun i => listIn (valueAt out i "NEW_ITEM_IDS") := by
    have := congrArg (List.map listIn) hlists
    rw [List.map_map, List.map_map] at this
    rw [show (fun i => listIn (valueAt out i "NEW_ITEM_IDS")) = listIn ∘ fun i => valueAt out i "NEW_ITEM_IDS" from rfl,
      this]
    simp [listIn, Function.comp_def]
  have hlen : out.index.map (fun i => (listIn (valueAt out i "NEW_ITEM_IDS")).length) = ns := by
    rw [← k1, hitems, List.map_map]
    rfl
  refine ⟨rfl, fun i => listIn (valueAt out i "NEW_ITEM_IDS"), ⟨g, hidx, fun i hi => ?_, ?_, ?_, ?_, ?_, p2⟩⟩
  · refine hns _ ?_
    rw [← hlen]
    exact List.mem_map_of_mem (f := fun i => (listIn (valueAt out i "NEW_ITEM_IDS")).length) hi
  · exact Snd.stocksOk_set ok2 hreach'
  · rw [stockAt_of (r := r') (List.getElem?_set_self (List.getElem?_eq_some_iff.1 hr0).1)]
    have e := hput.map fun x => (x.1, x.2.1)
    rw [List.map_append, ← stockAt_of hr0] at e
    refine e.trans (List.Perm.append (s2 o 0 hS) (.of_eq ?_))
    rw [List.map_flatMap, Frame.index, List.flatMap_map]
    refine List.flatMap_congr fun x hx => ?_
    rw [List.map_map]
    have hx' : x.idx ∈ out.index := mem_index.2 ⟨x, hx, rfl⟩
    have h1 := hown _ hx'
    rw [valueAt_row g.nodup hx] at h1 ⊢
    rw [h1]
    rfl
  · rw [hlen, ← k2, hitems, List.flatMap_def]
  · rw [hlen]
    exact k3

/-! ### What an execution does -/

/-- how many rows of some tables name a point of sale -/
def restocksIn (pos : Val) (ts : List Frame) : Nat :=
  (ts.map fun t => t.rows.countP fun r => decide (cell t r "POS_ID" = .scalar pos)).sum

/-- What the execution of a story does, `T` being the tables that it logs and `given` the items that the points of
sale get. -/
structure Grew (env : Env σ (AnyGen σ)) (k : Supply) (o : Orders) (vols : List Val) (w w' : World σ (AnyGen σ))
    (T : String → List Frame) (given : List (Val × Val)) : Prop where
  ok : StocksOk env [0] w'
  pops : w'.pops = w.pops
  items : (stockAt o w' 0).Perm (stockAt o w 0 ++ given)
  fresh : ∀ a, w.gens[4]? = some (.seq a) → given.map Prod.snd = Spec.idsFrom a given.length ∧
    w'.gens[4]? = some (.seq { a with counter := a.counter + (given.length : Nat) })
  sums : ∀ pos, ∃ l : List Nat, (∀ x ∈ l, Val.num (x : Rat) ∈ vols) ∧ l.length = restocksIn pos (T "restock") ∧
    countFor pos given = l.sum
  told : ∀ v, k = .told v → ∀ pos, volumeIn pos (T "restock") = (countFor pos given : Rat)
  reports : ∀ t ∈ T "report", t.index.Nodup ∧ ∀ r ∈ t.rows, cell t r "POS_ID" = .scalar r.idx ∧
    cell t r "STOCK_LEVEL" = .num (held o w 0 r.idx : Rat)

theorem Grew.congr {u u' : World σ (AnyGen σ)} (h : Grew env k o vols w w' T given) (r1 : u.rels = w.rels)
    (p1 : u.pops = w.pops) (g1 : u.gens[4]? = w.gens[4]?) (r2 : u'.rels = w'.rels) (p2 : u'.pops = w'.pops)
    (g2 : u'.gens[4]? = w'.gens[4]?) : Grew env k o vols u u' T given := by
  have s1 := stockAt_rels (o := o) r1
  have s2 := stockAt_rels (o := o) r2
  refine ⟨?_, by rw [p2, p1, h.pops], by rw [s1, s2]; exact h.items, by rw [g1, g2]; exact h.fresh, h.sums, h.told,
    fun t ht => ?_⟩
  · intro i hi
    rw [r2]
    exact h.ok i hi
  · refine ⟨(h.reports t ht).1, fun r hr => ?_⟩
    rw [held_eq, s1]
    exact (h.reports t ht).2 r hr

/-- nothing happens -/
theorem Grew.none (hok : StocksOk env [0] w) (h1 : T "restock" = [])
    (h3 : ∀ t ∈ T "report", t.index.Nodup ∧ ∀ r ∈ t.rows,
      cell t r "POS_ID" = .scalar r.idx ∧ cell t r "STOCK_LEVEL" = .num (held o w 0 r.idx : Rat)) :
    Grew env k o vols w w T [] := by
  refine ⟨hok, rfl, by simp, fun a ha => ⟨by simp [Spec.idsFrom], by simpa using ha⟩, fun pos => ⟨[], by simp, ?_, ?_⟩,
    fun v _ pos => ?_, h3⟩
  · simp [h1, restocksIn]
  · simp [countFor]
  · simp [h1, volumeIn, countFor]

/-- the reports -/
theorem report_core {own : Nat} (hS : 0 ∈ S) (hok : StocksOk env S w) (hnt : NoTimerUses 4 w)
    (hcols : data.cols = ["POS_ID"]) (hr : Rect data) (hn : data.index.Nodup)
    (hid : ∀ i ∈ data.index, valueAt data i "POS_ID" = .scalar i)
    (h : Runs (reportOps env day own 0) data w out ls w') (o : Orders) :
    w'.rels = w.rels ∧ w'.pops = w.pops ∧ w'.gens[4]? = w.gens[4]? ∧ (∀ id, id ≠ "report" → tabs ls id = []) ∧
    ∃ tbl, tabs ls "report" = [tbl] ∧ tbl.index.Nodup ∧ ∀ r ∈ tbl.rows, cell tbl r "POS_ID" = .scalar r.idx ∧
      cell tbl r "STOCK_LEVEL" = .num (held o w 0 r.idx : Rat) := by
  have hh : Harmless env (reportOps env day own 0) := by
    intro op hop
    simp only [reportOps, Ops.setOperations, List.cons_append, List.nil_append, List.mem_cons, List.not_mem_nil,
      or_false] at hop
    rcases hop with rfl | rfl | rfl | rfl
    · exact .timestamp _ _ _ trivial
    · exact .neighbourhoodSize _ _ _ trivial
    · exact .fieldLogger _ _ _ trivial
    · exact .effect (.maybeBackToDefault _)
  obtain ⟨hgen, -⟩ := hh.gen hnt h
  rw [reportOps, Ops.setOperations] at h
  obtain ⟨d1, w1, l1, ls1, h1, hk1, rfl⟩ := Snd.cons_runs h
  obtain ⟨d2, w2, l2, ls2, h2, hk2, rfl⟩ := Snd.cons_runs hk1
  obtain ⟨d3, w3, l3, ls3, h3, hk3, rfl⟩ := Snd.cons_runs hk2
  obtain ⟨d4, w4, l4, ls4, h4, hk4, rfl⟩ := Snd.cons_runs hk3
  cases hk4
  obtain ⟨rfl, g1, i1⟩ := grows_adder (env := env) (.timestamp false day) hr hn (by rw [hcols]; decide) h1
  have r1 : w1.rels = w.rels := columnAdder_rels (env := env) (.timestamp false day) h1
  have p1 : w1.pops = w.pops := columnAdder_pops (env := env) (.timestamp false day) h1
  have c1 : d1.cols = ["POS_ID", "TIME"] := by rw [g1.cols, hcols]; rfl
  have hok1 : StocksOk env S w1 := ((RelsKept.of_eq (S := (· ∈ S)) r1).stockAt hok).1
  have hid1 : ∀ i ∈ d1.index, valueAt d1 i "POS_ID" = .scalar i := fun i hi => by
    rw [g1.kept i hi _ (by rw [hcols]; decide)]
    exact hid i (g1.labels i hi)
  obtain ⟨rfl, rfl, g2, i2, f2⟩ := grows_size hS hok1 g1.rect g1.nodup (by rw [c1]; decide)
    (fun i hi => ⟨i, hid1 i hi⟩) h2 o
  obtain ⟨rfl, rfl, tbl, rfl, e1, e2⟩ := logged_rows (by simp) g2.nodup h3
  obtain ⟨rfl, rfl, r4, p4⟩ := back_kept h4
  have hT : tabs [[], [], [("report", tbl)], []] "report" = [tbl] := by
    simp [List.filterMap_cons, Dict.get?]
  have hT' : ∀ id, id ≠ "report" →
      tabs [[], [], [("report", tbl)], []] id = [] := fun id hid' => by
    simp [List.filterMap_cons, Dict.get?, Ne.symm hid']
  refine ⟨r4.trans r1, p4.trans p1, hgen, hT', tbl, hT, e1 ▸ g2.nodup, fun r hr' => ?_⟩
  have hi : r.idx ∈ out.index := by rw [← e1]; exact mem_index.2 ⟨r, hr', rfl⟩
  have hi1 := g2.labels _ hi
  rw [e2 r hr' _ (by decide), e2 r hr' _ (by decide)]
  refine ⟨(g2.kept _ hi _ (by rw [c1]; decide)).trans (hid1 _ hi1), ?_⟩
  rw [f2 _ hi _ (hid1 _ hi1), held_eq, held_eq, stockAt_rels r1]

theorem restocksIn_one {tbl : Frame} (hn : tbl.index.Nodup)
    (hpos : ∀ r ∈ tbl.rows, cell tbl r "POS_ID" = .scalar r.idx) (pos : Val) :
    restocksIn pos [tbl] = if pos ∈ tbl.index then 1 else 0 := by
  have e : (tbl.rows.countP fun r => decide (cell tbl r "POS_ID" = .scalar pos)) = tbl.index.count pos := by
    rw [Frame.index, List.count, List.countP_map]
    refine List.countP_congr fun r hr => ?_
    rw [hpos r hr]
    simp
  rw [restocksIn, List.map_cons, List.map_nil, List.sum_cons, List.sum_nil, e, hn.count]
  rfl

/-- the restocks that log no volumes -/
theorem combined_grew {v own : Nat} {p : Option (List Rat)} {s0 : σ} (hsem : env.sem = AnyGen.sem env.R) (hv : v ≠ 4)
    (hk : k = .untold v)
    (hvols : ∀ x ∈ vols, ∃ n : Nat, x = .num (n : Rat)) (hbegan : Began env w (.ref v) (.choice vols p s0))
    (hwf : ∀ q ∈ w.pops, Population.WF q)
    (hok : StocksOk env [0] w) (hg : w.gens[4]? = some (.seq a))
    (hnt : NoTimerUses 4 w) (hcols : data.cols = ["POS_ID"]) (hr : Rect data) (hn : data.index.Nodup)
    (hid : ∀ i ∈ data.index, valueAt data i "POS_ID" = .scalar i)
    (h : Runs (combinedOps env day own 0 0 (.ref v) (.ref 4)) data w out ls w') :
    ∃ given tbl, Grew env k o vols w w' (tabs ls) given ∧ tabs ls "restock" = [tbl] ∧
    (∀ id, id ≠ "restock" → tabs ls id = []) := by
  rw [combinedOps, Ops.setOperations] at h
  obtain ⟨m1, u1, k1, kb, ha, hb, rfl⟩ := runs_split (a := [_, _]) h
  obtain ⟨m2, u2, k2, kc, hc, hd, rfl⟩ := runs_split (a := [_, _]) hb
  have hh1 : Harmless env [Ops.timestamp env "TIME" true day, Ops.lookup 0 "POS_ID" [("NAME", "POS_NAME")]] := by
    intro op hop
    simp only [List.mem_cons, List.not_mem_nil, or_false] at hop
    rcases hop with rfl | rfl
    · exact .timestamp _ _ _ trivial
    · exact .lookup _ _ _ (by decide) fun _ _ => trivial
  obtain ⟨hg1, hnt1⟩ := hh1.gen hnt ha
  have hbegan1 := began_rv hh1 hbegan ha
  obtain ⟨d1, w1, l1, ls1, h1, hak1, rfl⟩ := Snd.cons_runs ha
  obtain ⟨d2, w2, l2, ls2, h2, hak2, rfl⟩ := Snd.cons_runs hak1
  cases hak2
  obtain ⟨rfl, g1, i1⟩ := grows_adder (env := env) (.timestamp true day) hr hn (by rw [hcols]; decide) h1
  have r1 : w1.rels = w.rels := columnAdder_rels (env := env) (.timestamp true day) h1
  have p1 : w1.pops = w.pops := columnAdder_pops (env := env) (.timestamp true day) h1
  have c1 : d1.cols = ["POS_ID", "TIME"] := by rw [g1.cols, hcols]; rfl
  obtain ⟨rfl, rfl, g2, i2, q, hq, f2⟩ := grows_lookup_of (by rw [p1]; exact hwf) g1.rect g1.nodup (by decide)
    (by rw [c1]; decide) h2
  have c2 : m1.cols = ["POS_ID", "TIME", "POS_NAME"] := by rw [g2.cols, c1]; rfl
  have g12 := g1.trans g2
  have hid1 : ∀ i ∈ m1.index, valueAt m1 i "POS_ID" = .scalar i := fun i hi => by
    rw [g12.kept i hi _ (by rw [hcols]; decide)]
    exact hid i (g12.labels i hi)
  have hok1 : StocksOk env [0] u1 := ((RelsKept.of_eq (S := (· ∈ [0])) r1).stockAt hok).1
  obtain ⟨rfl, items, hre⟩ := combined_core (by simp) hsem hv hvols hbegan1 (hg1.trans hg) hok1 o (by rw [c2]; decide)
    (by rw [c2]; decide) g2.rect g2.nodup hid1 hc
  have hsame : SameStories u1 u2 := by
    refine runs_same (env := env) (F := fun _ => True) (Z := fun _ => True) (A := fun _ => True) (L := fun _ => True)
      (D := (· ≠ v + 5)) (i := v + 5) (fun op hop => ?_) (by simp) hc
    simp only [List.mem_cons, List.not_mem_nil, or_false] at hop
    rcases hop with rfl | rfl
    · exact .randomValues _ _ _ trivial fun i hi => by
        simp only [refs, List.cons_append, List.nil_append, List.mem_cons, List.not_mem_nil, or_false] at hi
        omega
    · exact .effect (.relAddGrouped _ _ _)
  have hnt2 : NoTimerUses 4 u2 := hsame.noTimer hnt1
  have hh3 : Harmless env [Ops.fieldLogger "restock" ["TIME", "POS_ID", "POS_NAME"] [],
      Ops.maybeBackToDefault env own] := by
    intro op hop
    simp only [List.mem_cons, List.not_mem_nil, or_false] at hop
    rcases hop with rfl | rfl
    · exact .fieldLogger _ _ _ trivial
    · exact .effect (.maybeBackToDefault _)
  obtain ⟨hg3, -⟩ := hh3.gen hnt2 hd
  obtain ⟨d3, w3, l3, ls3, h3, hdk3, rfl⟩ := Snd.cons_runs hd
  obtain ⟨d4, w4, l4, ls4, h4, hdk4, rfl⟩ := Snd.cons_runs hdk3
  cases hdk4
  obtain ⟨rfl, rfl, tbl, rfl, e1, e2⟩ := logged_rows (by simp) hre.grows.nodup h3
  obtain ⟨rfl, rfl, r4, p4⟩ := back_kept h4
  have hT : tabs ([[], []] ++ ([[], []] ++ [[("restock", tbl)], []]))
      "restock" = [tbl] := by
    simp [List.filterMap_cons, Dict.get?]
  have hT' : ∀ id, id ≠ "restock" →
      tabs ([[], []] ++ ([[], []] ++ [[("restock", tbl)], []])) id = [] :=
    fun id hid' => by simp [List.filterMap_cons, Dict.get?, Ne.symm hid']
  have hin : ∀ r ∈ tbl.rows, r.idx ∈ out.index := fun r hr' => by
    rw [← e1]
    exact mem_index.2 ⟨r, hr', rfl⟩
  have hpos : ∀ r ∈ tbl.rows, cell tbl r "POS_ID" = .scalar r.idx := fun r hr' => by
    rw [e2 r hr' _ (by decide), hre.grows.kept _ (hin r hr') _ (by rw [c2]; decide)]
    exact hid1 _ (hre.grows.labels _ (hin r hr'))
  have hlen : (out.index.flatMap fun i => (items i).map fun t => (i, t)).length =
      (out.index.map fun i => (items i).length).sum := by
    rw [List.length_flatMap]
    simp
  refine ⟨_, tbl, Grew.congr (w := u1) (given := out.index.flatMap fun i => (items i).map fun t => (i, t))
    ⟨hre.ok, hre.pops, hre.stock, fun b hb => ?_, fun pos => ?_, fun v' e => ?_, ?_⟩ r1.symm p1.symm hg1.symm r4 p4 hg3,
    hT, hT'⟩
  · rw [hg1.trans hg] at hb
    cases hb
    refine ⟨?_, ?_⟩
    · rw [hlen, ← hre.ids, List.map_flatMap]
      simp [Function.comp_def]
    · rw [hlen]
      exact hre.gen
  · rw [hT, restocksIn_one (e1 ▸ hre.grows.nodup) hpos, countFor_flatMap hre.grows.nodup, e1]
    by_cases hm : pos ∈ out.index
    · exact ⟨[(items pos).length], by simpa using hre.volume pos hm, by simp [hm], by simp [hm]⟩
    · exact ⟨[], by simp, by simp [hm], by simp [hm]⟩
  · rw [hk] at e
    cases e
  · rw [hT' _ (by decide)]
    simp

/-- the restocks that log their volumes -/
theorem Effect.grew {tbl : Frame} (h : Effect env [0] o vols a w w' T given) (hg : w.gens[4]? = some (.seq a))
    (h1 : T "restock" = [tbl]) (h2 : ∀ id, id ≠ "restock" → T id = []) : Grew env k o vols w w' T given := by
  have hs : (stockAt o w' 0).Perm (stockAt o w 0 ++ given) := by
    have := h.items
    rw [h2 _ (by decide)] at this
    simpa [purchasesIn] using this
  obtain ⟨n1, n2⟩ := h.restocks tbl (by rw [h1]; simp)
  refine ⟨h.ok, h.pops, hs, fun b hb => ?_, fun pos => ?_, fun _ _ => h.volume, h.reports⟩
  · rw [hg] at hb
    cases hb
    exact ⟨h.fresh, h.gen⟩
  · rw [h1, restocksIn_one n1 fun r hr => (n2 r hr).1]
    by_cases hm : pos ∈ tbl.index
    · obtain ⟨r, hr, rfl⟩ := mem_index.1 hm
      obtain ⟨-, -, n, -, e1, e2⟩ := n2 r hr
      have := held_perm (pos := r.idx) hs
      exact ⟨[n], by simpa using e1, by simp [hm], by simp; omega⟩
    · refine ⟨[], by simp, by simp [hm], ?_⟩
      have := h.volume pos
      rw [h1, volumeIn] at this
      have hf : (tbl.rows.filter fun r => decide (cell tbl r "POS_ID" = .scalar pos)) = [] := by
        rw [List.filter_eq_nil_iff]
        intro r hr
        rw [(n2 r hr).1]
        simp only [decide_eq_true_eq, Cell.scalar.injEq]
        rintro rfl
        exact hm (mem_index.2 ⟨r, hr, rfl⟩)
      rw [List.map_cons, hf] at this
      simp only [List.map_nil, List.sum_nil, List.sum_cons, add_zero] at this
      have : countFor pos given = 0 := by exact_mod_cast this.symm
      rw [this]
      rfl

/-! ### The executions -/

theorem combined_builtIn {F : Nat → Prop} {own : Nat} {v i : GenRef} :
    ∀ op ∈ combinedOps env day own 0 0 v i, BuiltIn env F F op := by
  intro op hop
  simp only [combinedOps, Ops.setOperations, List.cons_append, List.nil_append, List.mem_cons, List.not_mem_nil,
    or_false] at hop
  rcases hop with rfl | rfl | rfl | rfl | rfl | rfl
  · exact .adder (.timestamp _ _)
  · exact .lookup _ _ _
  · exact .adder (.randomValues _ _)
  · exact .effect (.relAddGrouped _ _ _)
  · exact .fieldLogger _ _ _
  · exact .effect (.maybeBackToDefault _)

theorem early_builtIn {F : Nat → Prop} {i : Nat} {ops : List (Op (World σ (AnyGen σ)))}
    (hi : (k.chains env day)[i]? = some ops) : ∀ op ∈ ops, BuiltIn env F F op := by
  cases k with
  | none =>
    match i with
    | 0 => cases hi; exact report_builtIn
    | j + 1 => cases hi
  | told v =>
    match i with
    | 0 => cases hi; exact periodic_builtIn
    | 1 => cases hi; exact report_builtIn
    | j + 2 => cases hi
  | untold v =>
    match i with
    | 0 => cases hi; exact combined_builtIn
    | 1 => cases hi; exact report_builtIn
    | j + 2 => cases hi

theorem grew_of (hsem : env.sem = AnyGen.sem env.R) (hvols : ∀ x ∈ vols, ∃ n : Nat, x = .num (n : Rat))
    (hw : Stands env k vols w) {i : Nat} {ops : List (Op (World σ (AnyGen σ)))} {logs : Logs}
    (hi : (k.chains env day)[i]? = some ops) (h : World.execute env ops i w = .ok logs w') (o : Orders) :
    ∃ given, Grew env k o vols w w' (fun id => tablesOf id logs) given := by
  have hb := early_builtIn hi (F := fun _ => True)
  obtain ⟨s, hs, hc⟩ := execute_stepped hb hw.own h
  have hf := hw.fields s (List.mem_of_getElem? hs)
  have hn := hw.ids s (List.mem_of_getElem? hs)
  rcases hc with ⟨r1, p1, g1, rfl, hno⟩ | ⟨w1, out, ls, hr, hnt, r1, p1, g1, hl⟩
  · exact ⟨[], Grew.congr (w := w) (w' := w) (Grew.none hw.stocks rfl (by simp [tablesOf])) rfl rfl rfl r1 p1 g1⟩
  obtain ⟨n1, n2, n3⟩ := acting_names hn hf
  have key : ∀ {given logId tbl}, Grew env k o vols (started w i s) w1 (tabs ls) given → tabs ls logId = [tbl] →
      (∀ id, id ≠ logId → tabs ls id = []) → ∃ given, Grew env k o vols w w' (fun id => tablesOf id logs) given := by
    intro given logId tbl he ht ht'
    have hT : ∀ id, tablesOf id logs = tabs ls id := tables_of_one hl ht ht'
    refine ⟨given, ?_⟩
    rw [show (fun id => tablesOf id logs) = tabs ls from funext hT]
    exact he.congr rfl rfl rfl r1 p1 g1
  have rep : ∀ own, Runs (reportOps env day own 0) ⟨[s.idField], actingRows s⟩ (started w i s) out ls w1 →
      ∃ given, Grew env k o vols w w' (fun id => tablesOf id logs) given := by
    intro own hr
    obtain ⟨q1, q2, q3, q4, tbl, q5, q6, q7⟩ := report_core (S := [0]) (by simp) (w := started w i s) hw.stocks hnt
      (by rw [hf]) n1 n2 n3 hr o
    refine key (Grew.congr (w := started w i s) (w' := started w i s) (Grew.none hw.stocks (q4 _ (by decide)) ?_)
      rfl rfl rfl q1 q2 q3) q5 q4
    intro t ht
    rw [q5, List.mem_singleton] at ht
    subst ht
    exact ⟨q6, q7⟩
  cases k with
  | none =>
    match i with
    | 0 => cases hi; exact rep _ hr
    | j + 1 => cases hi
  | told v =>
    obtain ⟨a, ha⟩ := hw.items (by simp [Supply.volumes])
    obtain ⟨hv, vp, vr, hv'⟩ := hw.volumes v rfl
    match i with
    | 0 =>
      cases hi
      obtain ⟨given, tbl, e1, e2, e3, e4⟩ := periodic_effect (S := [0]) (by simp) (w := started w 0 s) (o := o) hsem hv
        hvols hv' hw.wf hw.stocks ha hnt (by rw [hf]) n1 n2 n3 hr
      exact key (e1.grew ha e2 e4) e2 e4
    | 1 => cases hi; exact rep _ hr
    | j + 2 => cases hi
  | untold v =>
    obtain ⟨a, ha⟩ := hw.items (by simp [Supply.volumes])
    obtain ⟨hv, vp, vr, hv'⟩ := hw.volumes v rfl
    match i with
    | 0 =>
      cases hi
      obtain ⟨given, tbl, e1, e2, e4⟩ := combined_grew (w := started w 0 s) (o := o) hsem hv rfl
        hvols hv' hw.wf hw.stocks ha hnt (by rw [hf]) n1 n2 n3 hr
      exact key e1 e2 e4
    | 1 => cases hi; exact rep _ hr
    | j + 2 => cases hi

/-- the stories can go on -/
theorem exec_stands (hsem : env.sem = AnyGen.sem env.R) (hvols : ∀ x ∈ vols, ∃ n : Nat, x = .num (n : Rat))
    (hw : Stands env k vols w) {i : Nat} {ops : List (Op (World σ (AnyGen σ)))} {logs : Logs}
    (hi : (k.chains env day)[i]? = some ops) (h : World.execute env ops i w = .ok logs w') : Stands env k vols w' := by
  have hb := early_builtIn hi (F := fun _ => True)
  have hsame := execute_sameStories hb h
  obtain ⟨given, hh⟩ := grew_of hsem hvols hw hi h env.orders
  have began : ∀ {r : GenRef} {g : AnyGen σ}, Began env w r g → Began env w' r g := fun hg => by
    obtain ⟨j, hj, hb'⟩ := began_iff.1 hg
    exact began_iff.2 ⟨j, hj, execute_gens (beganAt_inv j).toGenKept
      (fun op hop => builtIn_respects (beganAt_inv j).toGenKept (hb op hop)) h hb'⟩
  refine ⟨by rw [hh.pops]; exact hw.wf, SameStories.nodup hsame hw.ids, ?_, hh.ok, hsame.noTimer hw.own, fun hk => ?_,
    fun v hv => ?_⟩
  · have := SameStories.fields hsame
    intro s hs
    have hm : s.idField ∈ w.stories.map (·.idField) := this ▸ List.mem_map_of_mem hs
    obtain ⟨s', hs', e⟩ := List.mem_map.1 hm
    rw [← e]
    exact hw.fields s' hs'
  · obtain ⟨a, ha⟩ := hw.items hk
    exact ⟨_, (hh.fresh a ha).2⟩
  · obtain ⟨h4, p, r, hg⟩ := hw.volumes v hv
    exact ⟨h4, p, r, began hg⟩

theorem tick_stands (hsem : env.sem = AnyGen.sem env.R) (hw : Stands env k vols w) :
    Stands env k vols (nextStep env w) ∧ ∀ a, w.gens[4]? = some (.seq a) → (nextStep env w).gens[4]? = some (.seq a) := by
  have hg : ∀ a, w.gens[4]? = some (.seq a) → (nextStep env w).gens[4]? = some (.seq a) := by
    intro a ha
    change (w.gens.map env.sem.tick)[4]? = _
    rw [List.getElem?_map, ha, hsem]
    rfl
  refine ⟨⟨hw.wf, hw.ids, hw.fields, hw.stocks, hw.own, fun hk => ?_, fun v hv => ?_⟩, hg⟩
  · obtain ⟨a, ha⟩ := hw.items hk
    exact ⟨a, hg a ha⟩
  · obtain ⟨h4, p, r, hb⟩ := hw.volumes v hv
    obtain ⟨j, hj, hb⟩ := began_iff.1 hb
    exact ⟨h4, p, r, began_iff.2 ⟨j, hj, (beganAt_inv j).tick _ hb⟩⟩

end Shop
end Trumania
