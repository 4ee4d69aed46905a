import Verif.Proofs.ShopBuild
import Verif.Props.ShopTrigger
import Verif.Props.CdrBuild
import Verif.Props.Functions

/-!
# C122: the circus that steps 4 and 5 of examples/tutorial/example2.py build, and its runs
-/

namespace Trumania
namespace Shop
open Spec World Circus Cdr
variable {σ : Type} {env : Env σ (AnyGen σ)} {c c' : Circus σ (AnyGen σ)}

/-- the generators of the example that its stories depend on (examples/tutorial/example2.py:28, 77, 114-117, 371-373):
ids of points of sale and of items in sequence, a choice among volumes, a choice among points of sale, and a trigger -/
structure Parts.Usual (g : Parts (AnyGen σ)) (b a : SeqGen) (vols : List Val) (f : Rat → Rat) : Prop where
  posIds : g.posIds = .seq b
  items : g.items = .seq a
  volumes : ∀ seed, ∃ p r, g.volumes seed = .choice vols p r
  choice : ∀ l p seed, ∃ r, g.choice l p seed = .choice l p r
  trigger : ∀ seed, ∃ m r, g.restockTrigger seed = .trigger m r ∧ ∀ l : List Rat, m l = l.map f

/-- what the circus is in the beginning: each point of sale has `n` items, nobody else has any, and the items are the
first ids of `a` -/
structure Opening (env : Env σ (AnyGen σ)) (sc : Scene) (a : SeqGen) (vols poss : List Val) (n : Nat)
    (w : World σ (AnyGen σ)) : Prop where
  distinct : sc.Distinct
  plays : Plays env sc vols poss w
  people : ∃ p, w.pops[0]? = some p ∧ p.ids = poss
  stocked : ∀ o, ∀ pos ∈ poss, held o w 0 pos = n
  empty : ∀ o pos, pos ∉ poss → held o w 0 pos = 0
  poor : ∀ o, stockAt o w 1 = []
  all : ∀ o, AllItems o a (poss.length * n) w

theorem opening_of {L : List (Val × Val)} {q q1 : Population} {S : List (String × String)} {D G : Dict String Nat}
    {sc : Scene} {a : SeqGen} {vols : List Val} {n : Nat} {arrays : List (List Val)} (hd : sc.Distinct)
    (hL : L = (q.ids.zip arrays).flatMap fun x => x.2.map fun y => (x.1, y))
    (ha1 : arrays.map List.length = q.ids.map (fun _ => n)) (ha2 : arrays.flatten = idsFrom a (q.ids.length * n))
    (hs : Site env [L, []] [q, q1] S D G c) (hS : S.map Prod.snd = ["POS_ID", "POS_ID", "CUST_ID"])
    (hg : c.world.gens[4]? = some (.seq { a with counter := a.counter + (q.ids.length * n : Nat) }))
    (hnt : NoTimerUses 4 c.world) (hv : ∃ p r, Began env c.world (.ref sc.volumes) (.choice vols p r))
    (hc : ∃ p r, Began env c.world (.ref sc.choice) (.choice q.ids p r)) :
    Opening env sc a vols q.ids n c.world := by
  have r0 := stage_stock hs.stage (i := 0) rfl
  have r1 := stage_stock hs.stage (i := 1) rfl
  obtain ⟨z1, z2, z3⟩ := zip_items ha1
  rw [← hL] at z1 z2 z3
  have hq := hs.stage.wf q (by simp)
  have hh : ∀ o pos, held o c.world 0 pos = countFor pos L := fun o pos => (r0.2 o).countP_eq _
  have hp : ∀ o, stockAt o c.world 1 = [] := fun o => (r1.2 o).eq_nil
  refine ⟨hd, ⟨hs.stage.pops ▸ hs.stage.wf, hs.stage.ids, ?_, ?_, ⟨_, hg⟩, hnt, hv, hc⟩,
    ⟨q, by rw [hs.stage.pops]; rfl, rfl⟩, fun o pos hpos => ?_, fun o pos hpos => ?_, hp, fun o => ⟨?_, ?_⟩⟩
  · rw [← hS, ← hs.stage.stories, List.map_map]
    rfl
  · intro i hi
    simp only [List.mem_cons, List.not_mem_nil, or_false] at hi
    rcases hi with rfl | rfl
    · exact r0.1
    · exact r1.1
  · rw [hh]
    exact z2 hq.ids pos hpos
  · rw [hh]
    exact z3 pos hpos
  · rw [hp, List.append_nil, ← ha2, ← z1]
    exact (r0.2 o).map _
  · rw [hg]

theorem after_noTimer {env : Env σ (AnyGen σ)} {n : Nat} {w w' : World σ (AnyGen σ)} (h : After env n w w')
    (h0 : NoTimerUses 4 w) : NoTimerUses 4 w' := by
  obtain ⟨l, e, hl⟩ := h.stories
  intro s hs
  rw [e] at hs
  exact (List.mem_append.1 hs).elim (h0 s) (hl s)

theorem after_kept {n : Nat} {w w' : World σ (AnyGen σ)} (h : After env n w w') (hl : 5 ≤ w.gens.length) :
    w'.gens[4]? = w.gens[4]? := h.kept.resolve_left (by omega)

theorem new_site {name : String} {seed start step : Int} (h : Circus.new env.R name seed start step = .ok c) :
    Site env [] [] [] [] [] c ∧ c.world.gens.length = 0 ∧ c.world.stories = [] ∧
      c.world.clock.current = start ∧ c.world.clock.step = step := by
  have h1 := new_stage h
  rw [Circus.new] at h
  obtain ⟨⟨x, s⟩, -, h⟩ := bind_eq_ok.1 h
  cases h
  exact ⟨⟨h1, rfl, rfl⟩, rfl, rfl, rfl, rfl⟩

/-- the points of sale and their items -/
theorem stocked_site (hsem : env.sem = AnyGen.sem env.R) {p : Params} {g : Parts (AnyGen σ)} {a b : SeqGen} {name : String}
    {seed start step : Int} {c1 c2 : Circus σ (AnyGen σ)} {u u' : Unit} (hb : g.posIds = .seq b) (ha : g.items = .seq a)
    (hnew : Circus.new env.R name seed start step = .ok c) (h1 : createPos env p g c = .ok u c1)
    (h2 : addItems env p g c1 = .ok u' c2) : ∃ q arrays, q.relationships = [("items", 0)] ∧ q.ids = idsFrom b p.nPos ∧
      arrays.map List.length = q.ids.map (fun _ => p.nItems) ∧ arrays.flatten = idsFrom a (q.ids.length * p.nItems) ∧
      Site env [(q.ids.zip arrays).flatMap fun x => x.2.map fun y => (x.1, y)] [q] []
        [("point_of_sale", 0)] [("items_gen", 4)] c2 ∧ c2.world.gens.length = 5 ∧ c2.world.stories = [] ∧
      c2.world.gens[4]? = some (.seq { a with counter := a.counter + (q.ids.length * p.nItems : Nat) }) ∧
      ((∀ name ∈ ["NAME", "COMPANY"], ∃ x, attributeOf q name x ∧ ∀ i ∈ q.ids, Knows x i) ∧
        ∀ r ∈ c2.world.rels, ∀ o, ∀ x ∈ r.get_relations o, x.2.2 = 1) ∧
      c2.world.clock.current = start ∧ c2.world.clock.step = step := by
  obtain ⟨s0, l0, -, d1, d2⟩ := new_site hnew
  obtain ⟨ids, x1, x2, x3, hids, s1, a1, hkn⟩ := createPos_site s0 l0 h1
  have hids : ids = idsFrom b p.nPos := by
    rcases hids with ⟨e, rfl⟩ | ⟨cells, x, k1, k2⟩
    · rw [e]
      rfl
    · rw [hb] at k1
      exact (Snd.seq_drawn hsem k1 k2).1
  obtain ⟨arrays, k1, k2, k3, k4, -, k6, k9, k7, k8⟩ := addItems_site hsem rfl s1 (by rw [a1.len, l0]) ha h2
  refine ⟨_, arrays, rfl, hids, k1, k2, k3, k4, List.map_eq_nil_iff.1 k3.stage.stories, k6, ⟨?_, k9⟩,
    k7.trans (a1.clock.1.trans d1), k8.trans (a1.clock.2.trans d2)⟩
  intro name hname
  simp only [List.mem_cons, List.not_mem_nil, or_false] at hname
  rcases hname with rfl | rfl
  · exact ⟨x1, by simp [attributeOf], hkn x1 (by simp)⟩
  · exact ⟨x3, by simp [attributeOf], hkn x3 (by simp)⟩

/-- **C122** Step 5, when it succeeds: the three stories are those of the scenario with a trigger, each point of sale
has the given number of items and nobody else has any, all of them different; nobody is about to be restocked. -/
theorem C122_step5 (hsem : env.sem = AnyGen.sem env.R) {p : Params} {g : Parts (AnyGen σ)} {b a : SeqGen}
    {vols : List Val} {f : Rat → Rat} (hg : g.Usual b a vols f) {day time : Int → Cell} {name : String}
    {seed start step : Int} {chains : List (List (Op (World σ (AnyGen σ))))}
    (hnew : Circus.new env.R name seed start step = .ok c) (h : step5 env p g day time c = .ok chains c') :
    ∃ sc, chains = sc.chains env ∧ sc.trigger ≠ none ∧ Opening env sc a vols (idsFrom b p.nPos) p.nItems c'.world ∧
      Triggers env sc f c'.world ∧ Dormant c'.world 0 ∧ ∀ pos, ¬ Due c'.world 0 pos := by
  rw [step5] at h
  obtain ⟨u1, c1, h1, h⟩ := Act.bind_eq_ok.1 h
  obtain ⟨u2, c2, h2, h⟩ := Act.bind_eq_ok.1 h
  obtain ⟨ops3, c3, h3, h⟩ := Act.bind_eq_ok.1 h
  obtain ⟨ops4, c4, h4, h⟩ := Act.bind_eq_ok.1 h
  obtain ⟨u5, c5, h5, h⟩ := Act.bind_eq_ok.1 h
  obtain ⟨ops6, c6, h6, h⟩ := Act.bind_eq_ok.1 h
  obtain ⟨ops7, c7, h7, h⟩ := Act.bind_eq_ok.1 h
  obtain ⟨rfl, rfl⟩ := Act.pure_eq_ok.1 h
  obtain ⟨q, arrays, hq, hids, k1, k2, s2, l2, st2, g2, -⟩ := stocked_site hsem hg.posIds hg.items hnew h1 h2
  obtain ⟨rfl, s3, a3, -, ⟨sd3, b3⟩, st, hst, htg, hsch⟩ := addInactive_site hq s2 l2 h3
  have l3 := a3.len
  obtain ⟨rfl, s4, a4, -⟩ := addReport_site hq s3 h4
  have l4 := a4.len
  obtain ⟨ids, y1, y2, s5, a5, -⟩ := createCustomers_site s4 (by omega) h5
  have l5 := a5.len
  obtain ⟨rfl, s6, a6, -, sd6, b6⟩ := addPurchases_site hq rfl s5 (by omega) h6
  have l6 := a6.len
  obtain ⟨rfl, s7, a7, sd7, b7⟩ := updatePurchases_site hq s6 h7
  have e5 : c5.world.gens.length = 9 := by omega
  have e6 : c6.world.gens.length = 12 := by omega
  rw [e5] at b6
  rw [e6] at b7
  have a37 := ((a4.trans a5).trans a6).trans a7
  obtain ⟨pv, rv, hv⟩ := hg.volumes sd3
  obtain ⟨rc, hc⟩ := hg.choice q.ids none sd6
  obtain ⟨m, rt, ht, hm⟩ := hg.trigger sd7
  refine ⟨⟨5, 11, some 12, day, time⟩, ?_, by simp, ?_, ?_, ?_⟩
  · rw [e5, e6]
    rfl
  · rw [← hids]
    refine opening_of ⟨by simp, by simp, by simp⟩ rfl k1 k2 s7 rfl ?_ ?_ ⟨pv, rv, ?_⟩ ⟨none, rc, ?_⟩
    · rw [after_kept a7 (by omega), after_kept a6 (by omega), after_kept a5 (by omega), after_kept a4 (by omega),
        after_kept a3 (by omega), g2]
    · exact after_noTimer (a3.trans a37) fun s hs => by rw [st2] at hs; cases hs
    · rw [← hv]
      exact a37.began b3
    · rw [← hc]
      exact a7.began b6
  · exact ⟨12, m, rt, rfl, hm, ht ▸ b7⟩
  · obtain ⟨l, e, -⟩ := a37.stories
    have hst7 : c7.world.stories[0]? = some st := by
      rw [e, List.getElem?_append_left (List.getElem?_eq_some_iff.1 hst).1]
      exact hst
    exact ⟨⟨st, hst7, htg⟩, fun pos => by rw [due_iff hst7]; exact hsch pos⟩

/-- **C122** Step 4, when it succeeds: the three stories are those of the scenario without a trigger, each point of
sale has the given number of items and nobody else has any, all of them different. -/
theorem C122_step4 (hsem : env.sem = AnyGen.sem env.R) {p : Params} {g : Parts (AnyGen σ)} {b a : SeqGen}
    {vols : List Val} {f : Rat → Rat} (hg : g.Usual b a vols f) {day : Int → Cell} {name : String}
    {seed start step : Int} {chains : List (List (Op (World σ (AnyGen σ))))}
    (hnew : Circus.new env.R name seed start step = .ok c) (h : step4 env p g day c = .ok chains c') :
    ∃ sc, chains = sc.chains env ∧ Opening env sc a vols (idsFrom b p.nPos) p.nItems c'.world := by
  rw [step4] at h
  obtain ⟨u1, c1, h1, h⟩ := Act.bind_eq_ok.1 h
  obtain ⟨u2, c2, h2, h⟩ := Act.bind_eq_ok.1 h
  obtain ⟨ops3, c3, h3, h⟩ := Act.bind_eq_ok.1 h
  obtain ⟨ops4, c4, h4, h⟩ := Act.bind_eq_ok.1 h
  obtain ⟨u5, c5, h5, h⟩ := Act.bind_eq_ok.1 h
  obtain ⟨ops6, c6, h6, h⟩ := Act.bind_eq_ok.1 h
  obtain ⟨rfl, rfl⟩ := Act.pure_eq_ok.1 h
  obtain ⟨q, arrays, hq, hids, k1, k2, s2, l2, st2, g2, -⟩ := stocked_site hsem hg.posIds hg.items hnew h1 h2
  obtain ⟨rfl, s3, a3, -, sd3, b3⟩ := addPeriodic_site hq s2 l2 h3
  have l3 := a3.len
  obtain ⟨rfl, s4, a4, -⟩ := addReport_site hq s3 h4
  have l4 := a4.len
  obtain ⟨ids, y1, y2, s5, a5, -⟩ := createCustomers_site s4 (by omega) h5
  have l5 := a5.len
  obtain ⟨rfl, s6, a6, -, sd6, b6⟩ := addPurchases_site hq rfl s5 (by omega) h6
  have e5 : c5.world.gens.length = 10 := by omega
  rw [e5] at b6
  have a36 := (a4.trans a5).trans a6
  obtain ⟨pv, rv, hv⟩ := hg.volumes sd3
  obtain ⟨rc, hc⟩ := hg.choice q.ids none sd6
  refine ⟨⟨6, 12, none, day, day⟩, ?_, ?_⟩
  · rw [e5]
    rfl
  · rw [← hids]
    refine opening_of ⟨by simp, by simp, by simp⟩ rfl k1 k2 s6 rfl ?_ ?_ ⟨pv, rv, ?_⟩ ⟨none, rc, ?_⟩
    · rw [after_kept a6 (by omega), after_kept a5 (by omega), after_kept a4 (by omega),
        after_kept a3 (by omega), g2]
    · exact after_noTimer (a3.trans a36) fun s hs => by rw [st2] at hs; cases hs
    · rw [← hv]
      exact a36.began b3
    · rw [← hc]
      exact b6

/-! ### Runs from there on -/

variable {sc : Scene} {b a : SeqGen} {vols : List Val} {n m : Nat} {w w' : World σ (AnyGen σ)}
  {evs : List (Int × Event)} {f : Rat → Rat}

/-- **C122** In any run from the beginning on, each report tells of the number of items of the beginning, plus what was
delivered, minus what was sold, according to the logs written before it. -/
theorem C122_reports (hsem : env.sem = AnyGen.sem env.R) (hvols : ∀ x ∈ vols, ∃ n : Nat, x = .num (n : Rat))
    {e1 e2 : List (Int × Event)} {d : Int} {j : Nat} {logs : Logs}
    (hw : Opening env sc a vols (idsFrom b m) n w)
    (h : Played env (sc.chains env) w (e1 ++ (d, .exec j logs) :: e2) w') :
    ∀ t ∈ tablesOf "report" logs, ∀ r ∈ t.rows, ∀ pos ∈ idsFrom b m, cell t r "POS_ID" = .scalar pos →
      cell t r "STOCK_LEVEL" = .num (levelAfter n pos (emitted e1)) := by
  intro t ht r hr pos hp hc
  obtain ⟨pos', e, hl⟩ := (C118_reports hsem hw.distinct hvols h hw.plays env.orders t ht).2 r hr
  rw [hc] at e
  cases e
  rw [hl, hw.stocked _ pos hp]

/-- **C122** In any run from the beginning on: the logs of purchases and restocks tell what the stock of each point of
sale is, and hence never tell of more sales than there were items; each customer has what the log of purchases tells;
the items of points of sale and customers together are the first ids of the generator, once each. -/
theorem C122_stock (hsem : env.sem = AnyGen.sem env.R) (hvols : ∀ x ∈ vols, ∃ n : Nat, x = .num (n : Rat))
    (hw : Opening env sc a vols (idsFrom b m) n w) (h : Played env (sc.chains env) w evs w') (o : Orders) :
    (∀ pos ∈ idsFrom b m, (held o w' 0 pos : Rat) = levelAfter n pos (emitted evs) ∧
      (soldAt pos (emitted evs) : Rat) ≤ n + deliveredTo pos (emitted evs)) ∧
    (stockAt o w' 1).Perm ((purchases (emitted evs)).map fun m => (m.2.1, m.2.2)) ∧
    (∃ k, m * n ≤ k ∧ AllItems o a k w') ∧ ((purchases (emitted evs)).map fun m => m.2.2).Nodup := by
  obtain ⟨⟨k, h1⟩, h2, h3⟩ := C120_items hsem hw.distinct hvols h hw.plays o (hw.all o)
  refine ⟨fun pos hp => ?_, ?_, ⟨_, ?_, h1⟩, h3⟩
  · have hl := C118_level hsem hw.distinct hvols h hw.plays o pos
    rw [hw.stocked o pos hp] at hl
    refine ⟨hl, ?_⟩
    rw [levelAfter] at hl
    have : (0 : Rat) ≤ held o w' 0 pos := Nat.cast_nonneg _
    linarith
  · have := C120_bought hsem hw.distinct hvols h hw.plays o
    rwa [hw.poor, List.nil_append] at this
  · simp [idsFrom]

/-- **C122** In any run of step 5 from its beginning on, no point of sale is restocked more often than it sold, and
its stock never exceeds both what it had in the beginning and the highest level that can trigger a restock plus the
largest volume. -/
theorem C122_bound (hsem : env.sem = AnyGen.sem env.R) (hvols : ∀ x ∈ vols, ∃ n : Nat, x = .num (n : Rat))
    (hw : Opening env sc a vols (idsFrom b m) n w) (hf : Triggers env sc f w) (hdo : Dormant w 0)
    (hnd : ∀ pos, ¬ Due w 0 pos) (h : Played env (sc.chains env) w evs w') {most big : Nat}
    (hm : ∀ n : Nat, most < n → f n ≤ 0) (hb : ∀ n : Nat, .num (n : Rat) ∈ vols → n ≤ big) (o : Orders) :
    ∀ pos ∈ idsFrom b m, restocksOf pos (emitted evs) ≤ soldAt pos (emitted evs) ∧
      held o w' 0 pos ≤ max n (most + big) := by
  intro pos hp
  have htr : sc.trigger ≠ none := by
    obtain ⟨t, _, _, ht, -⟩ := hf.began
    rw [ht]
    simp
  refine ⟨(C121_run hsem hw.distinct hvols htr h hw.plays hdo (hnd pos)).1, ?_⟩
  have := C121_bound hsem hw.distinct hvols h hw.plays hf hdo hm hb (Snd.idsFrom_str pos hp) (hnd pos) o
  rwa [hw.stocked o pos hp] at this

/-- **C122** The numbers of the example: 5 items in the beginning, volumes of 5, 15, 20 or 25 and a trigger that is
certain up to 2 items and impossible from 10 items on. In any run of step 5 a point of sale never has more than 34
items, and a restock never finds more than 9; after sales that leave 2 items or less, the next execution of the
restocks restocks it. -/
theorem C122_example (hsem : env.sem = AnyGen.sem env.R) {p : Params} {g : Parts (AnyGen σ)} {cdf sf : Rat → Rat}
    (hsf : UnitCdf cdf sf) (hf : ∀ x, bounded_sigmoid cdf sf 2 10 false x = .ok (f x))
    (hg : g.Usual b a [.num 5, .num 15, .num 20, .num 25] f) (hp : p.nItems = 5) {day time : Int → Cell} {name : String}
    {seed start step : Int} {chains : List (List (Op (World σ (AnyGen σ))))}
    (hnew : Circus.new env.R name seed start step = .ok c) (hstep : step5 env p g day time c = .ok chains c')
    {pos : Val} (hpos : pos ∈ idsFrom b p.nPos) :
    (∀ {evs w'}, Played env chains c'.world evs w' → ∀ o, held o w' 0 pos ≤ 34 ∧
      restocksOf pos (emitted evs) ≤ soldAt pos (emitted evs)) ∧
    (∀ {e1 e2 d j logs w'}, Played env chains c'.world (e1 ++ (d, .exec j logs) :: e2) w' →
      ∀ t ∈ tablesOf "restock" logs, ∀ r ∈ t.rows, cell t r "POS_ID" = .scalar pos →
        ∃ n : Nat, n ≤ 9 ∧ cell t r "PREV_STOCK_LEVEL" = .num (n : Rat)) ∧
    (∀ {e1 e2 e3 d d' i logs logs' w'},
      Played env chains c'.world (e1 ++ (d, .exec i logs) :: (e2 ++ (d', .exec 0 logs') :: e3)) w' →
      soldAt pos logs ≠ 0 → levelAfter 5 pos (emitted e1 ++ logs) ≤ 2 →
      (∀ d logs, (d, Event.exec 0 logs) ∉ e2) → restocksOf pos logs' = 1) := by
  obtain ⟨sc, rfl, htr, hw, hft, hdo, hnd⟩ := C122_step5 hsem hg hnew hstep
  rw [hp] at hw
  obtain ⟨f', k0, k1, k2, -, -⟩ := C49_bounded_sigmoid cdf sf hsf 2 10 (by norm_num) false
  have hff : f' = f := by
    funext x
    exact Except.ok.inj ((k0 x).symm.trans (hf x))
  subst hff
  have hvols : ∀ x ∈ [Val.num 5, .num 15, .num 20, .num 25], ∃ n : Nat, x = .num (n : Rat) := by
    intro x hx
    simp only [List.mem_cons, List.not_mem_nil, or_false] at hx
    rcases hx with rfl | rfl | rfl | rfl
    · exact ⟨5, rfl⟩
    · exact ⟨15, rfl⟩
    · exact ⟨20, rfl⟩
    · exact ⟨25, rfl⟩
  have hm : ∀ n : Nat, 9 < n → f' n ≤ 0 := by
    intro n hn
    have : (10 : Rat) ≤ n := by exact_mod_cast hn
    rw [k2 _ this]
    simp
  have hb : ∀ n : Nat, Val.num (n : Rat) ∈ [Val.num 5, .num 15, .num 20, .num 25] → n ≤ 25 := by
    intro n hn
    simp only [List.mem_cons, List.not_mem_nil, or_false, Val.num.injEq] at hn
    rcases hn with e | e | e | e
    · have : n = 5 := by exact_mod_cast e
      omega
    · have : n = 15 := by exact_mod_cast e
      omega
    · have : n = 20 := by exact_mod_cast e
      omega
    · have : n = 25 := by exact_mod_cast e
      omega
  have hna := Snd.idsFrom_str pos hpos
  refine ⟨fun h o => ?_, fun h => ?_, fun h hs hl hno => ?_⟩
  · obtain ⟨h1, h2⟩ := C122_bound hsem hvols hw hft hdo hnd h hm hb o pos hpos
    exact ⟨h2, h1⟩
  · exact C121_previous hsem hw.distinct hvols h hw.plays hft hdo hm hna (hnd pos)
  · refine C121_next hsem hw.distinct hvols h hw.plays hft hdo env.orders hna hs ?_ hno
    rw [hw.stocked _ pos hpos, k1 _ (by exact_mod_cast hl)]
    simp

/-! ### Non-vacuity -/

def exParams : Params := ⟨2, 3, 3⟩

def exParts : Parts (AnyGen Nat) where
  posIds := .seq ⟨0, "POS_", 3⟩
  posNames seed := .choice [.str "Ann", .str "Bob"] none (Rng.counter.seed seed)
  posCities seed := .choice [.str "Kigali"] none (Rng.counter.seed seed)
  posCompanies seed := .choice [.str "A", .str "B"] none (Rng.counter.seed seed)
  items := .seq ⟨0, "ITEM_", 4⟩
  restockTimer seed := .cyclic ⟨Rng.counter.seed seed, 1, [(0, 1)]⟩
  restockActivity := 1
  volumes seed := .choice [.num 5, .num 15] none (Rng.counter.seed seed)
  customerIds := .seq ⟨0, "CUST_", 3⟩
  firstNames seed := .choice [.str "C", .str "D"] none (Rng.counter.seed seed)
  lastNames seed := .choice [.str "E", .str "F"] none (Rng.counter.seed seed)
  purchaseTimer seed := .cyclic ⟨Rng.counter.seed seed, 1, [(0, 1)]⟩
  purchaseActivity seed := .uniform 10 10 (Rng.counter.seed seed)
  choice l p seed := .choice l p (Rng.counter.seed seed)
  restockTrigger seed := .trigger (fun l => l.map fun x => if x ≤ 2 then 1 else 0) (Rng.counter.seed seed)

theorem exUsual : exParts.Usual ⟨0, "POS_", 3⟩ ⟨0, "ITEM_", 4⟩ [.num 5, .num 15] (fun x => if x ≤ 2 then 1 else 0) :=
  ⟨rfl, rfl, fun _ => ⟨_, _, rfl⟩, fun _ _ _ => ⟨_, rfl⟩, fun _ => ⟨_, _, rfl, fun _ => rfl⟩⟩

def exFmt (t : Int) : Cell := .num t

def exBuilt : Option (List (List (Op (World Nat (AnyGen Nat)))) × Circus Nat (AnyGen Nat)) :=
  match Circus.new Rng.counter "shop" 1234 0 (3600 * nsPerSec) with
  | .ok c => match step5 Trumania.exEnv exParams exParts exFmt exFmt c with
    | .ok chains c' => some (chains, c')
    | .error _ _ => none
  | .error _ => none

/-- the three stories, and one increment of the clock -/
def oneStep : List (Option Nat) := [some 0, some 1, some 2, none]

/-- The circus is built; in three steps the first point of sale sells 5 items and gets 5, the second sells 4 and
gets 15. -/
theorem exPlayed : (exBuilt.bind fun x => (Snd.play exEnv x.1 (oneStep ++ oneStep ++ oneStep) x.2.world).map
    fun r => ([Val.str "POS_000", .str "POS_001"].map fun pos => (soldAt pos (emitted r.1),
    restocksOf pos (emitted r.1), deliveredTo pos (emitted r.1), held Orders.a r.2 0 pos))) =
    some [(5, 1, 5, 3), (4, 1, 15, 14)] := by
  decide +kernel

/-- the hypotheses of C118 to C122 hold of this run -/
example : ∃ sc c c' evs w', Circus.new exEnv.R "shop" 1234 0 (3600 * nsPerSec) = .ok c ∧
    step5 exEnv exParams exParts exFmt exFmt c = .ok (sc.chains exEnv) c' ∧
    Opening exEnv sc ⟨0, "ITEM_", 4⟩ [.num 5, .num 15] (idsFrom ⟨0, "POS_", 3⟩ 2) 3 c'.world ∧
    Triggers exEnv sc (fun x => if x ≤ 2 then 1 else 0) c'.world ∧ Dormant c'.world 0 ∧
    (∀ pos, ¬ Due c'.world 0 pos) ∧ Played exEnv (sc.chains exEnv) c'.world evs w' ∧
    soldAt (.str "POS_000") (emitted evs) = 5 ∧ restocksOf (.str "POS_000") (emitted evs) = 1 := by
  obtain ⟨⟨chains, c'⟩, h1, h2⟩ := Option.bind_eq_some_iff.1 exPlayed
  obtain ⟨⟨evs, w'⟩, h3, h4⟩ := Option.map_eq_some_iff.1 h2
  rw [exBuilt] at h1
  split at h1
  · rename_i c hc
    split at h1
    · rename_i hb
      cases h1
      obtain ⟨sc, rfl, -, k1, k2, k3, k4⟩ := C122_step5 (env := exEnv) rfl exUsual hc hb
      have h5 := (List.cons.inj h4).1
      simp only [Prod.mk.injEq] at h5
      exact ⟨sc, c, _, evs, w', hc, hb, k1, k2, k3, k4, Snd.play_played h3, h5.1, h5.2.1⟩
    · cases h1
  · cases h1

end Shop
end Trumania
