import Verif.Spec.Reports
import Verif.Props.ShopBuild
import Verif.Props.Clock

/-!
# C124 (continued): when the points of sale of examples/tutorial/example2.py report
-/

namespace Trumania
namespace Shop
open Spec World Circus Cdr
variable {σ : Type} {env : Env σ (AnyGen σ)} {c c' : Circus σ (AnyGen σ)} {w w' : World σ (AnyGen σ)}
  {L : List (Val × Val)} {q : Population} {i n : Nat} {ids : List Val} {day : Int → Cell}
  {chains : List (List (Op (World σ (AnyGen σ))))} {evs : List (Int × Event)}

/-! ### The operations -/

theorem report_journals (own items : Nat) : Journals env (· ≠ i) (· ≠ i) "POS_ID" "TIME" "report"
    ["TIME", "POS_ID", "STOCK_LEVEL"] false day True (reportOps env day own items) := by
  refine ⟨[], [Ops.neighbourhoodSize items "POS_ID" "STOCK_LEVEL"], [Ops.maybeBackToDefault env own], by simp, rfl,
    by unfold Clear; decide, ?_, ?_, ?_⟩
  · intro op hop
    simp only [List.nil_append, List.mem_singleton] at hop
    subst hop
    exact .neighbourhoodSize _ _ _ (by unfold Clear; decide)
  · intro op hop
    simp only [List.mem_singleton] at hop
    subst hop
    exact .effect (.maybeBackToDefault _)
  · intro _ op hop
    simp only [List.nil_append, List.mem_singleton] at hop
    subst hop
    exact .adder (.neighbourhoodSize _ _)

theorem periodic_silent (own pos items : Nat) (v g : GenRef) :
    Silent env (· ≠ i) (· ≠ i) "report" (periodicOps env day own pos items v g) := by
  intro op hop
  simp only [periodicOps, Ops.setOperations, List.cons_append, List.nil_append, List.mem_cons, List.not_mem_nil,
    or_false] at hop
  rcases hop with rfl | rfl | rfl | rfl | rfl | rfl | rfl
  · exact .timestamp _ _ _ trivial
  · exact .lookup _ _ _ (by decide) (fun _ _ => trivial)
  · exact .randomValues _ _ _ trivial (fun _ _ => trivial)
  · exact .randomValuesFromField _ _ _ trivial (fun _ _ => trivial)
  · exact .effect (.relAddGrouped _ _ _)
  · exact .fieldLogger _ _ _ (by decide)
  · exact .effect (.maybeBackToDefault _)

theorem combined_silent (own pos items : Nat) (v g : GenRef) :
    Silent env (· ≠ i) (· ≠ i) "report" (combinedOps env day own pos items v g) := by
  intro op hop
  simp only [combinedOps, Ops.setOperations, List.cons_append, List.nil_append, List.mem_cons, List.not_mem_nil,
    or_false] at hop
  rcases hop with rfl | rfl | rfl | rfl | rfl | rfl
  · exact .timestamp _ _ _ trivial
  · exact .lookup _ _ _ (by decide) (fun _ _ => trivial)
  · exact .randomValues _ _ _ trivial (fun _ _ => trivial)
  · exact .effect (.relAddGrouped _ _ _)
  · exact .fieldLogger _ _ _ (by decide)
  · exact .effect (.maybeBackToDefault _)

theorem restock_silent (own pos items : Nat) (v g : GenRef) :
    Silent env (· ≠ i) (· ≠ i) "report" (restockOps env day own pos items v g) := by
  intro op hop
  simp only [restockOps, Ops.setOperations, List.cons_append, List.nil_append, List.mem_cons, List.not_mem_nil,
    or_false] at hop
  rcases hop with rfl | rfl | rfl | rfl | rfl | rfl | rfl | rfl | rfl
  · exact .timestamp _ _ _ trivial
  · exact .lookup _ _ _ (by decide) (fun _ _ => trivial)
  · exact .neighbourhoodSize _ _ _ trivial
  · exact .randomValues _ _ _ trivial (fun _ _ => trivial)
  · exact .randomValuesFromField _ _ _ trivial (fun _ _ => trivial)
  · exact .effect (.relAddGrouped _ _ _)
  · exact .neighbourhoodSize _ _ _ trivial
  · exact .fieldLogger _ _ _ (by decide)
  · exact .effect (.maybeBackToDefault _)

theorem purchase_silent (own customers pos items mine : Nat) (g : GenRef) :
    Silent env (· ≠ i) (· ≠ i) "report" (purchaseOps env own customers pos items mine g) := by
  intro op hop
  simp only [purchaseOps, Ops.setOperations, List.cons_append, List.nil_append, List.mem_cons, List.not_mem_nil,
    or_false] at hop
  rcases hop with rfl | rfl | rfl | rfl | rfl | rfl | rfl
  · exact .lookup _ _ _ (by decide) (fun _ _ => trivial)
  · exact .randomValues _ _ _ trivial (fun _ _ => trivial)
  · exact .lookup _ _ _ (by decide) (fun _ _ => trivial)
  · exact .selectOne _ _ _ _ _ _ _ trivial
  · exact .effect (.relAdd _ _ _)
  · exact .fieldLogger _ _ _ (by decide)
  · exact .effect (.maybeBackToDefault _)

theorem trigger_silent {restock : Nat} (hr : restock ≠ i) (items : Nat) (g : GenRef) :
    Silent env (· ≠ i) (· ≠ i) "report" (triggerOps env restock items g) := by
  intro op hop
  simp only [triggerOps, List.mem_cons, List.not_mem_nil, or_false] at hop
  rcases hop with rfl | rfl | rfl
  · exact .neighbourhoodSize _ _ _ trivial
  · exact .randomValuesFromField _ _ _ trivial (fun _ _ => trivial)
  · exact .effect (.forceActNext _ _ _ hr)

/-! ### What is built -/

theorem addCombined_site {g : Parts (AnyGen σ)} {ops : List (Op (World σ (AnyGen σ)))}
    (hq : q.relationships = [("items", 0)]) (hs : Site env [L] [q] [] [("point_of_sale", 0)] [("items_gen", 4)] c)
    (hl : c.world.gens.length = 5) (h : addCombined env g day c = .ok ops c') :
    ops = combinedOps env day 0 0 0 (.ref 6) (.ref 4) ∧
      Site env [L] [q] [("restock", "POS_ID")] [("point_of_sale", 0)] [("items_gen", 4)] c' ∧
      After env 2 c.world c'.world ∧
      Anew c.world c'.world q.ids (fun r => ∃ seed, Began env c'.world r (g.restockTimer seed)) ∧
      ∃ seed, Began env c'.world (.ref 6) (g.volumes seed) := by
  rw [addCombined] at h
  obtain ⟨pos, c1, h1, h⟩ := Act.bind_eq_ok.1 h
  obtain ⟨rfl, e1⟩ := popNamed_ok h1
  rw [hs.pops] at e1
  cases e1
  obtain ⟨r0, c0, h0, h⟩ := Act.bind_eq_ok.1 h
  obtain ⟨u0, h0', rfl⟩ := onWorld_ok h0
  have t0 := stage_seeded hs.stage h0'
  have st0 := (seeded_began h0').2.2
  obtain ⟨a0, rfl, sd0, b0⟩ := after_seeded h0'
  have l0 := a0.len
  obtain ⟨own, c2, h2, h⟩ := Act.bind_eq_ok.1 h
  obtain ⟨u2, h2', rfl⟩ := onWorld_ok h2
  obtain ⟨rfl, t2⟩ := stage_createStory t0 h2'
  obtain ⟨a2, -⟩ := after_createStory (cfg := periodicStory 0 (.ref c1.world.gens.length) g.restockActivity) rfl
    (by simp [periodicStory, refs]) (by simp [periodicStory, refs, hl]) h2'
  have n2 := anew_createStory (p := q) rfl (by rw [t0.pops]; rfl) (t0.wf q (by simp)).ids h2'
  have l2 : u2.gens.length = u0.gens.length := a2.len
  obtain ⟨r3, c3, h3, h⟩ := Act.bind_eq_ok.1 h
  obtain ⟨u3, h3', rfl⟩ := onWorld_ok h3
  have t3 := stage_seeded t2 h3'
  have st3 := (seeded_began h3').2.2
  obtain ⟨a3, rfl, b3⟩ := after_seeded h3'
  obtain ⟨r4, c4, h4, h⟩ := Act.bind_eq_ok.1 h
  obtain ⟨rfl, i, rfl, e4⟩ := genNamed_ok h4
  rw [hs.gens] at e4
  cases e4
  obtain ⟨r5, c5, h5, h⟩ := Act.bind_eq_ok.1 h
  obtain ⟨u5, h5', rfl⟩ := onWorld_ok h5
  obtain ⟨rfl, q', e5, e6⟩ := stage_relNamed t3 h5'
  cases e5
  rw [hq] at e6
  cases e6
  obtain ⟨rfl, rfl⟩ := Act.pure_eq_ok.1 h
  have hlen : u2.gens.length = 6 := by rw [l2, l0, hl]
  refine ⟨?_, ⟨t3, hs.pops, hs.gens⟩, (a0.trans a2).trans a3, ?_, ?_⟩
  · show combinedOps env day 0 0 0 (.ref u2.gens.length) (.ref 4) = _
    rw [hlen]
  · exact (n2.before st0).after st3 fun r hr => ⟨sd0, by rw [hr]; exact a3.began (a2.began b0)⟩
  · have b3' : ∃ seed, Began env u5 (.ref u2.gens.length) (g.volumes seed) := b3
    rwa [hlen] at b3'

/-- what comes after the reports are built leaves them alone -/
theorem beats_after {m : Nat} (h : After env m w w') {k : Nat} (hb : Beats w i k ids ∧ AllWait w i k) :
    Beats w' i k ids ∧ AllWait w' i k := by
  obtain ⟨l, e, -⟩ := h.stories
  have key : ∀ s, w.stories[i]? = some s → w'.stories[i]? = some s := by
    intro s hs
    rw [e, List.getElem?_append_left (List.getElem?_eq_some_iff.1 hs).1]
    exact hs
  obtain ⟨⟨⟨s, h1, h2⟩, h3⟩, s', h4, h5⟩ := hb
  exact ⟨⟨⟨s, key s h1, h2⟩, h3⟩, s', key s' h4, h5⟩

theorem site_field {S : List (String × String)} {R : List (List (Val × Val))} {P : List Population}
    {D G : Dict String Nat} (hs : Site env R P S D G c) {x : String × String} (hx : S[i]? = some x) (s : Story σ)
    (h : c.world.stories[i]? = some s) : s.idField = x.2 := by
  have := hs.stage.stories
  rw [← this, List.getElem?_map, h] at hx
  cases hx
  rfl

theorem day_steps {n : Int} {cl : Clock σ (AnyGen σ)} (hs : 0 < cl.step) (h : cl.nIterations oneDay = .ok n) :
    ∃ k : Nat, n = k + 1 := by
  obtain ⟨m, h1, h2, h3, -⟩ := C09_n_iterations cl oneDay hs (by decide)
  rw [h] at h1
  cases h1
  rcases Nat.eq_zero_or_pos n.toNat with e | e
  · have : n = 0 := by omega
    subst this
    rw [Int.zero_mul] at h3
    exact absurd h3 (by decide)
  · exact ⟨n.toNat - 1, by omega⟩

/-- what it takes that the points of sale report as they should -/
theorem reporting_of {S : List (String × String)} {G : Dict String Nat} {c1 c2 : Circus σ (AnyGen σ)} {m : Nat}
    {ops : List (Op (World σ (AnyGen σ)))} {start step : Int} (hstep : 0 < step) (hq : q.relationships = [("items", 0)])
    (hs : Site env [L] [q] S [("point_of_sale", 0)] G c1) (h : addReport env day c1 = .ok ops c2)
    (hd : c1.world.clock.current = start ∧ c1.world.clock.step = step) (ha : After env m c2.world c'.world)
    (hc : chains[S.length]? = some ops)
    (ho : ∀ (j : Nat) ops, j ≠ S.length → chains[j]? = some ops → Silent env (· ≠ S.length) (· ≠ S.length) "report" ops) :
    c'.world.clock.current = start ∧ c'.world.clock.step = step ∧ ∃ i n : Nat, c'.world.clock.nIterations oneDay = .ok n ∧
      Reporting env chains c'.world i n q.ids day := by
  obtain ⟨rfl, s2, a2, -, n, hn, hk⟩ := addReport_site hq hs h
  obtain ⟨k, rfl⟩ := day_steps (by rw [hd.2]; exact hstep) hn
  have hb := hk k rfl
  have hcl := (a2.trans ha).clock
  refine ⟨hcl.1.trans hd.1, hcl.2.trans hd.2, S.length, k + 1, ?_, ⟨0, hc⟩, ho, fun s hs' => ?_, k, rfl,
    beats_after ha hb⟩
  · have := hn
    rw [Clock.nIterations] at this ⊢
    rw [hcl.2]
    exact_mod_cast this
  · obtain ⟨⟨⟨s1, h1, -⟩, -⟩, -⟩ := hb
    obtain ⟨l, e, -⟩ := ha.stories
    rw [e, List.getElem?_append_left (List.getElem?_eq_some_iff.1 h1).1] at hs'
    exact site_field s2 (i := S.length) (x := ("report", "POS_ID")) (by simp) s hs'

/-- **C124** Each step of the example, when it succeeds: the points of sale report once in the number of steps of the
clock that make a day, counted up to a whole number; the clock is that of the circus. -/
theorem C124_built (hsem : env.sem = AnyGen.sem env.R) {p : Params} {g : Parts (AnyGen σ)} {b a : SeqGen}
    (hb : g.posIds = .seq b) (ha : g.items = .seq a) {time : Int → Cell} {name : String} {seed start step : Int}
    (hstep : 0 < step) (hnew : Circus.new env.R name seed start step = .ok c) {st : Step}
    (h : st.build env p g day time c = .ok chains c') :
    c'.world.clock.current = start ∧ c'.world.clock.step = step ∧ ∃ i n : Nat, c'.world.clock.nIterations oneDay = .ok n ∧
      Reporting env chains c'.world i n (idsFrom b p.nPos) day := by
  obtain ⟨s0, l0, -, d1, d2⟩ := new_site (env := env) hnew
  cases st with
  | one =>
    change step1 env p g day c = _ at h
    rw [step1] at h
    obtain ⟨u1, c1, h1, h⟩ := Act.bind_eq_ok.1 h
    obtain ⟨ops4, c4, h4, h⟩ := Act.bind_eq_ok.1 h
    obtain ⟨rfl, rfl⟩ := Act.pure_eq_ok.1 h
    obtain ⟨ids, x1, x2, x3, hids, s1, a1, -⟩ := createPos_site s0 l0 h1
    have hids : ids = idsFrom b p.nPos := by
      rcases hids with ⟨e, rfl⟩ | ⟨cells, x, k1, k2⟩
      · rw [e]
        rfl
      · rw [hb] at k1
        exact (Snd.seq_drawn hsem k1 k2).1
    have := reporting_of (chains := [ops4]) hstep rfl s1 h4 ⟨a1.clock.1.trans d1, a1.clock.2.trans d2⟩
      (After.same (w' := c4.world) rfl rfl) rfl (fun j ops hj e => by
        match j with
        | 0 => exact absurd rfl hj
        | j + 1 => simp at e)
    rw [← hids]
    exact this
  | two =>
    change step2 env p g day c = _ at h
    rw [step2] at h
    obtain ⟨u1, c1, h1, h⟩ := Act.bind_eq_ok.1 h
    obtain ⟨u2, c2, h2, h⟩ := Act.bind_eq_ok.1 h
    obtain ⟨ops4, c4, h4, h⟩ := Act.bind_eq_ok.1 h
    obtain ⟨rfl, rfl⟩ := Act.pure_eq_ok.1 h
    obtain ⟨q, arrays, hq, hids, -, -, s2, -, -, -, -, e2⟩ := stocked_site hsem hb ha hnew h1 h2
    rw [← hids]
    exact reporting_of hstep hq s2 h4 e2 (After.same (w' := c4.world) rfl rfl) rfl (fun j ops hj e => by
        match j with
        | 0 => exact absurd rfl hj
        | j + 1 => simp at e)
  | three =>
    change step3 env p g day c = _ at h
    rw [step3] at h
    obtain ⟨u1, c1, h1, h⟩ := Act.bind_eq_ok.1 h
    obtain ⟨u2, c2, h2, h⟩ := Act.bind_eq_ok.1 h
    obtain ⟨ops3, c3, h3, h⟩ := Act.bind_eq_ok.1 h
    obtain ⟨ops4, c4, h4, h⟩ := Act.bind_eq_ok.1 h
    obtain ⟨rfl, rfl⟩ := Act.pure_eq_ok.1 h
    obtain ⟨q, arrays, hq, hids, -, -, s2, l2, -, -, -, e2⟩ := stocked_site hsem hb ha hnew h1 h2
    obtain ⟨rfl, s3, a3, -⟩ := addPeriodic_site hq s2 l2 h3
    rw [← hids]
    exact reporting_of hstep hq s3 h4 ⟨a3.clock.1.trans e2.1, a3.clock.2.trans e2.2⟩
      (After.same (w' := c4.world) rfl rfl) rfl (fun j ops hj e => by
        match j with
        | 0 => cases e; exact periodic_silent _ _ _ _ _
        | 1 => exact absurd rfl hj
        | j + 2 => simp at e)
  | threeBis =>
    change step3bis env p g day c = _ at h
    rw [step3bis] at h
    obtain ⟨u1, c1, h1, h⟩ := Act.bind_eq_ok.1 h
    obtain ⟨u2, c2, h2, h⟩ := Act.bind_eq_ok.1 h
    obtain ⟨ops3, c3, h3, h⟩ := Act.bind_eq_ok.1 h
    obtain ⟨ops4, c4, h4, h⟩ := Act.bind_eq_ok.1 h
    obtain ⟨rfl, rfl⟩ := Act.pure_eq_ok.1 h
    obtain ⟨q, arrays, hq, hids, -, -, s2, l2, -, -, -, e2⟩ := stocked_site hsem hb ha hnew h1 h2
    obtain ⟨rfl, s3, a3, -⟩ := addCombined_site hq s2 l2 h3
    rw [← hids]
    exact reporting_of hstep hq s3 h4 ⟨a3.clock.1.trans e2.1, a3.clock.2.trans e2.2⟩
      (After.same (w' := c4.world) rfl rfl) rfl (fun j ops hj e => by
        match j with
        | 0 => cases e; exact combined_silent _ _ _ _ _
        | 1 => exact absurd rfl hj
        | j + 2 => simp at e)
  | four =>
    change step4 env p g day c = _ at h
    rw [step4] at h
    obtain ⟨u1, c1, h1, h⟩ := Act.bind_eq_ok.1 h
    obtain ⟨u2, c2, h2, h⟩ := Act.bind_eq_ok.1 h
    obtain ⟨ops3, c3, h3, h⟩ := Act.bind_eq_ok.1 h
    obtain ⟨ops4, c4, h4, h⟩ := Act.bind_eq_ok.1 h
    obtain ⟨u5, c5, h5, h⟩ := Act.bind_eq_ok.1 h
    obtain ⟨ops6, c6, h6, h⟩ := Act.bind_eq_ok.1 h
    obtain ⟨rfl, rfl⟩ := Act.pure_eq_ok.1 h
    obtain ⟨q, arrays, hq, hids, -, -, s2, l2, -, -, -, e2⟩ := stocked_site hsem hb ha hnew h1 h2
    obtain ⟨rfl, s3, a3, -⟩ := addPeriodic_site hq s2 l2 h3
    have l3 := a3.len
    obtain ⟨-, s4, a4, -⟩ := addReport_site hq s3 h4
    have l4 := a4.len
    obtain ⟨ids, y1, y2, s5, a5, -⟩ := createCustomers_site s4 (by omega) h5
    have l5 := a5.len
    obtain ⟨rfl, s6, a6, -⟩ := addPurchases_site hq rfl s5 (by omega) h6
    rw [← hids]
    exact reporting_of hstep hq s3 h4 ⟨a3.clock.1.trans e2.1, a3.clock.2.trans e2.2⟩ (a5.trans a6) rfl
      (fun j ops hj e => by
        match j with
        | 0 => cases e; exact periodic_silent _ _ _ _ _
        | 1 => exact absurd rfl hj
        | 2 => cases e; exact purchase_silent _ _ _ _ _ _
        | j + 3 => simp at e)
  | five =>
    change step5 env p g day time c = _ at h
    rw [step5] at h
    obtain ⟨u1, c1, h1, h⟩ := Act.bind_eq_ok.1 h
    obtain ⟨u2, c2, h2, h⟩ := Act.bind_eq_ok.1 h
    obtain ⟨ops3, c3, h3, h⟩ := Act.bind_eq_ok.1 h
    obtain ⟨ops4, c4, h4, h⟩ := Act.bind_eq_ok.1 h
    obtain ⟨u5, c5, h5, h⟩ := Act.bind_eq_ok.1 h
    obtain ⟨ops6, c6, h6, h⟩ := Act.bind_eq_ok.1 h
    obtain ⟨ops7, c7, h7, h⟩ := Act.bind_eq_ok.1 h
    obtain ⟨rfl, rfl⟩ := Act.pure_eq_ok.1 h
    obtain ⟨q, arrays, hq, hids, -, -, s2, l2, -, -, -, e2⟩ := stocked_site hsem hb ha hnew h1 h2
    obtain ⟨rfl, s3, a3, -⟩ := addInactive_site hq s2 l2 h3
    have l3 := a3.len
    obtain ⟨-, s4, a4, -⟩ := addReport_site hq s3 h4
    have l4 := a4.len
    obtain ⟨ids, y1, y2, s5, a5, -⟩ := createCustomers_site s4 (by omega) h5
    have l5 := a5.len
    obtain ⟨rfl, s6, a6, -⟩ := addPurchases_site hq rfl s5 (by omega) h6
    obtain ⟨rfl, s7, a7, -⟩ := updatePurchases_site hq s6 h7
    rw [← hids]
    exact reporting_of hstep hq s3 h4 ⟨a3.clock.1.trans e2.1, a3.clock.2.trans e2.2⟩ ((a5.trans a6).trans a7) rfl
      (fun j ops hj e => by
        match j with
        | 0 => cases e; exact restock_silent _ _ _ _ _
        | 1 => exact absurd rfl hj
        | 2 =>
          cases e
          intro op hop
          exact (List.mem_append.1 hop).elim (purchase_silent _ _ _ _ _ _ op) (trigger_silent (by simp) _ _ op)
        | j + 3 => simp at e)

/-! ### Runs -/

theorem everyFrom_snoc {α : Type} (n k : Nat) (l : List α) (x : α) :
    everyFrom n k (l ++ [x]) = everyFrom n k l ++ if n ∣ k + l.length + 1 then [x] else [] := by
  induction l generalizing k with
  | nil => simp [everyFrom]
  | cons y l ih =>
    rw [List.cons_append, everyFrom, everyFrom, ih, List.length_cons]
    rw [show k + 1 + l.length + 1 = k + (l.length + 1) + 1 by omega]
    split
    · rfl
    · rfl

/-- every `n`-th of the first `m` of a sequence -/
theorem every_range {α : Type} {n : Nat} (hn : 0 < n) (f : Nat → α) (m : Nat) :
    every n ((List.range m).map f) = (List.range (m / n)).map fun r => f ((r + 1) * n - 1) := by
  induction m with
  | zero => simp [every, everyFrom]
  | succ m ih =>
    rw [every] at ih ⊢
    rw [List.range_succ, List.map_append, List.map_singleton, everyFrom_snoc, ih, Nat.zero_add, List.length_map,
      List.length_range, Nat.succ_div]
    split
    · rename_i hd
      rw [List.range_succ, List.map_append, List.map_singleton]
      congr 2
      have h1 : (m + 1) / n = m / n + 1 := by rw [Nat.succ_div, if_pos hd]
      rw [← h1, Nat.div_mul_cancel hd]
      rfl
    · rw [List.append_nil, Nat.add_zero]

theorem execDates_schedule {start step : Int} {total m : Nat} (hi : i < m)
    (h : evs.map (fun e => (e.1, e.2.story)) = schedule start step total m) :
    execDates i evs = (List.range total).map fun (k : Nat) => start + (k : Int) * step := by
  have e : execDates i evs = (evs.map (fun e => (e.1, e.2.story))).filterMap
      fun x => if x.2 = some i then some x.1 else none := by
    rw [execDates, List.filterMap_map]
    rfl
  have one : ∀ d : Int, ((List.range m).map fun j => (d, some j)).filterMap
      (fun x : Int × Option Nat => if x.2 = some i then some x.1 else none) = [d] := by
    intro d
    rw [List.filterMap_map]
    clear h e
    induction m with
    | zero => omega
    | succ m ih =>
      rw [List.range_succ, List.filterMap_append]
      rcases Nat.lt_or_ge i m with hlt | hge
      · rw [ih hlt]
        simp [Nat.ne_of_gt hlt]
      · have : m = i := by omega
        subst this
        have hnil : (List.range m).filterMap ((fun x : Int × Option Nat => if x.2 = some m then some x.1 else none) ∘
            fun j => (d, some j)) = [] := by
          rw [List.filterMap_eq_nil_iff]
          intro j hj
          have := List.mem_range.1 hj
          simp [Nat.ne_of_lt this]
        rw [hnil]
        simp
  rw [e, h, schedule, List.filterMap_flatMap]
  rw [show ((List.range total).map fun (k : Nat) => start + (k : Int) * step) =
    (List.range total).flatMap fun (k : Nat) => [start + (k : Int) * step] from (List.flatMap_pure_eq_map _ _).symm]
  congr 1
  funext k
  rw [List.filterMap_append, one]
  simp

/-- **C124** In any run of a circus whose points of sale report: the log of the reports tells of all of them, in their
order, at the date of each `n`-th execution, and of nothing else. -/
theorem C124_reports (hr : Reporting env chains w i n ids day) (hstep : 0 ≤ w.clock.step)
    (h : Played env chains w evs w') : whoWhen "report" "POS_ID" "TIME" (emitted evs) =
      (every n (execDates i evs)).flatMap fun d => ids.map fun id => (.scalar id, day d) := by
  obtain ⟨items, hc⟩ := hr.report
  obtain ⟨k, rfl, hb, hw⟩ := hr.beats
  refine C124_log (cols := ["TIME", "POS_ID", "STOCK_LEVEL"]) (fun ops e => ?_) hr.others (by simp) hr.field hstep hb hw h
  rw [hc] at e
  cases e
  exact report_journals _ _

/-- **C124** Each step of the example, built and then run for some duration: with `n` the number of steps of the clock
that make a day and `total` that of the run, the log of reports tells of all the points of sale at the last step of each
`n` steps, hence `total / n` times, and of nothing else. This is what is in the files. -/
theorem C124_run (hsem : env.sem = AnyGen.sem env.R) {p : Params} {g : Parts (AnyGen σ)} {b a : SeqGen}
    (hb : g.posIds = .seq b) (ha : g.items = .seq a) {time : Int → Cell} {name : String} {seed start step : Int}
    (hstep : 0 < step) (hnew : Circus.new env.R name seed start step = .ok c) {st : Step}
    (hbuild : st.build env p g day time c = .ok chains c') {text : Cell → Text} {folder : Path} (so : SetOrder String)
    (fuel d : Nat) (duration : Int) (delete : Bool) {fs : FS} {s' : Sys σ (AnyGen σ)} (ht : Tree fs)
    (hd : DepthBelow fs folder d) (hfuel : d < fuel)
    (h : Sys.run env text folder so fuel chains duration delete ⟨c', fs⟩ = .ok () s') :
    ∃ (n total : Nat) (events : List (Int × Event)) (fs0 : FS), c'.world.clock.nIterations oneDay = .ok n ∧
      (0 ≤ duration → c'.world.clock.nIterations duration = .ok total) ∧
      Played env chains c'.world events s'.circus.world ∧ LogsWritten text folder fs0 (emitted events) s'.fs ∧
      whoWhen "report" "POS_ID" "TIME" (emitted events) =
        (reportDates start step n total).flatMap fun d => (idsFrom b p.nPos).map fun id => (.scalar id, day d) := by
  obtain ⟨e1, e2, i, n, hn, hr⟩ := C124_built hsem hb ha hstep hnew hbuild
  obtain ⟨items, hc⟩ := hr.report
  have hk : ∀ ops ∈ chains, ∀ op ∈ ops, KeepsDate op := by
    intro ops ho op hop
    obtain ⟨j, hj⟩ := List.mem_iff_getElem?.1 ho
    refine C59_builtIn_keepsDate (env := env) (F := (· ≠ i)) (Z := (· ≠ i)) op ?_
    by_cases e : j = i
    · subst e
      rw [hc] at hj
      cases hj
      exact journals_builtIn (.inl (report_journals (day := day) j items)) op hop
    · exact (hr.others j ops e hj op hop).builtIn
  obtain ⟨total, events, fs0, h0, h1, h2, -, -, h3⟩ := C60_logs so fuel d duration delete ⟨c', fs⟩ s' hk ht hd hfuel h
  have h0 : c'.world.clock.nIterations duration = .ok total := h0
  have hpos : 0 < n := by
    obtain ⟨k, rfl, -⟩ := hr.beats
    omega
  refine ⟨n, total.toNat, events, fs0, hn, fun hdur => ?_, h1, h3, ?_⟩
  · obtain ⟨m, k1, k2, -⟩ := C09_n_iterations c'.world.clock duration (by rw [e2]; exact hstep) hdur
    rw [h0] at k1 ⊢
    cases k1
    rw [Int.toNat_of_nonneg k2]
  · have h2 : events.map (fun e => (e.1, e.2.story)) =
        schedule c'.world.clock.current c'.world.clock.step total.toNat chains.length := h2
    rw [C124_reports hr (by rw [e2]; exact hstep.le) h1, execDates_schedule (List.getElem?_eq_some_iff.1 hc).1 h2,
      every_range hpos, e1, e2]
    rfl

/-- **C124** If a step of the clock divides a day, then the reports are those of the last step of each day after the
start. -/
theorem C124_daily {start step : Int} {n : Nat} {cl : Clock σ (AnyGen σ)} (hcl : cl.step = step) (hstep : 0 < step)
    (hn : cl.nIterations oneDay = .ok n) (hd : step ∣ oneDay) (total : Nat) :
    reportDates start step n total = (List.range (total / n)).map fun (r : Nat) => start + (r + 1) * oneDay - step := by
  obtain ⟨m, k1, k2, k3, k4⟩ := C09_n_iterations cl oneDay (by rw [hcl]; exact hstep) (by decide)
  rw [hn] at k1
  cases k1
  rw [hcl] at k3 k4
  obtain ⟨x, hx⟩ := hd
  have h1 : (n : Int) ≤ x := k4 x (by rw [hx, Int.mul_comm])
  have h2 : x ≤ n := by
    rw [hx, Int.mul_comm] at k3
    exact Int.le_of_mul_le_mul_right k3 hstep
  have hxn : x = n := le_antisymm h2 h1
  rw [hxn] at hx
  have hn0 : 0 < n := by
    rcases Nat.eq_zero_or_pos n with rfl | h
    · rw [Nat.cast_zero, Int.mul_zero] at hx
      exact absurd hx (by decide)
    · exact h
  rw [reportDates]
  apply List.map_congr_left
  intro r _
  have : 1 ≤ (r + 1) * n := Nat.one_le_iff_ne_zero.2 (by positivity)
  rw [Nat.cast_sub this, hx]
  push_cast
  ring

/-! ### Non-vacuity -/

def exReportsBuilt : Option (List (List (Op (World Nat (AnyGen Nat)))) × Circus Nat (AnyGen Nat)) :=
  match Circus.new Rng.counter "shop" 1234 0 (8 * 3600 * nsPerSec) with
  | .ok c => match Step.build Trumania.exEnv exParams exParts exFmt exFmt .five c with
    | .ok chains c' => some (chains, c')
    | .error _ _ => none
  | .error _ => none

/-- with steps of 8 hours, both points of sale report in the steps 3 and 6 -/
theorem exReports : (exReportsBuilt.bind fun x => (Snd.play exEnv x.1 ((List.replicate 7 oneStep).flatten) x.2.world).map
    fun r => (whoWhen "report" "POS_ID" "TIME" (emitted r.1), execDates 1 r.1)) =
    some ([(.str "POS_000", exFmt (16 * 3600 * nsPerSec)), (.str "POS_001", exFmt (16 * 3600 * nsPerSec)),
      (.str "POS_000", exFmt (40 * 3600 * nsPerSec)), (.str "POS_001", exFmt (40 * 3600 * nsPerSec))],
      (List.range 7).map fun (k : Nat) => (k : Int) * (8 * 3600 * nsPerSec)) := by
  decide +kernel

/-- and the hypotheses of C124 hold of this run -/
example : ∃ c c' chains evs w' i, Circus.new exEnv.R "shop" 1234 0 (8 * 3600 * nsPerSec) = .ok c ∧
    Step.build exEnv exParams exParts exFmt exFmt .five c = .ok chains c' ∧
    Reporting exEnv chains c'.world i 3 (idsFrom ⟨0, "POS_", 3⟩ 2) exFmt ∧ Played exEnv chains c'.world evs w' ∧
    (whoWhen "report" "POS_ID" "TIME" (emitted evs)).length = 4 := by
  obtain ⟨⟨chains, c'⟩, h1, h2⟩ := Option.bind_eq_some_iff.1 exReports
  obtain ⟨⟨evs, w'⟩, h3, h4⟩ := Option.map_eq_some_iff.1 h2
  rw [exReportsBuilt] at h1
  split at h1
  · rename_i c hc
    split at h1
    · rename_i hb
      cases h1
      obtain ⟨-, k2, i, n, k3, k4⟩ := C124_built (env := exEnv) rfl rfl rfl (by decide) hc hb
      have hn : n = 3 := by
        have hv : (⟨0, 8 * 3600 * nsPerSec, 0, []⟩ : Clock Nat (AnyGen Nat)).nIterations oneDay = .ok 3 := by
          decide +kernel
        rw [Clock.nIterations] at k3 hv
        rw [k2] at k3
        have := Except.ok.inj (k3.symm.trans hv)
        exact_mod_cast this
      subst hn
      refine ⟨c, _, chains, evs, w', i, hc, hb, k4, Snd.play_played h3, ?_⟩
      rw [show whoWhen "report" "POS_ID" "TIME" (emitted evs) = _ from (Prod.mk.inj h4).1]
      rfl
    · cases h1
  · cases h1

end Shop
end Trumania
