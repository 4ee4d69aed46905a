import Verif.Proofs.ShopBuilds
import Verif.Props.MusicBuilds

/-!
# C140: the steps of examples/tutorial/example2.py never raise, from the creation of the circus to the end of the run
-/

namespace Trumania
namespace Builds
open Spec World Circus Cdr
open Shop (Site Step)
variable {σ : Type} {env : Env σ (AnyGen σ)} {w w' : World σ (AnyGen σ)} {c c' : Circus σ (AnyGen σ)}
  {day time : Int → Cell}

theorem pos_ends (hsem : env.sem = AnyGen.sem env.R) {p : Shop.Params} {g : Shop.Parts (AnyGen σ)} {b u : SeqGen}
    (hb : g.posIds = .seq b) (hg : Staffed env g u) {name : String} {seed start step : Int}
    (hnew : Circus.new env.R name seed start step = .ok c) : ∃ q c1, Shop.createPos env p g c = .ok () c1 ∧
      q.relationships = [("items", 0)] ∧ q.ids.length = q.size ∧ Site env [[]] [q] [] [("point_of_sale", 0)] [] c1 ∧
      c1.world.gens.length = 4 ∧ c1.world.clock.step = step := by
  obtain ⟨s0, l0, -, -, d0⟩ := Shop.new_site (env := env) hnew
  obtain ⟨x, c1, h1⟩ := ends_createPos (p := p) hsem hb hg s0
  obtain ⟨ids, a1, a2, a3, hids, s1, k1, -⟩ := Shop.createPos_site s0 l0 h1
  refine ⟨_, c1, h1, rfl, ?_, s1, by rw [k1.len, l0], k1.clock.2.trans d0⟩
  rcases hids with ⟨e, rfl⟩ | ⟨cells, y, k1, k2⟩
  · exact e.symm
  · rw [hb] at k1
    show ids.length = p.nPos
    rw [(Snd.seq_drawn hsem k1 k2).1]
    exact Music.length_idsFrom _ _

theorem stocked_ends (hsem : env.sem = AnyGen.sem env.R) {p : Shop.Params} {g : Shop.Parts (AnyGen σ)} {b a u : SeqGen}
    (hb : g.posIds = .seq b) (ha : g.items = .seq a) (hg : Staffed env g u) {name : String} {seed start step : Int}
    (hnew : Circus.new env.R name seed start step = .ok c) : ∃ q L c1 c2, Shop.createPos env p g c = .ok () c1 ∧
      Shop.addItems env p g c1 = .ok () c2 ∧ q.relationships = [("items", 0)] ∧ q.ids.length = q.size ∧
      Site env [L] [q] [] [("point_of_sale", 0)] [("items_gen", 4)] c2 ∧ c2.world.gens.length = 5 ∧
      c2.world.clock.step = step := by
  obtain ⟨q, c1, h1, hq, hlen, s1, l1, d1⟩ := pos_ends (p := p) hsem hb hg hnew
  obtain ⟨x, c2, h2⟩ := ends_addItems (p := p) hsem hq s1 ha
  obtain ⟨arrays, -, -, s2, l2, -, -, -, -, d2⟩ := Shop.addItems_site hsem hq s1 l1 ha h2
  exact ⟨q, _, c1, c2, h1, h2, hq, hlen, s2, l2, d2.trans d1⟩

/-- the customers and their purchases, once the points of sale, their restocks and their reports are there -/
theorem sold_ends (hsem : env.sem = AnyGen.sem env.R) {p : Shop.Params} {g : Shop.Parts (AnyGen σ)} {u : SeqGen}
    (hg : Staffed env g u) (ht : g.Timers env) {q : Population} {L : List (Val × Val)}
    (hq : q.relationships = [("items", 0)])
    (hs : Site env [L] [q] [("restock", "POS_ID"), ("report", "POS_ID")] [("point_of_sale", 0)] [("items_gen", 4)] c)
    (hl : 5 ≤ c.world.gens.length) : ∃ q1 c1 ops c2, Shop.createCustomers env p g c = .ok () c1 ∧
      Shop.addPurchases env g c1 = .ok ops c2 ∧ Site env [L, []] [q, q1]
        [("restock", "POS_ID"), ("report", "POS_ID"), ("purchase", "CUST_ID")]
        [("point_of_sale", 0), ("customer", 1)] [("items_gen", 4)] c2 := by
  obtain ⟨x, c1, h1⟩ := ends_createCustomers (p := p) hsem hg hs rfl
  obtain ⟨ids, a1, a2, s1, k1, -⟩ := Shop.createCustomers_site hs hl h1
  obtain ⟨q', hq', hlen⟩ := createCustomers_sized hsem hg.customers hs rfl h1
  rw [s1.stage.pops] at hq'
  cases hq'
  obtain ⟨ops, c2, h2⟩ := ends_addPurchases hg (fun seed => (ht seed).2) hq rfl hlen (by simp) s1
  have n1 := k1.len
  obtain ⟨-, s2, -⟩ := Shop.addPurchases_site hq rfl s1 (by omega) h2
  exact ⟨_, c1, ops, c2, h1, h2, s2⟩

/-- **C140** Each step is always built, with any number of points of sale, of customers and of items. -/
theorem C140_shop_build (hsem : env.sem = AnyGen.sem env.R) {p : Shop.Params} {g : Shop.Parts (AnyGen σ)} {b a u : SeqGen}
    (hb : g.posIds = .seq b) (ha : g.items = .seq a) (hg : Staffed env g u) (ht : g.Timers env) (st : Step)
    {name : String} {seed start step : Int} (hstep : 0 < step) (hnew : Circus.new env.R name seed start step = .ok c) :
    ∃ chains c', st.build env p g day time c = .ok chains c' := by
  cases st with
  | one =>
    obtain ⟨q, c1, h1, hq, hlen, s1, -, d1⟩ := pos_ends (p := p) hsem hb hg hnew
    obtain ⟨ops, c2, h2⟩ := ends_addReport (day := day) hq hlen s1 (by simp) (by rw [d1]; exact hstep)
    exact ⟨_, _, by
      change Shop.step1 env p g day c = _
      rw [Shop.step1, Act.bind_ok h1, Act.bind_ok h2]
      rfl⟩
  | two =>
    obtain ⟨q, L, c1, c2, h1, h2, hq, hlen, s2, -, d2⟩ := stocked_ends (p := p) hsem hb ha hg hnew
    obtain ⟨ops, c3, h3⟩ := ends_addReport (day := day) hq hlen s2 (by simp) (by rw [d2]; exact hstep)
    exact ⟨_, _, by
      change Shop.step2 env p g day c = _
      rw [Shop.step2, Act.bind_ok h1, Act.bind_ok h2, Act.bind_ok h3]
      rfl⟩
  | three =>
    obtain ⟨q, L, c1, c2, h1, h2, hq, hlen, s2, l2, d2⟩ := stocked_ends (p := p) hsem hb ha hg hnew
    obtain ⟨ops3, c3, h3⟩ := ends_addPeriodic (day := day) (fun seed => (ht seed).1) hq hlen s2
    obtain ⟨-, s3, k3, -⟩ := Shop.addPeriodic_site hq s2 l2 h3
    obtain ⟨ops4, c4, h4⟩ := ends_addReport (day := day) hq hlen s3 (by simp) (by rw [k3.clock.2, d2]; exact hstep)
    exact ⟨_, _, by
      change Shop.step3 env p g day c = _
      rw [Shop.step3, Act.bind_ok h1, Act.bind_ok h2, Act.bind_ok h3, Act.bind_ok h4]
      rfl⟩
  | threeBis =>
    obtain ⟨q, L, c1, c2, h1, h2, hq, hlen, s2, l2, d2⟩ := stocked_ends (p := p) hsem hb ha hg hnew
    obtain ⟨ops3, c3, h3⟩ := ends_addCombined (day := day) (fun seed => (ht seed).1) hq hlen s2
    obtain ⟨-, s3, k3, -⟩ := Shop.addCombined_site hq s2 l2 h3
    obtain ⟨ops4, c4, h4⟩ := ends_addReport (day := day) hq hlen s3 (by simp) (by rw [k3.clock.2, d2]; exact hstep)
    exact ⟨_, _, by
      change Shop.step3bis env p g day c = _
      rw [Shop.step3bis, Act.bind_ok h1, Act.bind_ok h2, Act.bind_ok h3, Act.bind_ok h4]
      rfl⟩
  | four =>
    obtain ⟨q, L, c1, c2, h1, h2, hq, hlen, s2, l2, d2⟩ := stocked_ends (p := p) hsem hb ha hg hnew
    obtain ⟨ops3, c3, h3⟩ := ends_addPeriodic (day := day) (fun seed => (ht seed).1) hq hlen s2
    obtain ⟨-, s3, k3, -⟩ := Shop.addPeriodic_site hq s2 l2 h3
    obtain ⟨ops4, c4, h4⟩ := ends_addReport (day := day) hq hlen s3 (by simp) (by rw [k3.clock.2, d2]; exact hstep)
    obtain ⟨-, s4, k4, -⟩ := Shop.addReport_site hq s3 h4
    have n3 := k3.len
    have n4 := k4.len
    obtain ⟨q1, c5, ops6, c6, h5, h6, -⟩ := sold_ends (p := p) hsem hg ht hq s4 (by omega)
    exact ⟨_, _, by
      change Shop.step4 env p g day c = _
      rw [Shop.step4, Act.bind_ok h1, Act.bind_ok h2, Act.bind_ok h3, Act.bind_ok h4, Act.bind_ok h5, Act.bind_ok h6]
      rfl⟩
  | five =>
    obtain ⟨q, L, c1, c2, h1, h2, hq, hlen, s2, l2, d2⟩ := stocked_ends (p := p) hsem hb ha hg hnew
    obtain ⟨ops3, c3, h3⟩ := ends_addInactive (g := g) (time := time) hq hlen s2
    obtain ⟨-, s3, k3, -⟩ := Shop.addInactive_site hq s2 l2 h3
    obtain ⟨ops4, c4, h4⟩ := ends_addReport (day := day) hq hlen s3 (by simp) (by rw [k3.clock.2, d2]; exact hstep)
    obtain ⟨-, s4, k4, -⟩ := Shop.addReport_site hq s3 h4
    have n3 := k3.len
    have n4 := k4.len
    obtain ⟨q1, c5, ops6, c6, h5, h6, s6⟩ := sold_ends (p := p) hsem hg ht hq s4 (by omega)
    obtain ⟨ops7, c7, h7⟩ := ends_updatePurchases (g := g) (ops := ops6) hq (by simp) (by simp) s6
    exact ⟨_, _, by
      change Shop.step5 env p g day time c = _
      rw [Shop.step5, Act.bind_ok h1, Act.bind_ok h2, Act.bind_ok h3, Act.bind_ok h4, Act.bind_ok h5, Act.bind_ok h6,
        Act.bind_ok h7]
      rfl⟩

/-- **C140** A step never raises, from the creation of the circus to the end of its run, if in steps 4 and 5 there is a
point of sale. -/
theorem C140_shop (hsem : env.sem = AnyGen.sem env.R) {p : Shop.Params} {g : Shop.Parts (AnyGen σ)} {b a u : SeqGen}
    {vols : List Val} {f : Rat → Rat} (hu : g.Usual b a vols f) (hg : Staffed env g u) (hv : g.Answer env) {st : Step}
    (hpos : st = .four ∨ st = .five → 0 < p.nPos) (day time : Int → Cell) (name : String) (seed start : Int) {step : Int}
    (hstep : nsPerSec ≤ step) (text : Cell → Text) {folder : Path} (so : SetOrder String) (fuel d : Nat) (duration : Int)
    (delete : Bool) {fs : FS} (htree : Tree fs) (hroot : At fs [] .dir) (hne : folder ≠ [])
    (hc : ∀ q t, Below q folder → At fs q (.file t) → q = folder) (hdepth : DepthBelow fs folder d) (hfuel : d < fuel)
    (hdel : delete = true ∨ Absent fs folder) :
    ∃ c chains c' s', Circus.new env.R name seed start step = .ok c ∧ st.build env p g day time c = .ok chains c' ∧
      Sys.run env text folder so fuel chains duration delete ⟨c', fs⟩ = .ok () s' := by
  obtain ⟨c, hnew⟩ := new_ends_ok env name seed start step
  obtain ⟨chains, c', hbuild⟩ := C140_shop_build (p := p) (day := day) (time := time) hsem hu.posIds hu.items hg hv.timers st
    (lt_of_lt_of_le (by decide) hstep) hnew
  obtain ⟨s', h⟩ := Shop.C132_shop_runs hsem hu hv hstep hnew hpos hbuild (text := text) so fuel d duration
    delete htree hroot hne hc hdepth hfuel hdel
  exact ⟨c, chains, c', s', hnew, hbuild, h⟩

theorem report_raises {ops : List (Op (World σ (AnyGen σ)))} (h0 : c.world.clock.step = 0) :
    Shop.addReport env day c ≠ .ok ops c' := by
  intro h
  rw [Shop.addReport] at h
  obtain ⟨pos, c1, h1, k⟩ := Act.bind_eq_ok.1 h
  obtain ⟨rfl, -⟩ := Shop.popNamed_ok h1
  rw [Act.bind_ok (FS.get_ok _)] at k
  obtain ⟨n, c2, h2, -⟩ := Act.bind_eq_ok.1 k
  obtain ⟨hn, -⟩ := Act.ofPy_eq_ok.1 h2
  rw [Clock.nIterations, h0, if_pos (by simp [totalSeconds])] at hn
  cases hn

/-- **C140** The clock must have a step: with a step of zero nothing is built, as the number of steps of a day is not
defined. -/
theorem C140_no_step_raises (hsem : env.sem = AnyGen.sem env.R) {p : Shop.Params} {g : Shop.Parts (AnyGen σ)} {b a : SeqGen}
    (hb : g.posIds = .seq b) (ha : g.items = .seq a) {name : String} {seed start : Int}
    (hnew : Circus.new env.R name seed start 0 = .ok c) (st : Step) (chains : List (List (Op (World σ (AnyGen σ))))) :
    st.build env p g day time c ≠ .ok chains c' := by
  intro h
  cases st with
  | one =>
    change Shop.step1 env p g day c = _ at h
    rw [Shop.step1] at h
    obtain ⟨u1, c1, h1, h⟩ := Act.bind_eq_ok.1 h
    obtain ⟨ops, c2, h2, -⟩ := Act.bind_eq_ok.1 h
    obtain ⟨s0, l0, -, -, d0⟩ := Shop.new_site (env := env) hnew
    obtain ⟨-, -, -, -, -, -, k1, -⟩ := Shop.createPos_site s0 l0 h1
    exact report_raises (k1.clock.2.trans d0) h2
  | two =>
    change Shop.step2 env p g day c = _ at h
    rw [Shop.step2] at h
    obtain ⟨u1, c1, h1, h⟩ := Act.bind_eq_ok.1 h
    obtain ⟨u2, c2, h2, h⟩ := Act.bind_eq_ok.1 h
    obtain ⟨ops, c3, h3, -⟩ := Act.bind_eq_ok.1 h
    obtain ⟨q, arrays, hq, -, -, -, s2, l2, -, -, -, -, d2⟩ := Shop.stocked_site hsem hb ha hnew h1 h2
    exact report_raises d2 h3
  | three =>
    change Shop.step3 env p g day c = _ at h
    rw [Shop.step3] at h
    obtain ⟨u1, c1, h1, h⟩ := Act.bind_eq_ok.1 h
    obtain ⟨u2, c2, h2, h⟩ := Act.bind_eq_ok.1 h
    obtain ⟨ops3, c3, h3, h⟩ := Act.bind_eq_ok.1 h
    obtain ⟨ops, c4, h4, -⟩ := Act.bind_eq_ok.1 h
    obtain ⟨q, arrays, hq, -, -, -, s2, l2, -, -, -, -, d2⟩ := Shop.stocked_site hsem hb ha hnew h1 h2
    obtain ⟨-, -, k3, -⟩ := Shop.addPeriodic_site hq s2 l2 h3
    exact report_raises (k3.clock.2.trans d2) h4
  | threeBis =>
    change Shop.step3bis env p g day c = _ at h
    rw [Shop.step3bis] at h
    obtain ⟨u1, c1, h1, h⟩ := Act.bind_eq_ok.1 h
    obtain ⟨u2, c2, h2, h⟩ := Act.bind_eq_ok.1 h
    obtain ⟨ops3, c3, h3, h⟩ := Act.bind_eq_ok.1 h
    obtain ⟨ops, c4, h4, -⟩ := Act.bind_eq_ok.1 h
    obtain ⟨q, arrays, hq, -, -, -, s2, l2, -, -, -, -, d2⟩ := Shop.stocked_site hsem hb ha hnew h1 h2
    obtain ⟨-, -, k3, -⟩ := Shop.addCombined_site hq s2 l2 h3
    exact report_raises (k3.clock.2.trans d2) h4
  | four =>
    change Shop.step4 env p g day c = _ at h
    rw [Shop.step4] at h
    obtain ⟨u1, c1, h1, h⟩ := Act.bind_eq_ok.1 h
    obtain ⟨u2, c2, h2, h⟩ := Act.bind_eq_ok.1 h
    obtain ⟨ops3, c3, h3, h⟩ := Act.bind_eq_ok.1 h
    obtain ⟨ops, c4, h4, -⟩ := Act.bind_eq_ok.1 h
    obtain ⟨q, arrays, hq, -, -, -, s2, l2, -, -, -, -, d2⟩ := Shop.stocked_site hsem hb ha hnew h1 h2
    obtain ⟨-, -, k3, -⟩ := Shop.addPeriodic_site hq s2 l2 h3
    exact report_raises (k3.clock.2.trans d2) h4
  | five =>
    change Shop.step5 env p g day time c = _ at h
    rw [Shop.step5] at h
    obtain ⟨u1, c1, h1, h⟩ := Act.bind_eq_ok.1 h
    obtain ⟨u2, c2, h2, h⟩ := Act.bind_eq_ok.1 h
    obtain ⟨ops3, c3, h3, h⟩ := Act.bind_eq_ok.1 h
    obtain ⟨ops, c4, h4, -⟩ := Act.bind_eq_ok.1 h
    obtain ⟨q, arrays, hq, -, -, -, s2, l2, -, -, -, -, d2⟩ := Shop.stocked_site hsem hb ha hnew h1 h2
    obtain ⟨-, -, k3, -⟩ := Shop.addInactive_site hq s2 l2 h3
    exact report_raises (k3.clock.2.trans d2) h4

/-! ### Non-vacuity -/

theorem exStaffed : Staffed exEnv { Shop.exParts with
    purchaseActivity := fun seed => .choice [.num 12, .num 40] none (Rng.counter.seed seed) } ⟨0, "CUST_", 3⟩ :=
  ⟨fun _ => given (by simp) _, fun _ => given (by simp) _, fun _ => given (by simp) _, rfl, fun _ => given (by simp) _,
    fun _ => given (by simp) _, fun _ => nums_of_list (gives_choice (env := exEnv) rfl (by simp)) (by simp)⟩

/-- as many points of sale, customers and items as one wants, any seed and any duration -/
example (st : Step) (n m k : Nat) (seed duration : Int) : ∃ c chains c' s',
    Circus.new exEnv.R "shop" seed 0 (8 * 3600 * nsPerSec) = .ok c ∧
      st.build exEnv ⟨n + 1, m, k⟩ { Shop.exParts with
          purchaseActivity := fun seed => .choice [.num 12, .num 40] none (Rng.counter.seed seed) }
        Shop.exFmt Shop.exFmt c = .ok chains c' ∧
      Sys.run exEnv exFmt ["logs"] (SetOrder.dedup String) 1 chains duration false ⟨c', [([], .dir)]⟩ = .ok () s' :=
  C140_shop (env := exEnv) rfl (b := ⟨0, "POS_", 3⟩) (a := ⟨0, "ITEM_", 4⟩) (vols := [.num 5, .num 15])
    (f := fun x => if x ≤ 2 then 1 else 0) ⟨rfl, rfl, fun _ => ⟨_, _, rfl⟩, fun _ _ _ => ⟨_, rfl⟩,
      fun _ => ⟨_, _, rfl, fun _ => rfl⟩⟩ exStaffed ⟨Shop.exAnswer.timers, Shop.exAnswer.volumes⟩ (fun _ => Nat.succ_pos n)
    _ _ _ _ _ (by decide) _ _ _ 0 _ _ ⟨by decide +kernel, by simp [At]⟩
    (by simp [At]) (by simp) (by simp [At]) (by simp [DepthBelow, At]) (by omega) (.inr (by simp [Absent, At]))

end Builds
end Trumania
