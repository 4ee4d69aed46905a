import Verif.Proofs.MusicBuilds

/-! Helper lemmas: the functions of examples/tutorial/example2.py that do not raise. -/

namespace Trumania
namespace Builds
open Spec World Circus Cdr
open Shop (Site onWorld_ok popNamed_ok genNamed_ok attachGenerator_ok)
open Music (Later later_addGenerator later_seeded later_createDrawn later_createStory)
variable {σ : Type} {env : Env σ (AnyGen σ)} {w w' : World σ (AnyGen σ)} {c c' : Circus σ (AnyGen σ)}
  {R : List (List (Val × Val))} {P : List Population} {S : List (String × String)} {D G : Dict String Nat}

theorem ends_genNamed {name : String} {i : Nat} (h : c.generators.get name = .ok i) : Ends (Shop.genNamed name) c := by
  rw [Shop.genNamed]
  exact Ends.bind ⟨c, c, rfl⟩ fun c1 c2 e => by
    cases e
    exact (Ends.ofPy h).bind fun _ _ _ => Ends.pure

theorem ends_storyNamed {name : String} (hs : Stage env R P S w) (h : name ∈ S.map Prod.fst) :
    Ends (Snd.storyNamed name) w := by
  rw [Snd.storyNamed]
  refine Ends.bind ⟨w, w, rfl⟩ fun w1 w2 e => ?_
  cases e
  cases hf : w.findStory name with
  | some i => exact Ends.pure
  | none =>
    rw [findStory, List.findIdx?_eq_none_iff] at hf
    rw [← hs.stories, List.map_map] at h
    obtain ⟨s, hm, e⟩ := List.mem_map.1 h
    exact absurd e (of_decide_eq_false (hf s hm))

/-- a story whose name is new -/
theorem ends_newStory {cfg : StoryConfig} {q : Population} (hs : Stage env R P S c.world)
    (hq : P[cfg.population]? = some q) (hlen : q.ids.length = q.size) (hname : cfg.name ∉ S.map Prod.fst)
    (hst : cfg.states = none) (hact : GivesNums env c.world cfg.activity) (htim : GivesTimers env c.world cfg.timerGen) :
    Ends (Circus.createStory env cfg) c := by
  refine Ends.onWorld (ends_createStory (p := q) (by rw [hs.pops]; exact hq) (hs.wf q (List.mem_of_getElem? hq)).ids hlen ?_
    hst hact htim)
  rw [findStory, List.findIdx?_eq_none_iff]
  intro s hm
  refine decide_eq_false fun e => hname ?_
  rw [← hs.stories, List.map_map]
  exact List.mem_map.2 ⟨s, hm, e⟩

theorem createRelationship_sized {pop i : Nat} {name : String} (hs : Sized w pop)
    (h : createRelationship env pop name none w = .ok i w') : Sized w' pop := by
  obtain ⟨p, x, s, -, hp, rfl, rfl⟩ := createRelationship_eq_ok h
  obtain ⟨q, hq, hl⟩ := hs
  rw [hp] at hq
  cases hq
  exact ⟨_, List.getElem?_set_self (List.getElem?_eq_some_iff.1 hp).1, hl⟩

/-- an attribute whose values are drawn from a new generator -/
theorem ends_drawnFrom {pop : Nat} {name : String} {mk : Int → AnyGen σ} {V : Cell → Prop} {α : Type}
    {next : Act (World σ (AnyGen σ)) α} (hs : Sized w pop) (hmk : ∀ seed, AlwaysGives env (mk seed) V)
    (h : ∀ w', Sized w' pop → Ends next w') :
    Ends (do let r ← Snd.seeded env mk
             Snd.createDrawn env pop name r
             next) w := by
  obtain ⟨q, hq, hl⟩ := hs
  refine (ends_seeded _ _).bind fun r v1 k1 => ?_
  obtain ⟨⟨s1, b1⟩, -, -⟩ := seeded_began k1
  have hq1 : v1.pops[pop]? = some q := by rw [seeded_pops k1]; exact hq
  refine (ends_createDrawn hq1 hl b1 (hmk s1)).bind fun x1 v2 k2 => ?_
  exact h v2 (createDrawn_sized ⟨q, hq1, hl⟩ k2)

/-- what the functions of the example need from its generators -/
structure Staffed (env : Env σ (AnyGen σ)) (g : Shop.Parts (AnyGen σ)) (u : SeqGen) : Prop where
  names : ∀ seed, AlwaysGives env (g.posNames seed) fun _ => True
  cities : ∀ seed, AlwaysGives env (g.posCities seed) fun _ => True
  companies : ∀ seed, AlwaysGives env (g.posCompanies seed) fun _ => True
  customers : g.customerIds = .seq u
  first : ∀ seed, AlwaysGives env (g.firstNames seed) fun _ => True
  last : ∀ seed, AlwaysGives env (g.lastNames seed) fun _ => True
  activity : ∀ seed, AlwaysGives env (g.purchaseActivity seed) fun c => ∃ q, c = .num q

theorem ends_createPos (hsem : env.sem = AnyGen.sem env.R) {p : Shop.Params} {g : Shop.Parts (AnyGen σ)} {b u : SeqGen}
    (hb : g.posIds = .seq b) (hg : Staffed env g u) (hs : Site env [] [] [] [] [] c) : Ends (Shop.createPos env p g) c := by
  rw [Shop.createPos]
  refine (Ends.onWorld (ends_addGenerator _ _)).bind fun r1 c1 h1 => ?_
  obtain ⟨u1, h1', rfl⟩ := onWorld_ok h1
  obtain ⟨a1, rfl, g1⟩ := later_addGenerator (env := env) h1'
  have hgen : u1.gens[c.world.gens.length]? = some (.seq b) := by
    rw [g1, List.getElem?_append_right (le_refl _), Nat.sub_self, hb]
    rfl
  have hnone : ({ c with world := u1 } : Circus σ (AnyGen σ)).populations.get? "point_of_sale" = none := by
    show c.populations.get? _ = none
    rw [hs.pops]
    rfl
  refine (ends_createPopulation (c := { c with world := u1 }) hsem hnone hgen).bind fun pop c2 h2 => ?_
  have hz := createPopulation_sized (c := { c with world := u1 }) hsem hnone hgen h2
  refine Ends.onWorld (ends_drawnFrom hz hg.names fun v2 z2 => ends_drawnFrom z2 hg.cities fun v3 z3 =>
    ends_drawnFrom z3 hg.companies fun v4 z4 => ?_)
  obtain ⟨q, hq, -⟩ := z4
  exact (ends_createRelationship hq).bind fun _ _ _ => Ends.pure

theorem ends_createCustomers (hsem : env.sem = AnyGen.sem env.R) {p : Shop.Params} {g : Shop.Parts (AnyGen σ)} {u : SeqGen}
    (hg : Staffed env g u) (hs : Site env R P S D G c) (hD : D.get? "customer" = none) :
    Ends (Shop.createCustomers env p g) c := by
  rw [Shop.createCustomers]
  refine (Ends.onWorld (ends_addGenerator _ _)).bind fun r1 c1 h1 => ?_
  obtain ⟨u1, h1', rfl⟩ := onWorld_ok h1
  obtain ⟨a1, rfl, g1⟩ := later_addGenerator (env := env) h1'
  have hgen : u1.gens[c.world.gens.length]? = some (.seq u) := by
    rw [g1, List.getElem?_append_right (le_refl _), Nat.sub_self, hg.customers]
    rfl
  have hnone : ({ c with world := u1 } : Circus σ (AnyGen σ)).populations.get? "customer" = none := by
    show c.populations.get? _ = none
    rw [hs.pops]
    exact hD
  refine (ends_createPopulation (c := { c with world := u1 }) hsem hnone hgen).bind fun pop c2 h2 => ?_
  have hz := createPopulation_sized (c := { c with world := u1 }) hsem hnone hgen h2
  refine Ends.onWorld (ends_drawnFrom hz hg.first fun v2 z2 => ends_drawnFrom z2 hg.last fun v3 z3 => ?_)
  obtain ⟨q, hq, -⟩ := z3
  exact (ends_createRelationship hq).bind fun _ _ _ => Ends.pure

/-- the customers are as many as asked -/
theorem createCustomers_sized (hsem : env.sem = AnyGen.sem env.R) {p : Shop.Params} {g : Shop.Parts (AnyGen σ)} {u : SeqGen}
    {x : Unit} (hg : g.customerIds = .seq u) (hs : Site env R P S D G c) (hD : D.get? "customer" = none)
    (h : Shop.createCustomers env p g c = .ok x c') : Sized c'.world P.length := by
  rw [Shop.createCustomers] at h
  obtain ⟨r1, c1, h1, h⟩ := Act.bind_eq_ok.1 h
  obtain ⟨u1, h1', rfl⟩ := onWorld_ok h1
  have s1 := stage_addGenerator hs.stage h1'
  obtain ⟨a1, rfl, g1⟩ := later_addGenerator (env := env) h1'
  have hgen : u1.gens[c.world.gens.length]? = some (.seq u) := by
    rw [g1, List.getElem?_append_right (le_refl _), Nat.sub_self, hg]
    rfl
  have hnone : ({ c with world := u1 } : Circus σ (AnyGen σ)).populations.get? "customer" = none := by
    show c.populations.get? _ = none
    rw [hs.pops]
    exact hD
  obtain ⟨pop, c2, h2, h⟩ := Act.bind_eq_ok.1 h
  have hz := createPopulation_sized (c := { c with world := u1 }) hsem hnone hgen h2
  obtain ⟨-, -, rfl, -⟩ := stage_createPopulation s1 h2
  obtain ⟨u3, hw, rfl⟩ := onWorld_ok h
  clear h
  obtain ⟨r2, v1, k1, h⟩ := Act.bind_eq_ok.1 hw
  have z1 : Sized v1 P.length := by
    obtain ⟨q, hq, hl⟩ := hz
    exact ⟨q, by rw [seeded_pops k1]; exact hq, hl⟩
  obtain ⟨x1, v2, k2, h⟩ := Act.bind_eq_ok.1 h
  have z2 := createDrawn_sized z1 k2
  obtain ⟨r3, v3, k3, h⟩ := Act.bind_eq_ok.1 h
  have z3 : Sized v3 P.length := by
    obtain ⟨q, hq, hl⟩ := z2
    exact ⟨q, by rw [seeded_pops k3]; exact hq, hl⟩
  obtain ⟨x2, v4, k4, h⟩ := Act.bind_eq_ok.1 h
  have z4 := createDrawn_sized z3 k4
  obtain ⟨x3, v5, k5, h⟩ := Act.bind_eq_ok.1 h
  obtain ⟨-, rfl⟩ := Act.pure_eq_ok.1 h
  exact createRelationship_sized z4 k5

theorem ends_addItems (hsem : env.sem = AnyGen.sem env.R) {p : Shop.Params} {g : Shop.Parts (AnyGen σ)} {a : SeqGen}
    {q : Population} (hq : q.relationships = [("items", 0)]) (hs : Site env [[]] [q] [] [("point_of_sale", 0)] [] c)
    (ha : g.items = .seq a) : Ends (Shop.addItems env p g) c := by
  rw [Shop.addItems]
  refine (ends_popNamed (i := 0) (by rw [hs.pops]; rfl)).bind fun i c1 h1 => ?_
  obtain ⟨rfl, e1⟩ := popNamed_ok h1
  rw [hs.pops] at e1
  cases e1
  refine Ends.bind ⟨c1, c1, rfl⟩ fun c2 c3 e => ?_
  cases e
  refine (Ends.onWorld (ends_addGenerator _ _)).bind fun r1 c2 h2 => ?_
  obtain ⟨u1, h2', rfl⟩ := onWorld_ok h2
  have s1 := stage_addGenerator hs.stage h2'
  obtain ⟨a1, rfl, g1⟩ := later_addGenerator (env := env) h2'
  have hgen : u1.gens[c1.world.gens.length]? = some (.seq a) := by
    rw [g1, List.getElem?_append_right (le_refl _), Nat.sub_self, ha]
    rfl
  refine Ends.bind ⟨(), { c1 with world := u1, generators := c1.generators.set "items_gen" c1.world.gens.length }, ?_⟩
    fun x c3 h3 => ?_
  · rw [attachGenerator, Act.bind_ok (FS.get_ok _)]
    rw [if_neg (by
      show ¬ c1.generators.contains _ = true
      rw [hs.gens]
      simp [Dict.contains, Dict.get?])]
    rfl
  have h3 := attachGenerator_ok h3
  subst h3
  refine Ends.onWorld ((ends_getPop (p := q) (by
    show u1.pops[0]? = _
    rw [s1.pops]
    rfl)).bind fun q' v1 k1 => ?_)
  obtain ⟨e, rfl⟩ := getPop_eq_ok.1 k1
  change u1.pops[0]? = _ at e
  rw [s1.pops] at e
  cases e
  refine (ends_itemArrays (a := .seq a) ⟨_, _, rfl, hgen, .refl⟩ (gives_seq hsem a)).bind fun arrays v2 k2 => ?_
  obtain ⟨-, -, -, -, -, j6, -⟩ := Shop.itemArrays_ok hsem hgen s1 k2
  refine (ends_relNamed (p := q) (i := 0) (by rw [j6.pops]; rfl) (by rw [hq]; rfl)).bind fun r2 v3 k3 => ?_
  obtain ⟨rfl, q', e3, e4⟩ := stage_relNamed j6 k3
  cases e3
  rw [hq] at e4
  cases e4
  exact ends_grouped (L := []) j6 rfl

variable {q q1 : Population} {L : List (Val × Val)}

theorem ends_itemsOf (hq : q.relationships = [("items", 0)]) (hs : Stage env (L :: R) (q :: P) S w) :
    Ends (Snd.relNamed 0 "items") w :=
  ends_relNamed (p := q) (i := 0) (by rw [hs.pops]; rfl) (by rw [hq]; rfl)

theorem ends_addReport {day : Int → Cell} (hq : q.relationships = [("items", 0)]) (hlen : q.ids.length = q.size)
    (hs : Site env [L] [q] S [("point_of_sale", 0)] G c) (hS : "report" ∉ S.map Prod.fst) (hstep : 0 < c.world.clock.step) :
    Ends (Shop.addReport env day) c := by
  rw [Shop.addReport]
  refine (ends_popNamed (i := 0) (by rw [hs.pops]; rfl)).bind fun i c1 h1 => ?_
  obtain ⟨rfl, e1⟩ := popNamed_ok h1
  rw [hs.pops] at e1
  cases e1
  refine Ends.bind ⟨c1, c1, rfl⟩ fun c2 c3 e => ?_
  cases e
  have hn : ∃ n, c1.world.clock.nIterations Shop.oneDay = .ok n := by
    rw [Clock.nIterations]
    rw [if_neg]
    · exact ⟨_, rfl⟩
    · have h1 : (0 : Rat) < (c1.world.clock.step : Rat) := by exact_mod_cast hstep
      have h2 : (0 : Rat) < totalSeconds c1.world.clock.step := by
        rw [totalSeconds]
        exact div_pos h1 (by norm_num [nsPerSec])
      exact h2.ne'
  obtain ⟨n, hn⟩ := hn
  refine (Ends.ofPy hn).bind fun n' c2 h2 => ?_
  obtain ⟨-, rfl⟩ := Act.ofPy_eq_ok.1 h2
  refine (ends_newStory (cfg := Shop.reportStory 0 n') hs.stage rfl hlen hS rfl (.const ⟨1, rfl⟩)
    (.inl ⟨_, rfl⟩)).bind fun own c3 h3 => ?_
  obtain ⟨u3, h3', rfl⟩ := onWorld_ok h3
  obtain ⟨rfl, t3⟩ := stage_createStory hs.stage h3'
  exact (Ends.onWorld (ends_relNamed (w := u3) (p := q) (i := 0) (by rw [t3.pops]; rfl) (by rw [hq]; rfl))).bind
    fun _ _ _ => Ends.pure

/-- what the stories of restocks have in common, after the story itself -/
theorem ends_supplied {g : Shop.Parts (AnyGen σ)} {α : Type} {k : GenRef → GenRef → Nat → α}
    (hq : q.relationships = [("items", 0)]) (hs : Site env [L] [q] S [("point_of_sale", 0)] [("items_gen", 4)] c) :
    Ends (do let volumes ← onWorld (Snd.seeded env g.volumes)
             let itemGen ← Shop.genNamed "items_gen"
             let items ← onWorld (Snd.relNamed 0 "items")
             pure (k volumes itemGen items)) c := by
  refine (Ends.onWorld (ends_seeded _ _)).bind fun r2 c2 h2 => ?_
  obtain ⟨u2, h2', rfl⟩ := onWorld_ok h2
  have t2 := stage_seeded hs.stage h2'
  refine (ends_genNamed (c := { c with world := u2 }) (i := 4) (by
    show c.generators.get _ = _
    rw [hs.gens]
    rfl)).bind fun r3 c3 h3 => ?_
  obtain ⟨rfl, -⟩ := genNamed_ok h3
  exact (Ends.onWorld (ends_relNamed (w := u2) (p := q) (i := 0) (by rw [t2.pops]; rfl) (by rw [hq]; rfl))).bind
    fun _ _ _ => Ends.pure

theorem ends_periodicStory {g : Shop.Parts (AnyGen σ)} {α : Type} {k : Nat → GenRef → GenRef → Nat → α}
    (ht : ∀ seed, AlwaysAnswers env (g.restockTimer seed) (fun c => ∃ q, c = .scalar (.num q)) IsAmount)
    (hq : q.relationships = [("items", 0)]) (hlen : q.ids.length = q.size)
    (hs : Site env [L] [q] [] [("point_of_sale", 0)] [("items_gen", 4)] c) :
    Ends (do let timer ← onWorld (Snd.seeded env g.restockTimer)
             let own ← createStory env (Shop.periodicStory 0 timer g.restockActivity)
             let volumes ← onWorld (Snd.seeded env g.volumes)
             let itemGen ← Shop.genNamed "items_gen"
             let items ← onWorld (Snd.relNamed 0 "items")
             pure (k own volumes itemGen items)) c := by
  refine (Ends.onWorld (ends_seeded _ _)).bind fun r2 c2 h2 => ?_
  obtain ⟨u2, h2', rfl⟩ := onWorld_ok h2
  have t2 := stage_seeded hs.stage h2'
  obtain ⟨⟨s1, b1⟩, -, -⟩ := seeded_began h2'
  refine (ends_newStory (c := { c with world := u2 }) (cfg := Shop.periodicStory 0 r2 g.restockActivity) t2 rfl hlen
    (by simp) rfl (.const ⟨_, rfl⟩) (.inr ⟨_, b1, ht _⟩)).bind fun own c3 h3 => ?_
  obtain ⟨u3, h3', rfl⟩ := onWorld_ok h3
  obtain ⟨rfl, t3⟩ := stage_createStory t2 h3'
  exact ends_supplied hq ⟨t3, hs.pops, hs.gens⟩

theorem ends_addPeriodic {g : Shop.Parts (AnyGen σ)} {day : Int → Cell}
    (ht : ∀ seed, AlwaysAnswers env (g.restockTimer seed) (fun c => ∃ q, c = .scalar (.num q)) IsAmount)
    (hq : q.relationships = [("items", 0)]) (hlen : q.ids.length = q.size)
    (hs : Site env [L] [q] [] [("point_of_sale", 0)] [("items_gen", 4)] c) : Ends (Shop.addPeriodic env g day) c := by
  rw [Shop.addPeriodic]
  refine (ends_popNamed (i := 0) (by rw [hs.pops]; rfl)).bind fun i c1 h1 => ?_
  obtain ⟨rfl, e1⟩ := popNamed_ok h1
  rw [hs.pops] at e1
  cases e1
  exact ends_periodicStory (k := fun own volumes itemGen items => Shop.periodicOps env day own 0 items volumes itemGen)
    ht hq hlen hs

theorem ends_addCombined {g : Shop.Parts (AnyGen σ)} {day : Int → Cell}
    (ht : ∀ seed, AlwaysAnswers env (g.restockTimer seed) (fun c => ∃ q, c = .scalar (.num q)) IsAmount)
    (hq : q.relationships = [("items", 0)]) (hlen : q.ids.length = q.size)
    (hs : Site env [L] [q] [] [("point_of_sale", 0)] [("items_gen", 4)] c) : Ends (Shop.addCombined env g day) c := by
  rw [Shop.addCombined]
  refine (ends_popNamed (i := 0) (by rw [hs.pops]; rfl)).bind fun i c1 h1 => ?_
  obtain ⟨rfl, e1⟩ := popNamed_ok h1
  rw [hs.pops] at e1
  cases e1
  exact ends_periodicStory (k := fun own volumes itemGen items => Shop.combinedOps env day own 0 items volumes itemGen)
    ht hq hlen hs

theorem ends_addInactive {g : Shop.Parts (AnyGen σ)} {time : Int → Cell}
    (hq : q.relationships = [("items", 0)]) (hlen : q.ids.length = q.size)
    (hs : Site env [L] [q] [] [("point_of_sale", 0)] [("items_gen", 4)] c) : Ends (Shop.addInactive env g time) c := by
  rw [Shop.addInactive]
  refine (ends_popNamed (i := 0) (by rw [hs.pops]; rfl)).bind fun i c1 h1 => ?_
  obtain ⟨rfl, e1⟩ := popNamed_ok h1
  rw [hs.pops] at e1
  cases e1
  refine (ends_newStory (cfg := Shop.restockStory 0) hs.stage rfl hlen (by simp) rfl (.const ⟨1, rfl⟩)
    (.inl ⟨_, rfl⟩)).bind fun own c3 h3 => ?_
  obtain ⟨u3, h3', rfl⟩ := onWorld_ok h3
  obtain ⟨rfl, t3⟩ := stage_createStory hs.stage h3'
  exact ends_supplied (k := fun volumes itemGen items => Shop.restockOps env time _ 0 items volumes itemGen) hq
    ⟨t3, hs.pops, hs.gens⟩

theorem ends_addPurchases {g : Shop.Parts (AnyGen σ)} {u : SeqGen} (hg : Staffed env g u)
    (ht : ∀ seed, AlwaysAnswers env (g.purchaseTimer seed) (fun c => ∃ q, c = .scalar (.num q)) IsAmount)
    (hq : q.relationships = [("items", 0)]) (hq1 : q1.relationships = [("my_items", 1)]) (hlen : q1.ids.length = q1.size)
    (hS : "purchase" ∉ S.map Prod.fst)
    (hs : Site env [L, []] [q, q1] S [("point_of_sale", 0), ("customer", 1)] G c) : Ends (Shop.addPurchases env g) c := by
  rw [Shop.addPurchases]
  refine (Ends.onWorld (ends_seeded _ _)).bind fun r0 c0 h0 => ?_
  obtain ⟨u0, h0', rfl⟩ := onWorld_ok h0
  have t0 := stage_seeded hs.stage h0'
  obtain ⟨⟨sd0, b0⟩, -, -⟩ := seeded_began h0'
  refine (ends_popNamed (c := { c with world := u0 }) (i := 1) (by
    show c.populations.get _ = _
    rw [hs.pops]
    rfl)).bind fun i c1 h1 => ?_
  obtain ⟨rfl, e1⟩ := popNamed_ok h1
  rw [show (Circus.populations { c with world := u0 }) = c.populations from rfl, hs.pops] at e1
  cases e1
  refine (Ends.onWorld (ends_seeded _ _)).bind fun r2 c2 h2 => ?_
  obtain ⟨u2, h2', rfl⟩ := onWorld_ok h2
  have t2 := stage_seeded t0 h2'
  obtain ⟨⟨sd2, b2⟩, keep, -⟩ := seeded_began h2'
  refine (ends_newStory (c := { c with world := u2 }) (cfg := Shop.purchaseStory 1 r0 r2) t2 rfl hlen
    hS rfl (.ref b2 (hg.activity _)) (.inr ⟨_, keep b0, ht _⟩)).bind fun own c3 h3 => ?_
  obtain ⟨u3, h3', rfl⟩ := onWorld_ok h3
  obtain ⟨rfl, t3⟩ := stage_createStory t2 h3'
  refine (Ends.onWorld (ends_relNamed (w := u3) (p := q1) (i := 1) (by rw [t3.pops]; rfl) (by rw [hq1]; rfl))).bind
    fun r4 c4 h4 => ?_
  obtain ⟨u4, h4', rfl⟩ := onWorld_ok h4
  obtain ⟨rfl, -, -, -⟩ := stage_relNamed t3 h4'
  refine (ends_popNamed (c := { c with world := u4 }) (i := 0) (by
    show c.populations.get _ = _
    rw [hs.pops]
    rfl)).bind fun i c5 h5 => ?_
  obtain ⟨rfl, e5⟩ := popNamed_ok h5
  rw [show (Circus.populations { c with world := u4 }) = c.populations from rfl, hs.pops] at e5
  cases e5
  refine (Ends.onWorld (ends_relNamed (w := u4) (p := q) (i := 0) (by rw [t3.pops]; rfl) (by rw [hq]; rfl))).bind
    fun r6 c6 h6 => ?_
  obtain ⟨u6, h6', rfl⟩ := onWorld_ok h6
  obtain ⟨rfl, -, -, -⟩ := stage_relNamed t3 h6'
  refine Ends.onWorld ((ends_getPop (p := q) (by
    show u6.pops[0]? = _
    rw [t3.pops]
    rfl)).bind fun q' w1 _ => ?_)
  exact (Ends.ofPy rfl).bind fun _ _ _ => (ends_seeded _ _).bind fun _ _ _ => Ends.pure

theorem ends_updatePurchases {g : Shop.Parts (AnyGen σ)} {ops : List (Op (World σ (AnyGen σ)))}
    (hq : q.relationships = [("items", 0)]) (hp : "purchase" ∈ S.map Prod.fst) (hr : "restock" ∈ S.map Prod.fst)
    (hs : Site env [L, []] [q, q1] S [("point_of_sale", 0), ("customer", 1)] G c) :
    Ends (Shop.updatePurchases env g ops) c := by
  rw [Shop.updatePurchases]
  refine (Ends.onWorld (ends_storyNamed hs.stage hp)).bind fun i0 c0 h0 => ?_
  obtain ⟨u0, h0', rfl⟩ := onWorld_ok h0
  obtain ⟨rfl, -⟩ := stage_storyNamed hs.stage h0'
  refine (ends_popNamed (c := { c with world := c.world }) (i := 0) (by
    show c.populations.get _ = _
    rw [hs.pops]
    rfl)).bind fun i c1 h1 => ?_
  obtain ⟨rfl, e1⟩ := popNamed_ok h1
  rw [hs.pops] at e1
  cases e1
  refine Ends.onWorld ((ends_seeded _ _).bind fun r2 v2 k2 => ?_)
  have t2 := stage_seeded hs.stage k2
  refine (ends_relNamed (p := q) (i := 0) (by rw [t2.pops]; rfl) (by rw [hq]; rfl)).bind fun r3 v3 k3 => ?_
  obtain ⟨rfl, -, -, -⟩ := stage_relNamed t2 k3
  exact (ends_storyNamed t2 hr).bind fun _ _ _ => Ends.pure

end Builds
end Trumania
