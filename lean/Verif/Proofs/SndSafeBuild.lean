import Verif.Proofs.SndSafe
import Verif.Spec.SndSound

/-! Helper lemmas: what the constructor of the scenario builds has what its stories need. -/

namespace Trumania
namespace Snd
open Spec World Circus Cdr
variable {σ : Type} {env : Env σ (AnyGen σ)} {w w' w1 w2 : World σ (AnyGen σ)} {c c' : Circus σ (AnyGen σ)}
  {R : List (List (Val × Val))} {P : List Population} {S : List (String × String)}
  {X Y Z : List (List Val × (Val → Prop))}

/-- the stories: their members, the states that they have besides the default one, and timers that never raise -/
def Told (env : Env σ (AnyGen σ)) (X : List (List Val × (Val → Prop))) (w : World σ (AnyGen σ)) : Prop :=
  List.Forall₂ (fun (x : List Val × (Val → Prop)) s => Begins s x.1 x.2 ∧ Timed env w s.timerGen) X w.stories

/-- the weights: those of the dealers of the agents are not negative, the broke dealer is known by all that know some
dealer, the others are 1 -/
def Weighed (env : Env σ (AnyGen σ)) (w : World σ (AnyGen σ)) : Prop :=
  ∀ i r, w.rels[i]? = some r → Relationship.Reachable env.R r ∧
    (i ≠ 3 → ∀ x ∈ r.get_relations env.orders, x.2.2 = 1) ∧
    (i = 3 → ∀ x ∈ r.get_relations env.orders, 0 ≤ x.2.2 ∧ (x.1, brokeDealer, 4) ∈ r.get_relations env.orders)

/-- what is kept when something is added -/
structure Grows (env : Env σ (AnyGen σ)) (X Y : List (List Val × (Val → Prop))) (w w' : World σ (AnyGen σ)) : Prop where
  began : ∀ {r g}, Began env w r g → Began env w' r g
  step : w'.clock.step = w.clock.step
  weighed : Weighed env w → Weighed env w'
  told : Told env X w → Told env Y w'

theorem Grows.trans (h1 : Grows env X Y w w1) (h2 : Grows env Y Z w1 w2) : Grows env X Z w w2 :=
  ⟨fun h => h2.began (h1.began h), h2.step.trans h1.step, fun h => h2.weighed (h1.weighed h), fun h => h2.told (h1.told h)⟩

theorem Grows.refl : Grows env X X w w := ⟨id, rfl, id, id⟩

theorem timed_began (hb : ∀ {r g}, Began env w r g → Began env w' r g) {r : GenRef} (h : Timed env w r) : Timed env w' r :=
  h.imp_right fun ⟨g, h1, h2⟩ => ⟨g, hb h1, h2⟩

theorem told_began (hb : ∀ {r g}, Began env w r g → Began env w' r g) (hs : w'.stories = w.stories) (h : Told env X w) :
    Told env X w' := by
  rw [Told, hs]
  exact h.imp fun _ _ hx => ⟨hx.1, timed_began hb hx.2⟩

theorem Grows.of (hb : ∀ {r g}, Began env w r g → Began env w' r g) (hc : w'.clock.step = w.clock.step)
    (hr : w'.rels = w.rels) (hs : w'.stories = w.stories) : Grows env X X w w' :=
  ⟨hb, hc, fun h => by rw [Weighed, hr]; exact h, told_began hb hs⟩

theorem Grows.same (hg : w'.gens = w.gens) (hc : w'.clock.step = w.clock.step := by rfl)
    (hr : w'.rels = w.rels := by rfl) (hs : w'.stories = w.stories := by rfl) : Grows env X X w w' :=
  .of (Began.of_gens hg) hc hr hs

theorem grows_drawSeed {x : Int} (h : drawSeed env w = .ok x w') : Grows env X X w w' := by
  obtain ⟨s, -, rfl⟩ := drawSeed_eq_ok h
  exact .same rfl

theorem grows_addGenerator {g : AnyGen σ} {r : GenRef} (h : addGenerator g w = .ok r w') :
    Grows env X X w w' ∧ Began env w' r g := by
  obtain ⟨h1, rfl, h3⟩ := Shop.after_addGenerator (env := env) h
  refine ⟨.of h1.began h1.clock.2 ?_ ?_, _, g, rfl, ?_, .refl⟩
  · cases h; rfl
  · cases h; rfl
  · rw [h3, List.getElem?_append_right (Nat.le_refl _), Nat.sub_self]
    rfl

theorem grows_seeded {mk : Int → AnyGen σ} {r : GenRef} (h : seeded env mk w = .ok r w') :
    Grows env X X w w' ∧ ∃ seed, Began env w' r (mk seed) := by
  rw [seeded] at h
  obtain ⟨x, w1, h1, h2⟩ := Act.bind_eq_ok.1 h
  obtain ⟨k1, k2⟩ := grows_addGenerator (env := env) (X := X) h2
  exact ⟨(grows_drawSeed h1).trans k1, x, k2⟩

theorem grows_generate {g : GenRef} {k : Rat} {cells : List Cell} (h : World.generate env g k w = .ok cells w') :
    Grows env X X w w' :=
  .of (generate_began h) (call_sameRest h).2.step (call_sameRest h).2.rels (call_sameRest h).1

theorem grows_createDrawn {pop : Nat} {name : String} {g : GenRef} {u : Unit}
    (h : createDrawn env pop name g w = .ok u w') : Grows env X X w w' := by
  rw [createDrawn] at h
  obtain ⟨p, w1, h1, h⟩ := Act.bind_eq_ok.1 h
  obtain ⟨-, rfl⟩ := getPop_eq_ok.1 h1
  obtain ⟨vs, w2, hv, h⟩ : ∃ (vs : List Cell) (w2 : World σ (AnyGen σ)), Grows env X X w w2 ∧
      (do let p ← Act.ofPy (p.createAttribute name vs); setPop pop p : Act (World σ (AnyGen σ)) Unit) w2 = .ok u w' := by
    split at h
    · exact ⟨_, w, .refl, h⟩
    · obtain ⟨vs, w2, h2, h⟩ := Act.bind_eq_ok.1 h
      exact ⟨vs, w2, grows_generate h2, h⟩
  obtain ⟨p', w3, h3, h⟩ := Act.bind_eq_ok.1 h
  obtain ⟨-, rfl⟩ := Act.ofPy_eq_ok.1 h3
  rw [setPop_eq_ok] at h
  subst h
  exact hv.trans (.same rfl)

/-- an attribute that has one value for all -/
theorem createConstant_stage {pop : Nat} {name : String} {v : Cell} {u : Unit} (hs : Stage env R P S w)
    (h : createConstant pop name v w = .ok u w') : Grows env X X w w' ∧ ∃ p a, P[pop]? = some p ∧
      Attribute.new p.size p.ids (List.replicate p.ids.length v) = .ok a ∧
      Stage env R (P.set pop { p with attributes := p.attributes.set name a }) S w' := by
  rw [createConstant] at h
  obtain ⟨p, w1, h1, h⟩ := Act.bind_eq_ok.1 h
  obtain ⟨hp, rfl⟩ := getPop_eq_ok.1 h1
  rw [hs.pops] at hp
  obtain ⟨p', w2, h2, h⟩ := Act.bind_eq_ok.1 h
  obtain ⟨h3, rfl⟩ := Act.ofPy_eq_ok.1 h2
  rw [setPop_eq_ok] at h
  subst h
  rw [Population.createAttribute] at h3
  obtain ⟨a, h4, h3⟩ := bind_eq_ok.1 h3
  cases h3
  exact ⟨.same rfl, p, a, hp, h4, stage_setPop hs (new_wf (hs.wf _ (List.mem_of_getElem? hp)) h4) rfl rfl rfl⟩

theorem grows_createRelationship {pop i : Nat} {name : String}
    (h : createRelationship env pop name none w = .ok i w') : Grows env X X w w' := by
  obtain ⟨p, x, s, -, -, -, rfl⟩ := createRelationship_eq_ok h
  refine ⟨Began.of_gens rfl, rfl, fun hw j r hr => ?_, told_began (Began.of_gens rfl) rfl⟩
  have hr : (w.rels ++ [Relationship.new env.R x])[j]? = some r := hr
  rcases Nat.lt_or_ge j w.rels.length with hj | hj
  · rw [List.getElem?_append_left hj] at hr
    exact hw j r hr
  · rw [List.getElem?_append_right hj, List.getElem?_singleton] at hr
    split at hr
    · cases hr
      have he : ∀ o, (Relationship.new env.R x).get_relations o = [] := fun o => by
        simpa using (filled_new (env := env) x).2 o
      refine ⟨.new x, fun _ y hy => ?_, fun _ y hy => ?_⟩
      · rw [he] at hy; cases hy
      · rw [he] at hy; cases hy
    · cases hr

theorem added_mem {f t : List Val} {ws : Weights} {x : Val × Val × Rat} (h : x ∈ added (.relations f t ws)) :
    ∃ i, f[i]? = some x.1 ∧ t[i]? = some x.2.1 ∧ weightAt ws i = some x.2.2 := by
  simp only [added, List.mem_filterMap, List.mem_range] at h
  obtain ⟨i, -, h⟩ := h
  simp only [Option.bind_eq_bind, Option.bind_eq_some_iff, Option.some.injEq] at h
  obtain ⟨a, h1, b, h2, q, h3, rfl⟩ := h
  exact ⟨i, h1, h2, h3⟩

theorem add_mem {r r' : Relationship σ} {f t : List Val} {ws : Weights} (hr : Relationship.Reachable env.R r)
    (h : r.add_relations env.orders f t ws = .ok r') : Relationship.Reachable env.R r' ∧ ∀ x,
      x ∈ r'.get_relations env.orders ↔ x ∈ r.get_relations env.orders ∨ x ∈ added (.relations f t ws) := by
  have h : AddCall.exec r (.relations f t ws, env.orders) = .ok r' := h
  exact ⟨reachable_addCall env.R hr h, fun x => (C16_step env.R hr h env.orders env.orders).mem_iff.trans List.mem_append⟩

theorem grows_ones {i : Nat} {f t : List Val} {u : Unit} (hi : i ≠ 3)
    (h : addRelations env i f t (.scalar 1) w = .ok u w') : Grows env X X w w' := by
  obtain ⟨r, r', h1, h2, rfl⟩ := addRelations_eq_ok h
  refine ⟨Began.of_gens rfl, rfl, fun hw j s hs => ?_, told_began (Began.of_gens rfl) rfl⟩
  have hs : (w.rels.set i r')[j]? = some s := hs
  by_cases hij : i = j
  · subst hij
    rw [List.getElem?_set_self (List.getElem?_eq_some_iff.1 h1).1] at hs
    cases hs
    obtain ⟨k1, k2, -⟩ := hw i r h1
    obtain ⟨m1, m2⟩ := add_mem k1 h2
    refine ⟨m1, fun _ x hx => ?_, fun h => absurd h hi⟩
    rcases (m2 x).1 hx with hx | hx
    · exact k2 hi x hx
    · obtain ⟨n, -, -, hn⟩ := added_mem hx
      exact (Option.some.inj hn).symm
  · rw [List.getElem?_set_ne hij] at hs
    exact hw j s hs

theorem fillStock_stage {pop rel : Nat} {items : List Val} {u : Unit} (hrel : rel ≠ 3) (hs : Stage env R P S w)
    (h : fillStock env pop rel items w = .ok u w') :
    Grows env X X w w' ∧ ∃ L L', R[rel]? = some L ∧ Stage env (R.set rel L') P S w' := by
  rw [fillStock] at h
  obtain ⟨p, w1, h1, h⟩ := Act.bind_eq_ok.1 h
  obtain ⟨-, rfl⟩ := getPop_eq_ok.1 h1
  obtain ⟨sd, w1, h1, h⟩ := Act.bind_eq_ok.1 h
  obtain ⟨as, w2, h2, h⟩ := Act.bind_eq_ok.1 h
  obtain ⟨-, rfl⟩ := Act.ofPy_eq_ok.1 h2
  obtain ⟨L, k1, k2⟩ := stage_addRelations (by simp) (stage_drawSeed hs h1) h
  exact ⟨(grows_drawSeed h1).trans (grows_ones hrel h), L, _, k1, k2⟩

theorem grows_createPopulation {name : String} {g : GenRef} {k i : Nat}
    (h : createPopulation env name (.generated g k) c = .ok i c') : Grows env X X c.world c'.world := by
  rcases createPopulation_cases (env := env) name (.generated g k) c with ⟨-, he⟩ | ⟨-, ⟨e, w, -, -, he⟩ |
    ⟨p, w, h1, h2, he⟩⟩
  · rw [he] at h; cases h
  · rw [he] at h; cases h
  · rw [he] at h
    cases h
    have key : Grows env X X c.world w := by
      simp only [newPopulation] at h1
      split at h1
      · obtain ⟨-, rfl⟩ := Act.ofPy_eq_ok.1 h1
        exact .refl
      · obtain ⟨cells, w1, h4, h1⟩ := Act.bind_eq_ok.1 h1
        obtain ⟨ids', w2, h5, h1⟩ := Act.bind_eq_ok.1 h1
        obtain ⟨-, rfl⟩ := Act.ofPy_eq_ok.1 h5
        obtain ⟨-, rfl⟩ := Act.ofPy_eq_ok.1 h1
        exact grows_generate h4
    exact key.trans (.same rfl)

theorem grows_createStory {cfg : StoryConfig} {n : Nat} {p : Population} {others : Val → Prop} (hs : Stage env R P S w)
    (hp : P[cfg.population]? = some p) (ho : ∀ st, others st → ∃ g, (cfg.states.getD []).get? st = some g)
    (ht : Timed env w cfg.timerGen) (h : World.createStory env cfg w = .ok n w') :
    Grows env X (X ++ [(p.ids, others)]) w w' := by
  have hp' : w.pops[cfg.population]? = some p := by rw [hs.pops]; exact hp
  obtain ⟨hb, s, hst, hg, -⟩ := createStory_began h
  obtain ⟨s', e1, e2⟩ := createStory_begins hp' (hs.wf _ (List.mem_of_getElem? hp)).ids h
  obtain ⟨-, q, s2, u, -, hnew, hn, rfl⟩ := createStory_ok h
  obtain ⟨_, _, _, -, -, -, hk0, hk, -⟩ := newStory_ok hnew
  have hn' : n = w.stories.length := by rw [hn, hk0]
  rw [hst, hn', List.getElem?_append_right (Nat.le_refl _), Nat.sub_self] at e1
  cases e1
  refine ⟨hb, hk.step, fun hw => ?_, fun hX => ?_⟩
  · have : ({ u with stories := u.stories ++ [s2] } : World σ (AnyGen σ)).rels = w.rels := hk.rels
    rw [Weighed, this]
    exact hw
  · rw [Told, hst]
    refine List.rel_append (hX.imp fun _ _ hx => ⟨hx.1, timed_began hb hx.2⟩) (.cons ⟨?_, ?_⟩ .nil)
    · exact ⟨e2.members, e2.default, fun i hi st hst => e2.params i hi st (hst.imp_right (ho st))⟩
    · rw [hg]
      exact timed_began hb ht

/-! ### The steps of the constructor -/

theorem attFits_new {n : Nat} {ids : List Val} {values : List Cell} {a : Attribute} {V : Cell → Prop}
    (h : Attribute.new n ids values = .ok a) (hn : n = 0 → ids = []) (hv : ∀ v ∈ values, V v) :
    AttFits ⟨(· ∈ ids), V⟩ a := by
  obtain ⟨h1, h2, -⟩ := new_holds h hn
  refine ⟨fun v hm => ?_, fun x hx => hv _ (h2 x.1 x.2 hx).2⟩
  obtain ⟨c, hc⟩ := h1 v hm
  exact List.mem_map_of_mem (f := Prod.fst) hc

/-- the pairs of a relationship, when some are added -/
theorem stage_add {i : Nat} {f t : List Val} {ws : Weights} {u : Unit}
    (hs : Stage env R P S w) (h : addRelations env i f t ws w = .ok u w') :
    ∃ L L', R[i]? = some L ∧ Stage env (R.set i L') P S w' ∧ ∀ x ∈ L', x ∈ L ∨ x.2 ∈ t := by
  obtain ⟨r, r', h1, h2, rfl⟩ := addRelations_eq_ok h
  obtain ⟨L, hL, hf⟩ := forall₂_at hs.rels h1
  have h2 : AddCall.exec r (.relations f t ws, env.orders) = .ok r' := h2
  refine ⟨L, (r.get_relations env.orders ++ added (.relations f t ws)).map fun x => (x.1, x.2.1), hL,
    ⟨Cdr.forall₂_set hs.rels ⟨reachable_addCall env.R hf.1 h2, fun o =>
      (C16_step env.R hf.1 h2 env.orders o).map fun x => (x.1, x.2.1)⟩, hs.pops, hs.stories, hs.wf, hs.ids⟩, fun x hx => ?_⟩
  rw [List.map_append, List.mem_append] at hx
  rcases hx with hx | hx
  · exact .inl ((hf.2 env.orders).mem_iff.1 hx)
  · obtain ⟨y, hy, rfl⟩ := List.mem_map.1 hx
    obtain ⟨n, -, hn, -⟩ := added_mem hy
    exact .inr (List.mem_of_getElem? hn)

theorem createDistributors_stage {p : Params} {g : Parts (AnyGen σ)} {r : Nat × GenRef} (hs : Stage env [] [] [] c.world)
    (h : createDistributors env p g c = .ok r c') : ∃ ids L a, r.1 = 0 ∧ Began env c'.world r.2 g.simIds ∧
      Grows env X X c.world c'.world ∧
      Stage env [L] [⟨ids, p.nDistributors, [("SIMS_TO_RESTOCK", a)], [("SIM", 0)]⟩] [] c'.world ∧
      AttFits ⟨(· ∈ ids), IsWhole⟩ a := by
  rw [createDistributors] at h
  obtain ⟨r1, c1, h1, h⟩ := Act.bind_eq_ok.1 h
  have s1 := stage_addGenerator hs (onWorld_circus h1)
  obtain ⟨g1, -⟩ := grows_addGenerator (env := env) (X := X) (onWorld_circus h1)
  obtain ⟨i, c2, h2, h⟩ := Act.bind_eq_ok.1 h
  obtain ⟨ids, n, rfl, e2, -, s2⟩ := stage_createPopulation s1 h2
  obtain ⟨rfl, hz⟩ := e2 _ _ rfl
  have g2 := g1.trans (grows_createPopulation h2)
  have h := onWorld_circus h
  obtain ⟨j, w3, h3, h⟩ := Act.bind_eq_ok.1 h
  obtain ⟨q, e3, rfl, s3⟩ := stage_createRelationship s2 h3
  cases e3
  have g3 := g2.trans (grows_createRelationship h3)
  obtain ⟨sg, w4, h4, h⟩ := Act.bind_eq_ok.1 h
  have s4 := stage_addGenerator s3 h4
  obtain ⟨k4, b4⟩ := grows_addGenerator (env := env) (X := X) h4
  obtain ⟨cells, w5, h5, h⟩ := Act.bind_eq_ok.1 h
  have s5 := stage_generate s4 h5
  have k5 : Grows env X X _ _ := grows_generate h5
  obtain ⟨sims, w6, h6, h⟩ := Act.bind_eq_ok.1 h
  obtain ⟨-, rfl⟩ := Act.ofPy_eq_ok.1 h6
  obtain ⟨u, w7, h7, h⟩ := Act.bind_eq_ok.1 h
  obtain ⟨k7, L, L', -, s7⟩ := fillStock_stage (X := X) (by simp) s5 h7
  obtain ⟨u, w8, h8, h⟩ := Act.bind_eq_ok.1 h
  obtain ⟨k8, q, a, e8, ha, s8⟩ := createConstant_stage (X := X) s7 h8
  cases e8
  obtain ⟨rfl, hw⟩ := Act.pure_eq_ok.1 h
  rw [← hw]
  refine ⟨ids, L', a, rfl, k8.began (k7.began (k5.began b4)), ((g3.trans k4).trans k5).trans (k7.trans k8), s8,
    attFits_new ha hz fun v hv => ?_⟩
  rw [List.eq_of_mem_replicate hv]
  exact ⟨0, by simp [Cell.num]⟩

theorem addRestock_stage {fmt : Int → Cell} {d i : Nat} {sg : GenRef} {ops : List (Op (World σ (AnyGen σ)))} {q : Population}
    (hs : Stage env R P S w) (hq : P[d]? = some q) (hi : q.relationships.get? "SIM" = some i)
    (h : addRestock env fmt d sg w = .ok ops w') : ops = restockOps env fmt S.length d i sg ∧
      Grows env X (X ++ [(q.ids, fun _ => False)]) w w' ∧
      Stage env R P (S ++ [("distributor_restock", "DISTRIBUTOR_ID")]) w' := by
  rw [addRestock] at h
  obtain ⟨n, w1, h1, h⟩ := Act.bind_eq_ok.1 h
  have g1 := grows_createStory (X := X) (others := fun _ => False) hs hq (fun _ h => h.elim) (.inl ⟨-1, rfl⟩) h1
  obtain ⟨rfl, s1⟩ := stage_createStory hs h1
  obtain ⟨j, w2, h2, h⟩ := Act.bind_eq_ok.1 h
  obtain ⟨rfl, q', e1, e2⟩ := stage_relNamed s1 h2
  rw [hq] at e1; cases e1
  rw [hi] at e2; cases e2
  obtain ⟨rfl, rfl⟩ := Act.pure_eq_ok.1 h
  exact ⟨rfl, g1, s1⟩

theorem createDealers_stage {p : Params} {g : Parts (AnyGen σ)} {i : Nat} (hs : Stage env R P S c.world) (hR : R.length ≠ 3)
    (h : createDealers env p g c = .ok i c') : ∃ ids L, i = P.length ∧ (p.nDealers = 0 → ids = []) ∧
      Grows env X X c.world c'.world ∧
      Stage env (R ++ [L]) (P ++ [⟨ids, p.nDealers, [], [("SIM", R.length)]⟩]) S c'.world := by
  rw [createDealers] at h
  obtain ⟨r1, c1, h1, h⟩ := Act.bind_eq_ok.1 h
  have s1 := stage_addGenerator hs (onWorld_circus h1)
  obtain ⟨g1, -⟩ := grows_addGenerator (env := env) (X := X) (onWorld_circus h1)
  obtain ⟨i, c2, h2, h⟩ := Act.bind_eq_ok.1 h
  obtain ⟨ids, n, rfl, e2, -, s2⟩ := stage_createPopulation s1 h2
  obtain ⟨rfl, hz⟩ := e2 _ _ rfl
  have g2 := g1.trans (grows_createPopulation h2)
  have h := onWorld_circus h
  obtain ⟨j, w3, h3, h⟩ := Act.bind_eq_ok.1 h
  obtain ⟨q, e3, rfl, s3⟩ := stage_createRelationship s2 h3
  rw [last_at] at e3
  cases e3
  rw [last_set] at s3
  have g3 := g2.trans (grows_createRelationship h3)
  obtain ⟨u, w7, h7, h⟩ := Act.bind_eq_ok.1 h
  obtain ⟨k7, L, L', -, s7⟩ := fillStock_stage (X := X) hR s3 h7
  rw [last_rel_set] at s7
  obtain ⟨u, w8, h8, h⟩ := Act.bind_eq_ok.1 h
  obtain ⟨L1, L2, -, s8, -⟩ := stage_add s7 h8
  rw [last_rel_set] at s8
  have k8 : Grows env X X _ _ := grows_ones hR h8
  obtain ⟨rfl, hw⟩ := Act.pure_eq_ok.1 h
  rw [← hw]
  exact ⟨ids, L2, rfl, hz, g3.trans (k7.trans k8), s8⟩

theorem createAgents_stage {p : Params} {g : Parts (AnyGen σ)} {i : Nat} (hs : Stage env R P S c.world)
    (h : createAgents env p g c = .ok i c') : ∃ ids a, i = P.length ∧
      Grows env X X c.world c'.world ∧ AttFits ⟨(· ∈ ids), fun _ => True⟩ a ∧
      Stage env (R ++ [[]]) (P ++ [⟨ids, p.nAgents, [("AGENT_NAME", a)], [("SIM", R.length)]⟩]) S c'.world := by
  rw [createAgents] at h
  obtain ⟨r1, c1, h1, h⟩ := Act.bind_eq_ok.1 h
  have s1 := stage_addGenerator hs (onWorld_circus h1)
  obtain ⟨g1, -⟩ := grows_addGenerator (env := env) (X := X) (onWorld_circus h1)
  obtain ⟨i, c2, h2, h⟩ := Act.bind_eq_ok.1 h
  obtain ⟨ids, n, rfl, e2, -, s2⟩ := stage_createPopulation s1 h2
  obtain ⟨rfl, hz⟩ := e2 _ _ rfl
  have g2 := g1.trans (grows_createPopulation h2)
  have h := onWorld_circus h
  obtain ⟨j, w3, h3, h⟩ := Act.bind_eq_ok.1 h
  obtain ⟨q, e3, rfl, s3⟩ := stage_createRelationship s2 h3
  rw [last_at] at e3
  cases e3
  rw [last_set] at s3
  have g3 := g2.trans (grows_createRelationship h3)
  obtain ⟨ng, w4, h4, h⟩ := Act.bind_eq_ok.1 h
  have s4 := stage_seeded s3 h4
  obtain ⟨k4, -⟩ := grows_seeded (X := X) h4
  obtain ⟨u, w5, h5, h⟩ := Act.bind_eq_ok.1 h
  obtain ⟨q, a, vs, e5, -, ha, s5⟩ := stage_createDrawn s4 h5
  rw [last_at] at e5
  cases e5
  rw [last_set] at s5
  have k5 : Grows env X X _ _ := grows_createDrawn h5
  obtain ⟨rfl, hw⟩ := Act.pure_eq_ok.1 h
  rw [← hw]
  exact ⟨ids, a, rfl, g3.trans (k4.trans k5), attFits_new ha hz fun _ _ => trivial, s5⟩

/-- what an object gives now it may give later -/
theorem generate_of_began {r : GenRef} {g : AnyGen σ} {n : Rat} {cells : List Cell} (hb : Began env w r g)
    (h : World.generate env r n w = .ok cells w') : ∃ x x', Descends env g x ∧ env.sem.generate x n = .ok (cells, x') := by
  obtain ⟨j, x, rfl, h1, h2⟩ := hb
  obtain ⟨a, a', h3, h4, -⟩ := generate_ref h
  rw [h1] at h3
  cases h3
  exact ⟨x, a', h2, h4⟩

theorem added_broke {ids : List Val} {v : Val} (hv : v ∈ ids) :
    (v, brokeDealer, 4) ∈ added (.relations ids (ids.map fun _ => brokeDealer) (.scalar 4)) := by
  obtain ⟨i, hi⟩ := List.mem_iff_getElem?.1 hv
  simp only [added, List.mem_filterMap, List.mem_range]
  have hlt := (List.getElem?_eq_some_iff.1 hi).1
  exact ⟨i, hlt, by simpa [weightAt, hlt] using hi⟩

theorem connectAgents_stage {p : Params} {g : Parts (AnyGen σ)} {a d : Nat} {u : Unit} {q : Population}
    (hg : ∀ x, Descends env g.agentWeights x → ∀ n cells x', env.sem.generate x n = .ok (cells, x') →
      ∀ c ∈ cells, ∀ v, c.asNum = .ok v → 0 ≤ v)
    (hs : Stage env R P S w) (hR : R.length = 3) (hq : P[a]? = some q) (h : connectAgents env p g a d w = .ok u w') :
    Grows env X X w w' ∧ ∃ L, Stage env (R ++ [L])
      (P.set a { q with relationships := q.relationships.set "DEALERS" R.length }) S w' := by
  rw [connectAgents] at h
  obtain ⟨pr, w1, h1, h⟩ := Act.bind_eq_ok.1 h
  obtain ⟨-, rfl⟩ := Act.ofPy_eq_ok.1 h1
  obtain ⟨wg, w2, h2, h⟩ := Act.bind_eq_ok.1 h
  have s2 := stage_addGenerator hs h2
  obtain ⟨k2, b2⟩ := grows_addGenerator (env := env) (X := X) h2
  obtain ⟨pa, w3, h3, h⟩ := Act.bind_eq_ok.1 h
  obtain ⟨-, rfl⟩ := getPop_eq_ok.1 h3
  obtain ⟨pd, w3, h3, h⟩ := Act.bind_eq_ok.1 h
  obtain ⟨-, rfl⟩ := getPop_eq_ok.1 h3
  obtain ⟨seed, w4, h4, h⟩ := Act.bind_eq_ok.1 h
  have s4 := stage_drawSeed s2 h4
  have k4 : Grows env X X _ _ := grows_drawSeed h4
  obtain ⟨edges, w5, h5, h⟩ := Act.bind_eq_ok.1 h
  obtain ⟨hed, rfl⟩ := Act.ofPy_eq_ok.1 h5
  obtain ⟨rel, w6, h6, h⟩ := Act.bind_eq_ok.1 h
  obtain ⟨q', hq', rfl, s6⟩ := stage_createRelationship s4 h6
  rw [hq] at hq'
  cases hq'
  have k6 : Grows env X X _ _ := grows_createRelationship h6
  obtain ⟨cells, w7, h7, h⟩ := Act.bind_eq_ok.1 h
  have s7 := stage_generate s6 h7
  have k7 : Grows env X X _ _ := grows_generate h7
  obtain ⟨x, x', hx, hx'⟩ := generate_of_began (k6.began (k4.began b2)) h7
  obtain ⟨ws, w8, h8, h⟩ := Act.bind_eq_ok.1 h
  obtain ⟨hws, rfl⟩ := Act.ofPy_eq_ok.1 h8
  have k := (k2.trans k4).trans (k6.trans k7)
  obtain ⟨u1, w9, h9, h⟩ := Act.bind_eq_ok.1 h
  obtain ⟨L1, L2, -, s9, -⟩ := stage_add s7 h9
  obtain ⟨L3, L4, -, s10, -⟩ := stage_add s9 h
  rw [last_rel_set] at s9
  rw [last_rel_set, last_rel_set] at s10
  obtain ⟨r, r1, e1, e2, rfl⟩ := addRelations_eq_ok h9
  obtain ⟨r1', r2, e3, e4, rfl⟩ := addRelations_eq_ok h
  rw [hR] at e1
  have hlt := (List.getElem?_eq_some_iff.1 e1).1
  simp only [hR, List.getElem?_set_self hlt] at e3
  cases e3
  refine ⟨k.trans ⟨Began.of_gens rfl, rfl, fun hw j s hj => ?_, told_began (Began.of_gens rfl) rfl⟩, L4, s10⟩
  simp only [hR, List.set_set] at hj
  by_cases h3j : 3 = j
  · subst h3j
    rw [List.getElem?_set_self hlt] at hj
    cases hj
    obtain ⟨m1, -, m2⟩ := hw 3 r e1
    obtain ⟨n1, n2⟩ := add_mem m1 e2
    obtain ⟨n3, n4⟩ := add_mem n1 e4
    refine ⟨n3, fun h => absurd rfl h, fun _ y hy => ?_⟩
    rcases (n4 y).1 hy with hy | hy
    · rcases (n2 y).1 hy with hy | hy
      · obtain ⟨o1, o2⟩ := m2 rfl y hy
        exact ⟨o1, (n4 _).2 (.inl ((n2 _).2 (.inl o2)))⟩
      · obtain ⟨n, o1, -, o2⟩ := added_mem hy
        have o3 : y.2.2 ∈ ws := List.mem_of_getElem? o2
        obtain ⟨cl, o4, o5⟩ := forall₂_exists_left (mapM_ok_iff.1 hws) o3
        refine ⟨hg x hx _ _ _ hx' cl o4 _ o5, (n4 _).2 (.inr (added_broke ?_))⟩
        obtain ⟨e, he, o6⟩ := List.mem_map.1 (List.mem_of_getElem? o1)
        rw [← o6]
        exact (bipartite_mem hed e he).1
    · obtain ⟨n, o1, -, o2⟩ := added_mem hy
      refine ⟨?_, (n4 _).2 (.inr (added_broke (List.mem_of_getElem? o1)))⟩
      rw [← Option.some.inj o2]
      norm_num
  · rw [List.getElem?_set_ne h3j] at hj
    exact hw j s hj

theorem connectDealers_stage {g : Parts (AnyGen σ)} {d t : Nat} {u : Unit} {q y : Population}
    (hg : ∀ seed x, Descends env (g.bulkSizes seed) x → ∀ n cells x', env.sem.generate x n = .ok (cells, x') →
      ∀ c ∈ cells, IsWhole c)
    (hs : Stage env R P S w) (hR : R.length ≠ 3) (hq : P[d]? = some q) (hy : P[t]? = some y) (hdt : d ≠ t)
    (hz : q.size = 0 → q.ids = []) (h : connectDealers env g d t w = .ok u w') :
    Grows env X X w w' ∧ ∃ L a, (∀ x ∈ L, x.2 ∈ y.ids) ∧ AttFits ⟨(· ∈ q.ids), IsWhole⟩ a ∧ Stage env (R ++ [L])
      (P.set d { q with
        relationships := q.relationships.set "DISTRIBUTOR" R.length
        attributes := q.attributes.set "BULK_BUY_SIZE" a }) S w' := by
  have hlt := (List.getElem?_eq_some_iff.1 hq).1
  rw [connectDealers] at h
  obtain ⟨rel, w6, h6, h⟩ := Act.bind_eq_ok.1 h
  obtain ⟨q', hq', rfl, s6⟩ := stage_createRelationship hs h6
  rw [hq] at hq'
  cases hq'
  have k6 : Grows env X X _ _ := grows_createRelationship h6
  obtain ⟨seed, w4, h4, h⟩ := Act.bind_eq_ok.1 h
  have s4 := stage_drawSeed s6 h4
  have k4 : Grows env X X _ _ := grows_drawSeed h4
  obtain ⟨pa, w3, h3, h⟩ := Act.bind_eq_ok.1 h
  obtain ⟨hpa, rfl⟩ := getPop_eq_ok.1 h3
  rw [s4.pops, List.getElem?_set_ne hdt, hy] at hpa
  cases hpa
  obtain ⟨pd, w3, h3, h⟩ := Act.bind_eq_ok.1 h
  obtain ⟨-, rfl⟩ := getPop_eq_ok.1 h3
  obtain ⟨⟨idx, st⟩, w5, h5, h⟩ := Act.bind_eq_ok.1 h
  obtain ⟨-, rfl⟩ := Act.ofPy_eq_ok.1 h5
  obtain ⟨asg, w5, h5, h⟩ := Act.bind_eq_ok.1 h
  obtain ⟨hnth, rfl⟩ := Act.ofPy_eq_ok.1 h5
  obtain ⟨u1, w9, h9, h⟩ := Act.bind_eq_ok.1 h
  obtain ⟨L1, L2, e9, s9, m9⟩ := stage_add s4 h9
  rw [last_rel] at e9
  cases e9
  rw [last_rel_set] at s9
  have k9 : Grows env X X _ _ := grows_ones hR h9
  obtain ⟨bg, w10, h10, h⟩ := Act.bind_eq_ok.1 h
  have s10 := stage_seeded s9 h10
  obtain ⟨k10, sd, b10⟩ := grows_seeded (X := X) h10
  obtain ⟨q2, a, vs, e11, hv, ha, s11⟩ := stage_createDrawn s10 h
  have k11 : Grows env X X _ _ := grows_createDrawn h
  rw [List.getElem?_set_self hlt] at e11
  cases e11
  rw [List.set_set] at s11
  refine ⟨(k6.trans k4).trans (k9.trans (k10.trans k11)), L2, a, fun x hx => ?_, attFits_new ha hz fun v hm => ?_, s11⟩
  · rcases m9 x hx with hx | hx
    · cases hx
    · obtain ⟨n, -, hn⟩ := forall₂_exists_left (mapM_ok_iff.1 hnth) hx
      rw [nth] at hn
      split at hn
      · rename_i hn'
        cases hn
        exact List.mem_of_getElem? hn'
      · cases hn
  · rcases hv with ⟨-, rfl⟩ | ⟨w1, hv⟩
    · cases hm
    · obtain ⟨x, x', hx, hx'⟩ := generate_of_began b10 hv
      exact hg sd x hx _ _ _ hx' v hm

/-! ### The stories -/

theorem addPurchases_stage {g : Parts (AnyGen σ)} {fmt : Int → Cell} {a d i j k : Nat} {qa qd : Population}
    {ops : List (Op (World σ (AnyGen σ)))} (ht : TimersOk env g) (hs : Stage env R P S w) (hqa : P[a]? = some qa)
    (hqd : P[d]? = some qd) (hi : qa.relationships.get? "DEALERS" = some i)
    (hj : qd.relationships.get? "SIM" = some j) (hk : qa.relationships.get? "SIM" = some k)
    (h : addPurchases env g fmt a d w = .ok ops w') : ops = purchaseOps env fmt S.length i j k ∧
      Grows env X (X ++ [(qa.ids, (· = .str "on_holiday"))]) w w' ∧ Stage env R P (S ++ [("purchases", "AGENT")]) w' := by
  rw [addPurchases] at h
  obtain ⟨tg, w1, h1, h⟩ := Act.bind_eq_ok.1 h
  have s1 := stage_seeded hs h1
  obtain ⟨k1, sd, b1⟩ := grows_seeded (X := X) h1
  obtain ⟨ag, w2, h2, h⟩ := Act.bind_eq_ok.1 h
  have s2 := stage_seeded s1 h2
  obtain ⟨k2, -⟩ := grows_seeded (X := X) h2
  obtain ⟨n, w3, h3, h⟩ := Act.bind_eq_ok.1 h
  have k3 := grows_createStory (X := X) (others := (· = .str "on_holiday")) s2 hqa (by
    rintro _ rfl
    exact ⟨_, rfl⟩) (.inr ⟨_, k2.began b1, ht sd⟩) h3
  obtain ⟨rfl, s3⟩ := stage_createStory s2 h3
  obtain ⟨i', w4, h4, h⟩ := Act.bind_eq_ok.1 h
  obtain ⟨rfl, q, e1, e2⟩ := stage_relNamed s3 h4
  rw [hqa] at e1; cases e1
  rw [hi] at e2; cases e2
  obtain ⟨j', w4, h4, h⟩ := Act.bind_eq_ok.1 h
  obtain ⟨rfl, q, e1, e2⟩ := stage_relNamed s3 h4
  rw [hqd] at e1; cases e1
  rw [hj] at e2; cases e2
  obtain ⟨k', w4, h4, h⟩ := Act.bind_eq_ok.1 h
  obtain ⟨rfl, q, e1, e2⟩ := stage_relNamed s3 h4
  rw [hqa] at e1; cases e1
  rw [hk] at e2; cases e2
  obtain ⟨rfl, rfl⟩ := Act.pure_eq_ok.1 h
  exact ⟨rfl, (k1.trans k2).trans k3, s3⟩

theorem addBulk_stage {g : Parts (AnyGen σ)} {fmt : Int → Cell} {d t i j k l : Nat} {qd qt : Population}
    {ops : List (Op (World σ (AnyGen σ)))} (ht : TimersOk env g) (hs : Stage env R P S w) (hqd : P[d]? = some qd)
    (hqt : P[t]? = some qt) (hi : qd.relationships.get? "DISTRIBUTOR" = some i)
    (hj : qt.relationships.get? "SIM" = some j) (hk : qd.relationships.get? "SIM" = some k)
    (hl : S.findIdx? (fun s => decide (s.1 = "distributor_restock")) = some l)
    (h : addBulk env g fmt d t w = .ok ops w') : ops = bulkOps env fmt S.length l d t i j k ∧
      Grows env X (X ++ [(qd.ids, fun _ => False)]) w w' ∧ Stage env R P (S ++ [("bulk_purchases", "DEALER_ID")]) w' := by
  rw [addBulk] at h
  obtain ⟨tg, w1, h1, h⟩ := Act.bind_eq_ok.1 h
  have s1 := stage_seeded hs h1
  obtain ⟨k1, sd, b1⟩ := grows_seeded (X := X) h1
  obtain ⟨n, w3, h3, h⟩ := Act.bind_eq_ok.1 h
  have k3 := grows_createStory (X := X) (others := fun _ => False) s1 hqd (fun _ h => h.elim) (.inr ⟨_, b1, ht sd⟩) h3
  obtain ⟨rfl, s3⟩ := stage_createStory s1 h3
  obtain ⟨i', w4, h4, h⟩ := Act.bind_eq_ok.1 h
  obtain ⟨rfl, q, e1, e2⟩ := stage_relNamed s3 h4
  rw [hqd] at e1; cases e1
  rw [hi] at e2; cases e2
  obtain ⟨j', w4, h4, h⟩ := Act.bind_eq_ok.1 h
  obtain ⟨rfl, q, e1, e2⟩ := stage_relNamed s3 h4
  rw [hqt] at e1; cases e1
  rw [hj] at e2; cases e2
  obtain ⟨k', w4, h4, h⟩ := Act.bind_eq_ok.1 h
  obtain ⟨rfl, q, e1, e2⟩ := stage_relNamed s3 h4
  rw [hqd] at e1; cases e1
  rw [hk] at e2; cases e2
  obtain ⟨l', w4, h4, h⟩ := Act.bind_eq_ok.1 h
  obtain ⟨rfl, e4⟩ := stage_storyNamed s3 h4
  rw [List.findIdx?_append, hl] at e4
  cases e4
  obtain ⟨rfl, rfl⟩ := Act.pure_eq_ok.1 h
  exact ⟨rfl, k1.trans k3, s3⟩

theorem addHolidays_stage {g : Parts (AnyGen σ)} {fmt : Int → Cell} {a l : Nat} {q : Population}
    {ops : List (Op (World σ (AnyGen σ))) × List (Op (World σ (AnyGen σ)))} (ht : TimersOk env g)
    (hs : Stage env R P S w) (hq : P[a]? = some q)
    (hl : S.findIdx? (fun s => decide (s.1 = "purchases")) = some l)
    (h : addHolidays env g fmt a w = .ok ops w') :
    ops = (leaveOps env fmt S.length l (S.length + 1), returnOps env fmt (S.length + 1) l) ∧
      Grows env X (X ++ [(q.ids, fun _ => False), (q.ids, fun _ => False)]) w w' ∧
      Stage env R P (S ++ [("agent_start_holidays", "AGENT"), ("agent_stops_holidays", "AGENT")]) w' := by
  rw [addHolidays] at h
  obtain ⟨tg, w1, h1, h⟩ := Act.bind_eq_ok.1 h
  have s1 := stage_seeded hs h1
  obtain ⟨k1, sd, b1⟩ := grows_seeded (X := X) h1
  obtain ⟨g1, w2, h2, h⟩ := Act.bind_eq_ok.1 h
  have s2 := stage_seeded s1 h2
  obtain ⟨k2, -⟩ := grows_seeded (X := X) h2
  obtain ⟨g2, w3, h3, h⟩ := Act.bind_eq_ok.1 h
  have s3 := stage_seeded s2 h3
  obtain ⟨k3, -⟩ := grows_seeded (X := X) h3
  have b3 := k3.began (k2.began b1)
  obtain ⟨n, w4, h4, h⟩ := Act.bind_eq_ok.1 h
  have k4 := grows_createStory (X := X) (others := fun _ => False) s3 hq (fun _ h => h.elim) (.inr ⟨_, b3, ht sd⟩) h4
  obtain ⟨rfl, s4⟩ := stage_createStory s3 h4
  obtain ⟨m, w5, h5, h⟩ := Act.bind_eq_ok.1 h
  have k5 := grows_createStory (X := X ++ [(q.ids, fun _ => False)]) (others := fun _ => False) s4 hq (fun _ h => h.elim)
    (.inr ⟨_, k4.began b3, ht sd⟩) h5
  obtain ⟨rfl, s5⟩ := stage_createStory s4 h5
  obtain ⟨l', w6, h6, h⟩ := Act.bind_eq_ok.1 h
  obtain ⟨rfl, e4⟩ := stage_storyNamed s5 h6
  rw [List.findIdx?_append, List.findIdx?_append, hl] at e4
  cases e4
  obtain ⟨rfl, rfl⟩ := Act.pure_eq_ok.1 h
  refine ⟨by simp, ?_, by simpa [leaveStory, returnStory] using s5⟩
  have := (k1.trans k2).trans ((k3.trans k4).trans k5)
  simpa using this

theorem addReviews_stage {g : Parts (AnyGen σ)} {fmt : Int → Cell} {a : Nat} {q : Population}
    {ops : List (Op (World σ (AnyGen σ)))} (ht : TimersOk env g) (hs : Stage env R P S c.world) (hq : P[a]? = some q)
    (h : addReviews env g fmt a c = .ok ops c') : ∃ rg xg sd, ∃ p : Population, Began env c'.world rg g.reviewIds ∧
      Began env c'.world xg (g.reviewTexts sd) ∧ ops = reviewOps env fmt S.length a P.length rg xg ∧
      p.attributes.keys = ["DATE", "TEXT", "AGENT_ID", "AGENT_NAME"] ∧
      Grows env X (X ++ [(q.ids, fun _ => False)]) c.world c'.world ∧
      Stage env R (P ++ [p]) (S ++ [("agent_reviews", "AGENT")]) c'.world := by
  rw [addReviews] at h
  obtain ⟨tg, c1, h1, h⟩ := Act.bind_eq_ok.1 h
  have s1 := stage_seeded hs (onWorld_circus h1)
  obtain ⟨k1, sd, b1⟩ := grows_seeded (X := X) (onWorld_circus h1)
  obtain ⟨g1, c2, h2, h⟩ := Act.bind_eq_ok.1 h
  have s2 := stage_seeded s1 (onWorld_circus h2)
  obtain ⟨k2, -⟩ := grows_seeded (X := X) (onWorld_circus h2)
  obtain ⟨i, c3, h3, h⟩ := Act.bind_eq_ok.1 h
  obtain ⟨ids, n, rfl, -, -, s3⟩ := stage_createPopulation s2 h3
  have k3 : Grows env X X _ _ := grows_createPopulation h3
  have h := onWorld_circus h
  obtain ⟨u, w4, h4, h⟩ := Act.bind_eq_ok.1 h
  obtain ⟨k4, q4, a4, e4, -, s4⟩ := createConstant_stage (X := X) s3 h4
  rw [last_at] at e4; cases e4
  rw [last_set] at s4
  obtain ⟨u, w5, h5, h⟩ := Act.bind_eq_ok.1 h
  obtain ⟨k5, q5, a5, e5, -, s5⟩ := createConstant_stage (X := X) s4 h5
  rw [last_at] at e5; cases e5
  rw [last_set] at s5
  obtain ⟨u, w6, h6, h⟩ := Act.bind_eq_ok.1 h
  obtain ⟨k6, q6, a6, e6, -, s6⟩ := createConstant_stage (X := X) s5 h6
  rw [last_at] at e6; cases e6
  rw [last_set] at s6
  obtain ⟨u, w7, h7, h⟩ := Act.bind_eq_ok.1 h
  obtain ⟨k7, q7, a7, e7, -, s7⟩ := createConstant_stage (X := X) s6 h7
  rw [last_at] at e7; cases e7
  rw [last_set] at s7
  have k := k2.trans (k3.trans ((k4.trans k5).trans (k6.trans k7)))
  obtain ⟨n, w8, h8, h⟩ := Act.bind_eq_ok.1 h
  have hlt := (List.getElem?_eq_some_iff.1 hq).1
  have k8 := grows_createStory (X := X) (p := q) (others := fun _ => False) s7
    ((List.getElem?_append_left hlt).trans hq) (fun _ h => h.elim) (.inr ⟨_, k.began b1, ht sd⟩) h8
  obtain ⟨rfl, s8⟩ := stage_createStory s7 h8
  obtain ⟨rg, w9, h9, h⟩ := Act.bind_eq_ok.1 h
  have s9 := stage_addGenerator s8 h9
  obtain ⟨k9, b9⟩ := grows_addGenerator (env := env) (X := X ++ [(q.ids, fun _ => False)]) h9
  obtain ⟨xg, w10, h10, h⟩ := Act.bind_eq_ok.1 h
  have s10 := stage_seeded s9 h10
  obtain ⟨k10, sx, b10⟩ := grows_seeded (X := X ++ [(q.ids, fun _ => False)]) h10
  obtain ⟨rfl, hw⟩ := Act.pure_eq_ok.1 h
  rw [← hw]
  exact ⟨rg, xg, sx, _, k10.began b9, b10, rfl, rfl, (k1.trans k).trans (k8.trans (k9.trans k10)), s10⟩

/-! ### The circus that is built -/

theorem build_stage {p : Params} {g : Parts (AnyGen σ)} {fmt : Int → Cell} {chains : List (List (Op (World σ (AnyGen σ))))}
    (hg : Sound env g) (hs : Stage env [] [] [] c.world) (h : build env p g fmt c = .ok chains c') :
    ∃ L0 L1 L3 L4 dist deal ag a0 a1 a2 sg rg xg sd, ∃ q : Population,
      chains = [restockOps env fmt 0 0 0 sg, purchaseOps env fmt 1 3 1 2, bulkOps env fmt 2 0 1 0 4 0 1,
        leaveOps env fmt 3 1 4, returnOps env fmt 4 1, reviewOps env fmt 5 2 3 rg xg] ∧
      Stage env [L0, L1, [], L3, L4]
        [⟨dist, p.nDistributors, [("SIMS_TO_RESTOCK", a0)], [("SIM", 0)]⟩,
          ⟨deal, p.nDealers, [("BULK_BUY_SIZE", a1)], [("SIM", 1), ("DISTRIBUTOR", 4)]⟩,
          ⟨ag, p.nAgents, [("AGENT_NAME", a2)], [("SIM", 2), ("DEALERS", 3)]⟩, q]
        [("distributor_restock", "DISTRIBUTOR_ID"), ("purchases", "AGENT"), ("bulk_purchases", "DEALER_ID"),
          ("agent_start_holidays", "AGENT"), ("agent_stops_holidays", "AGENT"), ("agent_reviews", "AGENT")] c'.world ∧
      Grows env [] [(dist, fun _ => False), (ag, (· = .str "on_holiday")), (deal, fun _ => False), (ag, fun _ => False),
        (ag, fun _ => False), (ag, fun _ => False)] c.world c'.world ∧
      Began env c'.world sg g.simIds ∧ Began env c'.world rg g.reviewIds ∧ Began env c'.world xg (g.reviewTexts sd) ∧
      q.attributes.keys = ["DATE", "TEXT", "AGENT_ID", "AGENT_NAME"] ∧
      (∀ x ∈ L4, x.2 ∈ dist) ∧ AttFits ⟨(· ∈ dist), IsWhole⟩ a0 ∧ AttFits ⟨(· ∈ deal), IsWhole⟩ a1 ∧
      AttFits ⟨(· ∈ ag), fun _ => True⟩ a2 := by
  rw [build] at h
  obtain ⟨⟨d, sg⟩, c1, h1, h⟩ := Act.bind_eq_ok.1 h
  obtain ⟨dist, L0, a0, rfl, b1, k1, s1, f0⟩ := createDistributors_stage (X := []) hs h1
  dsimp only at h b1
  obtain ⟨op0, c2, h2, h⟩ := Act.bind_eq_ok.1 h
  obtain ⟨rfl, k2, s2⟩ := addRestock_stage (X := []) s1 rfl rfl (onWorld_circus h2)
  obtain ⟨dl, c3, h3, h⟩ := Act.bind_eq_ok.1 h
  obtain ⟨deal, L1, rfl, hz, k3, s3⟩ := createDealers_stage (X := [(dist, fun _ => False)]) s2 (by simp) h3
  obtain ⟨ag, c4, h4, h⟩ := Act.bind_eq_ok.1 h
  obtain ⟨agents, a2, rfl, k4, f2, s4⟩ := createAgents_stage (X := [(dist, fun _ => False)]) s3 h4
  obtain ⟨u, c5, h5, h⟩ := Act.bind_eq_ok.1 h
  obtain ⟨k5, L3, s5⟩ := connectAgents_stage (X := [(dist, fun _ => False)]) hg.weights s4 rfl rfl (onWorld_circus h5)
  obtain ⟨u, c6, h6, h⟩ := Act.bind_eq_ok.1 h
  obtain ⟨k6, L4, a1, m4, f1, s6⟩ := connectDealers_stage (X := [(dist, fun _ => False)]) hg.sizes s5 (by simp) rfl rfl (by simp) hz (onWorld_circus h6)
  obtain ⟨op1, c7, h7, h⟩ := Act.bind_eq_ok.1 h
  obtain ⟨rfl, k7, s7⟩ := addPurchases_stage (X := [(dist, fun _ => False)]) (i := 3) (j := 1) (k := 2) hg.timers s6 rfl rfl rfl rfl rfl (onWorld_circus h7)
  obtain ⟨op2, c8, h8, h⟩ := Act.bind_eq_ok.1 h
  obtain ⟨rfl, k8, s8⟩ := addBulk_stage (X := [(dist, fun _ => False), (agents, (· = .str "on_holiday"))])
    (i := 4) (j := 0) (k := 1) (l := 0) hg.timers s7 rfl rfl rfl rfl rfl rfl
    (onWorld_circus h8)
  obtain ⟨⟨op3, op4⟩, c9, h9, h⟩ := Act.bind_eq_ok.1 h
  obtain ⟨e34, k9, s9⟩ := addHolidays_stage
    (X := [(dist, fun _ => False), (agents, (· = .str "on_holiday")), (deal, fun _ => False)]) (l := 1) hg.timers s8 rfl rfl (onWorld_circus h9)
  cases e34
  dsimp only at h
  obtain ⟨op5, c10, h10, h⟩ := Act.bind_eq_ok.1 h
  obtain ⟨rg, xg, sd, q, b5, b6, rfl, hk, k10, s10⟩ := addReviews_stage
    (X := [(dist, fun _ => False), (agents, (· = .str "on_holiday")), (deal, fun _ => False),
    (agents, fun _ => False), (agents, fun _ => False)]) hg.timers s9 rfl h10
  obtain ⟨rfl, rfl⟩ := Act.pure_eq_ok.1 h
  have kall := (k2.trans (k3.trans (k4.trans (k5.trans k6)))).trans ((k7.trans k8).trans (k9.trans k10))
  exact ⟨L0, L1, L3, L4, dist, deal, agents, a0, a1, a2, sg, rg, xg, sd, q, rfl, s10, k1.trans kall, kall.began b1, b5, b6, hk,
    m4, f0, f1, f2⟩

end Snd
end Trumania
