import Verif.Proofs.HelloRun
import Verif.Props.Music
import Verif.Props.Networks

/-! Helper lemmas: what the steps of examples/tutorial/example1.py build. -/

namespace Trumania
namespace Hello
open Spec World Circus Cdr
open Shop (Site onWorld_ok)
open Music (length_idsFrom table_new seq_ids)
variable {σ : Type} {env : Env σ (AnyGen σ)} {w w' w1 w2 : World σ (AnyGen σ)} {c c' : Circus σ (AnyGen σ)}
  {R : List (List (Val × Val × Rat))} {P : List Population} {T : List (Story σ)} {k : Int × Int}

/-- the content of a relationship, with the weights -/
def Weighted (env : Env σ (AnyGen σ)) (r : Relationship σ) (L : List (Val × Val × Rat)) : Prop :=
  Relationship.Reachable env.R r ∧ ∀ o, (r.get_relations o).Perm L

/-- what a world has, with the weights of the relations -/
structure Lot (env : Env σ (AnyGen σ)) (R : List (List (Val × Val × Rat))) (P : List Population) (T : List (Story σ))
    (k : Int × Int) (w : World σ (AnyGen σ)) : Prop where
  rels : List.Forall₂ (Weighted env) w.rels R
  pops : w.pops = P
  wf : ∀ p ∈ P, Population.WF p
  stories : w.stories = T
  clock : w.clock.current = k.1 ∧ w.clock.step = k.2

theorem lot_same (hs : Lot env R P T k w) (h1 : w'.rels = w.rels) (h2 : w'.pops = w.pops) (h3 : w'.stories = w.stories)
    (h4 : w'.clock.current = w.clock.current) (h5 : w'.clock.step = w.clock.step) : Lot env R P T k w' :=
  ⟨h1 ▸ hs.rels, h2.trans hs.pops, hs.wf, h3.trans hs.stories, h4.trans hs.clock.1, h5.trans hs.clock.2⟩

theorem lot_drawSeed {x : Int} (hs : Lot env R P T k w) (h : drawSeed env w = .ok x w') : Lot env R P T k w' := by
  obtain ⟨s, -, rfl⟩ := drawSeed_eq_ok h
  exact lot_same hs rfl rfl rfl rfl rfl

theorem lot_addGenerator {g : AnyGen σ} {r : GenRef} (hs : Lot env R P T k w) (h : Snd.addGenerator g w = .ok r w') :
    Lot env R P T k w' := by
  rw [Snd.addGenerator] at h
  cases h
  exact lot_same hs rfl rfl rfl rfl rfl

theorem lot_seeded {mk : Int → AnyGen σ} {r : GenRef} (hs : Lot env R P T k w) (h : Snd.seeded env mk w = .ok r w') :
    Lot env R P T k w' := by
  rw [Snd.seeded] at h
  obtain ⟨x, w1, h1, h2⟩ := Act.bind_eq_ok.1 h
  exact lot_addGenerator (lot_drawSeed hs h1) h2

theorem lot_generate {g : GenRef} {n : Rat} {cells : List Cell} (hs : Lot env R P T k w)
    (h : World.generate env g n w = .ok cells w') : Lot env R P T k w' := by
  obtain ⟨h1, h2⟩ := call_sameRest h
  exact lot_same hs h2.rels h2.pops h1 h2.date h2.step

theorem lot_createDrawn {pop : Nat} {name : String} {g : GenRef} {u : Unit} (hs : Lot env R P T k w)
    (h : Snd.createDrawn env pop name g w = .ok u w') : ∃ p a values, P[pop]? = some p ∧
      Attribute.new p.size p.ids values = .ok a ∧
      Lot env R (P.set pop { p with attributes := p.attributes.set name a }) T k w' := by
  obtain ⟨p, a, values, h1, -, h3, h4⟩ := Snd.createDrawn_attrs h
  have h5 : w'.rels = w.rels ∧ w'.stories = w.stories ∧ w'.clock.current = w.clock.current ∧ w'.clock.step = w.clock.step := by
    rw [Snd.createDrawn] at h
    obtain ⟨p, w1, h1, h⟩ := Act.bind_eq_ok.1 h
    obtain ⟨-, rfl⟩ := getPop_eq_ok.1 h1
    obtain ⟨vs, w2, hv, h⟩ : ∃ (vs : List Cell) (w2 : World σ (AnyGen σ)), (w2.rels = w.rels ∧ w2.stories = w.stories ∧
        w2.clock.current = w.clock.current ∧ w2.clock.step = w.clock.step) ∧
        (do let p ← Act.ofPy (p.createAttribute name vs); setPop pop p : Act (World σ (AnyGen σ)) Unit) w2 =
          .ok u w' := by
      split at h
      · exact ⟨_, w, ⟨rfl, rfl, rfl, rfl⟩, h⟩
      · obtain ⟨vs, w2, h2, h⟩ := Act.bind_eq_ok.1 h
        have h2 := call_sameRest h2
        exact ⟨vs, w2, ⟨h2.2.rels, h2.1, h2.2.date, h2.2.step⟩, h⟩
    obtain ⟨p', w3, h3, h⟩ := Act.bind_eq_ok.1 h
    obtain ⟨-, rfl⟩ := Act.ofPy_eq_ok.1 h3
    rw [setPop_eq_ok] at h
    subst h
    exact hv
  rw [hs.pops] at h1
  refine ⟨p, a, values, h1, h3, h5.1 ▸ hs.rels, by rw [h4, hs.pops], ?_, h5.2.1.trans hs.stories,
    h5.2.2.1.trans hs.clock.1, h5.2.2.2.trans hs.clock.2⟩
  exact wf_set_at hs.wf (new_wf (hs.wf p (List.mem_of_getElem? h1)) h3)

theorem set_last {α : Type} (l : List α) (a b : α) : (l ++ [a]).set l.length b = l ++ [b] := by simp

theorem weighted_new (x : Int) : Weighted env (Relationship.new env.R x) [] :=
  ⟨.new x, fun o => by
    have := (Snd.filled_new (env := env) x).2 o
    rw [List.perm_nil, List.map_eq_nil_iff] at this
    rw [this]⟩

theorem lot_createRelationship {pop i : Nat} {name : String} (hs : Lot env R P T k w)
    (h : createRelationship env pop name none w = .ok i w') : ∃ p, P[pop]? = some p ∧ i = R.length ∧
      Lot env (R ++ [[]]) (P.set pop { p with relationships := p.relationships.set name R.length }) T k w' ∧
      w'.gens = w.gens := by
  obtain ⟨p, x, s, -, hp, rfl, rfl⟩ := createRelationship_eq_ok h
  have hl : w.rels.length = R.length := hs.rels.length_eq
  refine ⟨p, hs.pops ▸ hp, hl, ⟨?_, ?_, ?_, hs.stories, hs.clock⟩, rfl⟩
  · exact List.rel_append hs.rels (.cons (weighted_new x) .nil)
  · simp only [withRel, hs.pops, hl]
  · have hp' := hs.wf p (List.mem_of_getElem? (hs.pops ▸ hp))
    exact wf_set_at hs.wf ⟨hp'.ids, hp'.names, hp'.values⟩

theorem lot_addRelations {i : Nat} {f t : List Val} {q : Rat} {u : Unit} (hl : f.length = t.length)
    (hs : Lot env R P T k w) (h : addRelations env i f t (.scalar q) w = .ok u w') :
    ∃ L, R[i]? = some L ∧ Lot env (R.set i (L ++ (f.zip t).map fun x => (x.1, x.2, q))) P T k w' ∧ w'.gens = w.gens := by
  obtain ⟨r, r', h1, h2, rfl⟩ := addRelations_eq_ok h
  obtain ⟨L, hL, hf⟩ := forall₂_at hs.rels h1
  have h2 : AddCall.exec r (.relations f t (.scalar q), env.orders) = .ok r' := h2
  refine ⟨L, hL, ⟨Cdr.forall₂_set hs.rels ⟨reachable_addCall env.R hf.1 h2, fun o => ?_⟩, hs.pops, hs.wf, hs.stories,
    hs.clock⟩, rfl⟩
  rw [← added_scalar hl q]
  exact (C16_step env.R hf.1 h2 o o).trans ((hf.2 o).append_right _)

theorem lot_createStory {pop n : Nat} {p : Population} (hs : Lot env R P [] k w) (hp : P[pop]? = some p)
    (h : World.createStory env (helloStory pop) w = .ok n w') : n = 0 ∧ ∃ s : Story σ, s.idField = "PERSON_ID" ∧
      Lot env R P [s] k w' ∧ Beats w' 0 0 p.ids ∧ AllWait w' 0 0 ∧ s.timerGen = .constant (.num 0) := by
  have hp' : w.pops[pop]? = some p := by rw [hs.pops]; exact hp
  obtain ⟨hn, hb, hq⟩ := C124_created (c := 0) h hp' (hs.wf p (List.mem_of_getElem? hp)).ids rfl rfl rfl rfl
    (one_ne_zero)
  rw [hs.stories] at hn
  obtain ⟨-, p', s, w1, h2, h3, hn', rfl⟩ := createStory_ok h
  obtain ⟨st, s0, w2, -, -, -, k1, k2, k3, k4, k5, k6, -, -, -, k7, -, h5⟩ := newStory_ok h3
  have hf : s.idField = "PERSON_ID" ∧ s.timerGen = .constant (.num 0) := by
    rcases h5 with ⟨-, rfl, -⟩ | ⟨-, h5⟩
    · exact ⟨k5, k6⟩
    · obtain ⟨-, -, h6, -⟩ := resetStory_ok h5
      rw [h6]
      exact ⟨k5, k6⟩
  subst hn
  refine ⟨rfl, s, hf.1, ⟨k2.rels ▸ hs.rels, k2.pops.trans hs.pops, hs.wf, ?_, k2.date.trans hs.clock.1,
    k2.step.trans hs.clock.2⟩, hb, hq, hf.2⟩
  show w1.stories ++ [s] = [s]
  rw [k1, hs.stories]
  rfl

/-! ### The functions of the example -/

/-- the persons -/
theorem createPersons_lot (hsem : env.sem = AnyGen.sem env.R) {p : Params} {g : Parts (AnyGen σ)} {b : SeqGen} {i : Nat}
    (hg : g.Usual b) {name : String} {seed start step : Int} (hnew : Circus.new env.R name seed start step = .ok c)
    (h : createPersons env p g c = .ok i c') :
    i = 0 ∧ Lot env [] [⟨idsFrom b p.nPersons, p.nPersons, [], []⟩] [] (start, step) c'.world := by
  obtain ⟨s0, l0, -, d1, d2⟩ := Shop.new_site (env := env) hnew
  rw [createPersons] at h
  obtain ⟨r1, c1, h1, h⟩ := Act.bind_eq_ok.1 h
  obtain ⟨u1, h1', rfl⟩ := onWorld_ok h1
  have s1 := stage_addGenerator s0.stage h1'
  obtain ⟨a1, rfl, g1⟩ := Shop.after_addGenerator (env := env) h1'
  have l1 : u1.gens.length = 1 := by rw [a1.len, l0]
  obtain ⟨ids, rfl, hids, s2, a2⟩ := Shop.site_createPopulation (c := { c with world := u1 }) ⟨s1, s0.pops, s0.gens⟩
    (.inl (by show u1.gens.length ≤ 4; omega)) h
  have hids : ids = idsFrom b p.nPersons := by
    refine seq_ids hsem hg.persons (hids.imp_right ?_)
    rintro ⟨cells, y, hg, hv⟩
    obtain ⟨gg, gg', e5, e6, -⟩ := generate_ref_ok.1 hg
    change u1.gens[c.world.gens.length]? = _ at e5
    rw [g1, List.getElem?_append_right (le_refl _), Nat.sub_self] at e5
    cases e5
    exact ⟨cells, gg', e6, hv⟩
  subst hids
  refine ⟨rfl, ?_, s2.stage.pops, s2.stage.wf, ?_, ?_, ?_⟩
  · rw [List.forall₂_nil_right_iff.1 s2.stage.rels]
    exact .nil
  · exact List.map_eq_nil_iff.1 s2.stage.stories
  · exact a2.clock.1.trans (a1.clock.1.trans d1)
  · exact a2.clock.2.trans (a1.clock.2.trans d2)

theorem addAttribute_lot {pop : Nat} {name : String} {mk : Int → AnyGen σ} {u : Unit} (hs : Lot env R P T k w)
    (h : addAttribute env pop name mk w = .ok u w') : ∃ p a values, P[pop]? = some p ∧
      Attribute.new p.size p.ids values = .ok a ∧
      Lot env R (P.set pop { p with attributes := p.attributes.set name a }) T k w' := by
  rw [addAttribute] at h
  obtain ⟨r, w1, h1, h⟩ := Act.bind_eq_ok.1 h
  exact lot_createDrawn (lot_seeded hs h1) h

theorem sites_eq (p : Params) (g : Parts (AnyGen σ)) : sites p g = idsFrom g.siteIds p.nSites := by
  rw [sites, SeqGen.generate, build_ids]
  simp [idsFrom, arange, AnyGen.pyInt_natCast]

theorem asVal_scalars {cells : List Cell} {vs : List Val} (h : cells.mapM Cell.asVal = .ok vs) :
    cells = vs.map Cell.scalar := by
  replace h := mapM_ok_iff.1 h
  induction h with
  | nil => rfl
  | @cons c v cs vs h _ ih =>
    rw [List.map_cons, ← ih]
    cases c <;> cases h
    rfl

/-- the sites of all the persons, with their weights -/
theorem addSiteAll_lot (hsem : env.sem = AnyGen.sem env.R) {pop rel : Nat} {gen : GenRef} {weights : List Rat} {u : Unit}
    {all : List Val} {r : σ} {L : List (Val × Val × Rat)} {p : Population} (hp : P[pop]? = some p)
    (hsize : p.ids.length = p.size) (hs : Lot env R P T k w) (hL : R[rel]? = some L)
    (hb : Began env w gen (.choice all none r)) (h : Act.forEach (addSite env pop rel gen) weights w = .ok u w') :
    ∃ drawn : List (List Val), drawn.length = weights.length ∧
      (∀ l ∈ drawn, l.length = p.ids.length ∧ ∀ t ∈ l, t ∈ all) ∧
      Lot env (R.set rel (L ++ (weights.zip drawn).flatMap fun x => (p.ids.zip x.2).map fun y => (y.1, y.2, x.1))) P T k w' := by
  induction weights generalizing R L w with
  | nil =>
    obtain ⟨-, rfl⟩ := Act.pure_eq_ok.1 h
    refine ⟨[], rfl, by simp, ?_⟩
    simp only [List.zip_nil_left, List.flatMap_nil, List.append_nil]
    obtain ⟨hlt, e⟩ := List.getElem?_eq_some_iff.1 hL
    rw [← e, List.set_getElem_self]
    exact hs
  | cons q weights ih =>
    rw [forEach_cons] at h
    obtain ⟨x, w1, h1, h⟩ := Act.bind_eq_ok.1 h
    rw [addSite] at h1
    obtain ⟨p', v1, k1, h1⟩ := Act.bind_eq_ok.1 h1
    obtain ⟨hp', rfl⟩ := getPop_eq_ok.1 k1
    rw [hs.pops, hp] at hp'
    cases hp'
    obtain ⟨cells, v2, k2, h1⟩ := Act.bind_eq_ok.1 h1
    obtain ⟨tos, v3, k3, h1⟩ := Act.bind_eq_ok.1 h1
    obtain ⟨k4, rfl⟩ := Act.ofPy_eq_ok.1 k3
    have hc := asVal_scalars k4
    have hlen : tos.length = p.ids.length := by
      obtain ⟨j, x, rfl, hx, hd⟩ := id hb
      obtain ⟨gg, gg', e5, e6, -⟩ := generate_ref_ok.1 k2
      rw [hsem] at e6
      have := AnyGen.C74_as_many_as_asked e6
      rw [hc, List.length_map] at this
      rw [this, hsize]
    have hmem : ∀ t ∈ tos, t ∈ all := by
      intro t ht
      obtain ⟨v, hv, e⟩ := Shop.began_choice hsem hb k2 (.scalar t) (hc ▸ List.mem_map_of_mem ht)
      cases e
      exact hv
    obtain ⟨L', hL', s1, g1⟩ := lot_addRelations hlen.symm (lot_generate hs k2) h1
    rw [hL] at hL'
    cases hL'
    have hb1 := Began.of_gens g1 (generate_began k2 hb)
    obtain ⟨drawn, d1, d2, d3⟩ := ih s1 (L := L ++ (p.ids.zip tos).map fun x => (x.1, x.2, q))
      (by rw [List.getElem?_set_self (List.getElem?_eq_some_iff.1 hL).1]) hb1 h
    refine ⟨tos :: drawn, by simp [d1], ?_, ?_⟩
    · intro l hl
      rcases List.mem_cons.1 hl with rfl | hl
      · exact ⟨hlen, hmem⟩
      · exact d2 l hl
    · rw [List.set_set] at d3
      simpa only [List.zip_cons_cons, List.flatMap_cons, List.append_assoc] using d3

/-- the relationship of the sites -/
theorem addSites_lot (hsem : env.sem = AnyGen.sem env.R) {q : Params} {g : Parts (AnyGen σ)} {b : SeqGen} (hg : g.Usual b)
    {pop i : Nat} {weights : List Rat} {p : Population} (hp : P[pop]? = some p) (hsize : p.ids.length = p.size)
    (hs : Lot env R P T k w) (h : addSites env q g pop weights w = .ok i w') : i = R.length ∧
      ∃ L, SitesGiven weights (idsFrom g.siteIds q.nSites) p.ids L ∧
      Lot env (R ++ [L]) (P.set pop { p with relationships := p.relationships.set "sites" R.length }) T k w' := by
  rw [addSites] at h
  obtain ⟨gen, w1, h1, h⟩ := Act.bind_eq_ok.1 h
  have s1 := lot_seeded hs h1
  obtain ⟨-, -, seed, hb⟩ := Shop.after_seeded (env := env) h1
  obtain ⟨r, hr⟩ := hg.choice (sites q g) seed
  rw [hr, sites_eq] at hb
  obtain ⟨rel, w2, h2, h⟩ := Act.bind_eq_ok.1 h
  obtain ⟨p', hp', rfl, s2, g2⟩ := lot_createRelationship s1 h2
  rw [hp] at hp'
  cases hp'
  obtain ⟨x, w3, h3, h⟩ := Act.bind_eq_ok.1 h
  obtain ⟨rfl, rfl⟩ := Act.pure_eq_ok.1 h
  obtain ⟨drawn, d1, d2, d3⟩ := addSiteAll_lot hsem (L := []) (p := { p with relationships := p.relationships.set "sites" R.length })
    (by rw [List.getElem?_set_self (List.getElem?_eq_some_iff.1 hp).1]) hsize s2 (by simp) (Began.of_gens g2 hb) h3
  refine ⟨rfl, _, ⟨drawn, d1, d2, .refl _⟩, ?_⟩
  rw [List.nil_append, set_last] at d3
  exact d3

/-- the friends -/
theorem addFriends_lot {g : Parts (AnyGen σ)} {pop i : Nat} {p : Population} (hp : P[pop]? = some p)
    (hs : Lot env R P T k w) (h : addFriends env g pop w = .ok i w') : i = R.length ∧
      ∃ L, (∀ x ∈ L, x.1 ∈ p.ids ∧ x.2.1 ∈ p.ids ∧ x.2.2 = 1) ∧
      Lot env (R ++ [L]) (P.set pop { p with relationships := p.relationships.set "friends" R.length }) T k w' := by
  rw [addFriends] at h
  obtain ⟨rel, w1, h1, h⟩ := Act.bind_eq_ok.1 h
  obtain ⟨p', hp', rfl, s1, -⟩ := lot_createRelationship hs h1
  rw [hp] at hp'
  cases hp'
  obtain ⟨seed, w2, h2, h⟩ := Act.bind_eq_ok.1 h
  have s2 := lot_drawSeed s1 h2
  obtain ⟨q, w3, h3, h⟩ := Act.bind_eq_ok.1 h
  obtain ⟨hq, rfl⟩ := getPop_eq_ok.1 h3
  rw [s2.pops, List.getElem?_set_self (List.getElem?_eq_some_iff.1 hp).1] at hq
  cases hq
  obtain ⟨pairs, w4, h4, h⟩ := Act.bind_eq_ok.1 h
  obtain ⟨h4', rfl⟩ := Act.ofPy_eq_ok.1 h4
  have hm := bipartite_mem h4'
  obtain ⟨x, w5, h5, h⟩ := Act.bind_eq_ok.1 h
  obtain ⟨rfl, rfl⟩ := Act.pure_eq_ok.1 h
  obtain ⟨L, hL, s5, -⟩ := lot_addRelations (by simp) s2 h5
  rw [List.getElem?_append_right (le_refl _), Nat.sub_self] at hL
  cases hL
  rw [set_last] at s5
  refine ⟨rfl, _, ?_, s5⟩
  intro x hx
  rw [List.nil_append] at hx
  obtain ⟨y, hy, rfl⟩ := List.mem_map.1 hx
  rw [← List.zip_of_prod rfl rfl] at hy
  exact ⟨(hm y hy).1, (hm y hy).2, rfl⟩

theorem numbers_keys {l : List (Val × Cell)} {ws : Dict Val Rat}
    (h : List.Forall₂ (fun x y => (do .ok (x.1, ← x.2.asNum) : Py (Val × Rat)) = .ok y) l ws) :
    ws.map Prod.fst = l.map Prod.fst := by
  induction h with
  | nil => rfl
  | cons hx _ ih =>
    obtain ⟨y, -, e⟩ := bind_eq_ok.1 hx
    cases e
    rw [List.map_cons, List.map_cons, ih]

/-- the popularities, from the attribute -/
theorem popularities_lot {pop : Nat} {ws : Dict Val Rat} {p : Population} {a : Attribute} (hp : P[pop]? = some p)
    (ha : p.attributes.get? "POPULARITY" = some a) (hone : OneValueEach a) (hall : ∀ i ∈ p.ids, ∃ c, Holds a i c)
    (hs : Lot env R P T k w) (h : popularities pop w = .ok ws w') : w' = w ∧
      ∀ i ∈ p.ids, ∃ x, Holds a i (.num x) ∧ ws.get? i = some x := by
  rw [popularities] at h
  obtain ⟨q, w1, h1, h⟩ := Act.bind_eq_ok.1 h
  obtain ⟨hq, rfl⟩ := getPop_eq_ok.1 h1
  rw [hs.pops, hp] at hq
  cases hq
  obtain ⟨a', w2, h2, h⟩ := Act.bind_eq_ok.1 h
  obtain ⟨h2', rfl⟩ := Act.ofPy_eq_ok.1 h2
  rw [Population.getAttribute, Population.get_eq_ok, ha] at h2'
  cases h2'
  obtain ⟨h3, rfl⟩ := Act.ofPy_eq_ok.1 h
  refine ⟨rfl, fun i hi => ?_⟩
  replace h3 := mapM_ok_iff.1 h3
  have hkeys := numbers_keys h3
  obtain ⟨c, hc⟩ := hall i hi
  obtain ⟨y, hy, e⟩ := forall₂_exists_right h3 hc
  obtain ⟨x, e1, e⟩ := bind_eq_ok.1 e
  cases e
  refine ⟨x, ?_, (Dict.get?_eq_some_iff (show (ws.map Prod.fst).Nodup by rw [hkeys]; exact hone)).2 hy⟩
  cases hc' : c with
  | scalar v =>
    rw [hc'] at e1 hc
    cases v <;> cases e1
    exact hc
  | _ => rw [hc'] at e1; cases e1

/-- each person has a site -/
theorem SitesGiven.each {weights : List Rat} {all ids : List Val} {L : List (Val × Val × Rat)}
    (h : SitesGiven weights all ids L) (hw : weights ≠ []) : ∀ i ∈ ids, ∃ x ∈ L, x.1 = i := by
  obtain ⟨drawn, d1, d2, d3⟩ := h
  intro i hi
  cases weights with
  | nil => exact absurd rfl hw
  | cons q weights =>
    cases drawn with
    | nil => simp at d1
    | cons l drawn =>
      obtain ⟨hl, -⟩ := d2 l (by simp)
      obtain ⟨n, hn, rfl⟩ := List.getElem_of_mem hi
      have hn' : n < l.length := by omega
      refine ⟨(ids[n], l[n], q), d3.mem_iff.2 ?_, rfl⟩
      rw [List.zip_cons_cons, List.flatMap_cons]
      refine List.mem_append_left _ (List.mem_map.2 ⟨(ids[n], l[n]), ?_, rfl⟩)
      rw [← List.getElem_zip (h := by simp; omega)]
      exact List.getElem_mem _

theorem weights_eq (st : Step) : siteWeights st = st.weights := by cases st <;> decide +kernel

theorem opened {p : Params} {g : Parts (AnyGen σ)} {b : SeqGen} {sc : Scene} {q : Population} {s : Story σ} (h0 : 0 ≤ k.2)
    (hs : Lot env R [q] [s] k w) (hf : s.idField = "PERSON_ID") (ha : Beats w 0 0 q.ids ∧ AllWait w 0 0)
    (hids : q.ids = idsFrom b p.nPersons)
    (hname : sc.step ≠ .one → ∃ a, attributeOf q "NAME" a ∧ ∀ i ∈ q.ids, ∃ c, Holds a i c)
    (hpop : 1 ∈ sc.step.rels → ∃ a, attributeOf q "POPULARITY" a ∧
      ∀ i ∈ q.ids, ∃ x, Holds a i (.num x) ∧ sc.weights.get? i = some x)
    (hsite : sc.step = .three → ∃ x, Began env w sc.site (.choice (idsFrom g.siteIds p.nSites) none x))
    (hsites : 0 ∈ sc.step.rels → ∃ L, R[0]? = some L ∧
      SitesGiven sc.step.weights (idsFrom g.siteIds p.nSites) q.ids L)
    (hfr : 1 ∈ sc.step.rels → ∃ L, R[1]? = some L ∧ ∀ x ∈ L, x.1 ∈ q.ids ∧ x.2.1 ∈ q.ids ∧ x.2.2 = 1)
    (hdur : sc.step ≠ .one → sc.step ≠ .two → ∃ seed, Began env w sc.duration (g.durations seed))
    (hR : R.length = sc.step.rels.length) (hbeg : (Begins s q.ids fun _ => False) ∧ s.timerGen = .constant (.num 0)) :
    Ready env sc (idsFrom g.siteIds p.nSites) (idsFrom b p.nPersons) w ∧ Opening p g b env sc w := by
  have hS : 0 ∈ sc.step.rels → ∃ r, w.rels[0]? = some r ∧ Relationship.Reachable env.R r ∧ ∀ o,
      SitesGiven sc.step.weights (idsFrom g.siteIds p.nSites) q.ids (r.get_relations o) := by
    intro h
    obtain ⟨L, hL, drawn, d1, d2, d3⟩ := hsites h
    obtain ⟨r, hr, hw⟩ := forall₂_at' hs.rels hL
    exact ⟨r, hr, hw.1, fun o => ⟨drawn, d1, d2, (hw.2 o).trans d3⟩⟩
  have hF : 1 ∈ sc.step.rels → ∃ r, w.rels[1]? = some r ∧ Relationship.Reachable env.R r ∧ ∀ o, ∀ x ∈ r.get_relations o,
      x.1 ∈ q.ids ∧ x.2.1 ∈ q.ids ∧ x.2.2 = 1 := by
    intro h
    obtain ⟨L, hL, hm⟩ := hfr h
    obtain ⟨r, hr, hw⟩ := forall₂_at' hs.rels hL
    exact ⟨r, hr, hw.1, fun o x hx => hm x ((hw.2 o).mem_iff.1 hx)⟩
  have hpops : w.pops[0]? = some q := by rw [hs.pops]; rfl
  refine ⟨⟨by rw [hs.pops]; exact hs.wf, ⟨q, hpops, hids⟩, ?_, ?_, hids ▸ ha, ?_, hsite, ?_, ?_, by rw [hs.clock.2]; exact h0⟩,
    ⟨⟨q, hpops, hids, hname, hpop⟩, ?_, ?_, hdur, by rw [hs.pops]; rfl, hs.rels.length_eq.trans hR, s, hs.stories,
      hids ▸ hbeg.1, hbeg.2⟩⟩
  · simp [idsFrom]
  · intro x hx
    rw [hs.stories] at hx
    cases hx
    exact hf
  · intro i hi
    have : i = 0 ∨ i = 1 := by
      revert hi
      cases sc.step <;> simp [Step.rels] <;> omega
    rcases this with rfl | rfl
    · obtain ⟨r, h1, h2, -⟩ := hS hi
      exact ⟨r, h1, h2⟩
    · obtain ⟨r, h1, h2, -⟩ := hF hi
      exact ⟨r, h1, h2⟩
  · intro h o i hi
    obtain ⟨r, h1, h2, h3⟩ := hS h
    obtain ⟨x, hx, rfl⟩ := (h3 o).each (by cases sc.step <;> simp [Step.weights]) i (hids ▸ hi)
    exact ⟨x.2.1, by rw [stockAt_of h1]; exact List.mem_map.2 ⟨x, hx, rfl⟩⟩
  · intro h o x hx
    obtain ⟨r, h1, h2, h3⟩ := hF h
    rw [stockAt_of h1] at hx
    obtain ⟨y, hy, rfl⟩ := List.mem_map.1 hx
    exact hids ▸ (h3 o y hy).2.1
  · intro h
    obtain ⟨r, h1, -, h3⟩ := hS h
    exact ⟨r, h1, hids ▸ h3⟩
  · intro h
    obtain ⟨r, h1, -, h3⟩ := hF h
    exact ⟨r, h1, hids ▸ h3⟩

end Hello
end Trumania
