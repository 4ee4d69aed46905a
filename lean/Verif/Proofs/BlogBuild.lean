import Verif.Proofs.BlogRun
import Verif.Proofs.HelloBuild

/-! Helper lemmas: what the examples of examples/datacamp-blogpost build. -/

namespace Trumania
namespace Blog
open Spec World Circus Cdr
open Shop (Site onWorld_ok)
open Music (length_idsFrom table_new seq_ids)
open Hello (Weighted Lot lot_same lot_drawSeed lot_addGenerator lot_seeded lot_generate lot_createDrawn
  lot_createRelationship lot_addRelations set_last asVal_scalars)
variable {σ : Type} {env : Env σ (AnyGen σ)} {w w' w1 w2 : World σ (AnyGen σ)} {c c' : Circus σ (AnyGen σ)}
  {R : List (List (Val × Val × Rat))} {P : List Population} {T : List (Story σ)} {k : Int × Int}

/-- the persons, with their names and ages -/
theorem createPersons_lot (hsem : env.sem = AnyGen.sem env.R) {n : Nat} {g : Parts (AnyGen σ)} {b : SeqGen} {i : Nat}
    (hg : g.Usual b) {name : String} {seed start step : Int} (hnew : Circus.new env.R name seed start step = .ok c)
    (h : createPersons env n g c = .ok i c') :
    i = 0 ∧ ∃ a y, (∀ i ∈ idsFrom b n, ∃ x, Holds a i x) ∧ (∀ i x, Holds a i x → i ∈ idsFrom b n) ∧
      (∀ i ∈ idsFrom b n, ∃ x, Holds y i x) ∧
      Lot env [] [⟨idsFrom b n, n, [("NAME", a), ("AGE", y)], []⟩] [] (start, step) c'.world := by
  obtain ⟨s0, l0, -, d1, d2⟩ := Shop.new_site (env := env) hnew
  rw [createPersons] at h
  obtain ⟨r1, c1, h1, h⟩ := Act.bind_eq_ok.1 h
  obtain ⟨u1, h1', rfl⟩ := onWorld_ok h1
  have s1 := stage_addGenerator s0.stage h1'
  obtain ⟨a1, rfl, g1⟩ := Shop.after_addGenerator (env := env) h1'
  have l1 : u1.gens.length = 1 := by rw [a1.len, l0]
  obtain ⟨r2, c2, h2, h⟩ := Act.bind_eq_ok.1 h
  obtain ⟨u2, h2', rfl⟩ := onWorld_ok h2
  change Snd.seeded env g.ages u1 = .ok r2 u2 at h2'
  have s2 := stage_seeded s1 h2'
  obtain ⟨a2, -, -⟩ := Shop.after_seeded (env := env) h2'
  obtain ⟨r3, c3, h3, h⟩ := Act.bind_eq_ok.1 h
  obtain ⟨u3, h3', rfl⟩ := onWorld_ok h3
  change Snd.seeded env g.names u2 = .ok r3 u3 at h3'
  have s3 := stage_seeded s2 h3'
  obtain ⟨a3, -, -⟩ := Shop.after_seeded (env := env) h3'
  have l3 : u3.gens.length = 3 := by rw [a3.len, a2.len, l1]
  have hgen : u3.gens[c.world.gens.length]? = some g.personIds := by
    have e1 : u1.gens[c.world.gens.length]? = some g.personIds := by
      rw [g1, List.getElem?_append_right (le_refl _), Nat.sub_self]
      rfl
    have hk : ∀ {mk : Int → AnyGen σ} {r : GenRef} {x y : World σ (AnyGen σ)}, Snd.seeded env mk x = .ok r y →
        ∀ {j : Nat} {g : AnyGen σ}, x.gens[j]? = some g → y.gens[j]? = some g := by
      intro mk r x y h j g hj
      rw [Snd.seeded] at h
      obtain ⟨z, v, k1, k2⟩ := Act.bind_eq_ok.1 h
      obtain ⟨s, -, rfl⟩ := drawSeed_eq_ok k1
      obtain ⟨-, -, e⟩ := Shop.after_addGenerator (env := env) k2
      rw [e]
      exact (List.getElem?_append_left (List.getElem?_eq_some_iff.1 hj).1).trans hj
    exact hk h3' (hk h2' e1)
  obtain ⟨pop, c4, h4, h⟩ := Act.bind_eq_ok.1 h
  obtain ⟨ids, rfl, hids, s4, a4⟩ := Shop.site_createPopulation (c := { c with world := u3 }) ⟨s3, s0.pops, s0.gens⟩
    (.inl (by show u3.gens.length ≤ 4; omega)) h4
  have hids : ids = idsFrom b n := by
    refine seq_ids hsem hg.persons (hids.imp_right ?_)
    rintro ⟨cells, y, hg, hv⟩
    obtain ⟨gg, gg', e5, e6, -⟩ := generate_ref_ok.1 hg
    change u3.gens[c.world.gens.length]? = _ at e5
    rw [hgen] at e5
    cases e5
    exact ⟨cells, gg', e6, hv⟩
  subst hids
  have hlot : Lot env [] [⟨idsFrom b n, n, [], []⟩] [] (start, step) c4.world := by
    refine ⟨?_, s4.stage.pops, s4.stage.wf, List.map_eq_nil_iff.1 s4.stage.stories, ?_, ?_⟩
    · rw [List.forall₂_nil_right_iff.1 s4.stage.rels]
      exact .nil
    · exact a4.clock.1.trans (a3.clock.1.trans (a2.clock.1.trans (a1.clock.1.trans d1)))
    · exact a4.clock.2.trans (a3.clock.2.trans (a2.clock.2.trans (a1.clock.2.trans d2)))
  obtain ⟨x5, c5, h5, h⟩ := Act.bind_eq_ok.1 h
  obtain ⟨u5, h5', rfl⟩ := onWorld_ok h5
  obtain ⟨q, a, values, hq, ha, l5⟩ := lot_createDrawn hlot h5'
  cases hq
  replace l5 : Lot env [] [⟨idsFrom b n, n, [("NAME", a)], []⟩] [] (start, step) u5 := l5
  obtain ⟨x6, c6, h6, h⟩ := Act.bind_eq_ok.1 h
  obtain ⟨u6, h6', rfl⟩ := onWorld_ok h6
  obtain ⟨q, y, values', hq, hy, l6⟩ := lot_createDrawn (w := u5) l5 h6'
  cases hq
  obtain ⟨rfl, rfl⟩ := Act.pure_eq_ok.1 h
  have hz : n = 0 → idsFrom b n = [] := fun e => by rw [e]; rfl
  exact ⟨rfl, a, y, (new_holds ha hz).1, fun i x hx => ((new_holds ha hz).2.1 i x hx).1, (new_holds hy hz).1, l6⟩

theorem addQuote_lot (hsem : env.sem = AnyGen.sem env.R) {pop rel : Nat} {gen : Nat} {q : Rat} {u : Unit}
    {L : List (Val × Val × Rat)} {p : Population} (hp : P[pop]? = some p) (hsize : p.ids.length = p.size)
    (hs : Lot env R P T k w) (hL : R[rel]? = some L)
    (h : addQuote env pop rel (.ref gen) q w = .ok u w') :
    ∃ l : List Val, l.length = p.ids.length ∧
      Lot env (R.set rel (L ++ (p.ids.zip l).map fun y => (y.1, y.2, q))) P T k w' := by
  rw [addQuote] at h
  obtain ⟨p', v1, k1, h1⟩ := Act.bind_eq_ok.1 h
  obtain ⟨hp', rfl⟩ := getPop_eq_ok.1 k1
  rw [hs.pops, hp] at hp'
  cases hp'
  obtain ⟨cells, v2, k2, h1⟩ := Act.bind_eq_ok.1 h1
  obtain ⟨tos, v3, k3, h1⟩ := Act.bind_eq_ok.1 h1
  obtain ⟨k4, rfl⟩ := Act.ofPy_eq_ok.1 k3
  have hlen : tos.length = p.ids.length := by
    obtain ⟨gg, gg', e5, e6, -⟩ := generate_ref_ok.1 k2
    rw [hsem] at e6
    have := AnyGen.C74_as_many_as_asked e6
    rw [asVal_scalars k4, List.length_map] at this
    rw [this, hsize]
  obtain ⟨L', hL', s1, -⟩ := lot_addRelations hlen.symm (lot_generate hs k2) h1
  rw [hL] at hL'
  cases hL'
  exact ⟨tos, hlen, s1⟩

/-- the relationship of the quotes -/
theorem addQuotes_lot (hsem : env.sem = AnyGen.sem env.R) {g : Parts (AnyGen σ)} {pop : Nat} {p : Population} {u : Unit}
    (hp : P[pop]? = some p) (hsize : p.ids.length = p.size) (hs : Lot env R P T k w)
    (h : addQuotes env g pop w = .ok u w') : ∃ L, QuotesGiven p.ids L ∧
      Lot env (R ++ [L]) (P.set pop { p with relationships := p.relationships.set "quotes" R.length }) T k w' := by
  rw [addQuotes] at h
  obtain ⟨gen, w1, h1, h⟩ := Act.bind_eq_ok.1 h
  have s1 := lot_seeded hs h1
  obtain ⟨-, rfl, -⟩ := Shop.after_seeded (env := env) h1
  obtain ⟨rel, w2, h2, h⟩ := Act.bind_eq_ok.1 h
  obtain ⟨p', hp', rfl, s2, -⟩ := lot_createRelationship s1 h2
  rw [hp] at hp'
  cases hp'
  rw [forEach_cons] at h
  obtain ⟨x3, w3, h3, h⟩ := Act.bind_eq_ok.1 h
  rw [forEach_cons] at h
  obtain ⟨x4, w4, h4, h⟩ := Act.bind_eq_ok.1 h
  rw [forEach_cons] at h
  obtain ⟨x5, w5, h5, h⟩ := Act.bind_eq_ok.1 h
  rw [forEach_cons] at h
  obtain ⟨x6, w6, h6, h⟩ := Act.bind_eq_ok.1 h
  obtain ⟨-, rfl⟩ := Act.pure_eq_ok.1 h
  have hq : (P.set pop { p with relationships := p.relationships.set "quotes" R.length })[pop]? =
      some { p with relationships := p.relationships.set "quotes" R.length } := by
    rw [List.getElem?_set_self (List.getElem?_eq_some_iff.1 hp).1]
  have last : ∀ L : List (Val × Val × Rat), (R ++ [L])[R.length]? = some L := fun L => by simp
  obtain ⟨q0, e0, t0⟩ := addQuote_lot hsem hq hsize s2 (last _) h3
  rw [set_last] at t0
  obtain ⟨q1, e1, t1⟩ := addQuote_lot hsem hq hsize t0 (last _) h4
  rw [set_last] at t1
  obtain ⟨q2, e2, t2⟩ := addQuote_lot hsem hq hsize t1 (last _) h5
  rw [set_last] at t2
  obtain ⟨q3, e3, t3⟩ := addQuote_lot hsem hq hsize t2 (last _) h6
  rw [set_last] at t3
  exact ⟨_, ⟨q0, q1, q2, q3, e0, e1, e2, e3, .refl _⟩, t3⟩

/-- each person has at least two quotes -/
theorem QuotesGiven.two {ids : List Val} {L : List (Val × Val × Rat)} (h : QuotesGiven ids L) {i : Val} (hi : i ∈ ids) :
    2 ≤ L.countP fun x => decide (x.1 = i) := by
  obtain ⟨q0, q1, q2, q3, e0, e1, e2, e3, hp⟩ := h
  have key : ∀ (q : List Val) (a : Rat), q.length = ids.length →
      1 ≤ ((ids.zip q).map fun x => (x.1, x.2, a)).countP fun x => decide (x.1 = i) := by
    intro q a hq
    rw [Nat.one_le_iff_ne_zero, ← Nat.pos_iff_ne_zero, List.countP_pos_iff]
    obtain ⟨n, hn, rfl⟩ := List.getElem_of_mem hi
    refine ⟨(ids[n], q[n], a), List.mem_map.2 ⟨(ids[n], q[n]), ?_, rfl⟩, by simp⟩
    rw [← List.getElem_zip (h := by simp; omega)]
    exact List.getElem_mem _
  rw [hp.countP_eq, List.countP_append, List.countP_append, List.countP_append]
  have := key q0 0 e0
  have := key q1 1 e1
  omega

theorem lot_addRelations_list {i : Nat} {f t : List Val} {ws : List Rat} {u : Unit} (hs : Lot env R P T k w)
    (h : addRelations env i f t (.list ws) w = .ok u w') : ∃ L', Lot env (R.set i L') P T k w' := by
  obtain ⟨r, r', h1, h2, rfl⟩ := addRelations_eq_ok h
  obtain ⟨L, hL, hf⟩ := forall₂_at hs.rels h1
  have h2 : AddCall.exec r (.relations f t (.list ws), env.orders) = .ok r' := h2
  exact ⟨r'.get_relations env.orders, Cdr.forall₂_set hs.rels ⟨reachable_addCall env.R hf.1 h2, fun o =>
    r'.get_relations_env_perm _ _⟩, hs.pops, hs.wf, hs.stories, hs.clock⟩

/-- friendships that are mutual, never with oneself, and of weight at least 1 -/
def Mutual (ids : List Val) (L : List (Val × Val × Rat)) : Prop :=
  (∀ i j, links L i j = links L j i ∧ links L i j ≤ 1) ∧ ∀ x ∈ L, x.1 ∈ ids ∧ x.2.1 ∈ ids ∧ x.1 ≠ x.2.1 ∧ 1 ≤ x.2.2

theorem Mutual.perm {ids : List Val} {L L' : List (Val × Val × Rat)} (h : Mutual ids L) (hp : L'.Perm L) :
    Mutual ids L' := by
  have e : ∀ i j, links L' i j = links L i j := fun i j => hp.countP_eq _
  exact ⟨fun i j => by rw [e, e]; exact h.1 i j, fun x hx => h.2 x (hp.mem_iff.1 hx)⟩

/-- the friends -/
theorem er_lot {graph : Nat → Rat → Int → List (Nat × Nat)} (hgr : ∀ n q seed, SimpleGraph n (graph n q seed)) {pop : Nat}
    {p : Population} {degree : Rat} {u : Unit} (hp : P[pop]? = some p) (hs : Lot env R P T k w)
    (h : addErNetwork env graph pop "friends" degree w = .ok u w') : ∃ L, Mutual p.ids L ∧
      Lot env (R ++ [L]) (P.set pop { p with relationships := p.relationships.set "friends" R.length }) T k w' := by
  have hn : ∀ q, w.pops[pop]? = some q → q.ids.Nodup := by
    intro q hq
    rw [hs.pops] at hq
    exact (hs.wf q (List.mem_of_getElem? hq)).ids
  have hn' := (hs.wf p (List.mem_of_getElem? hp)).ids
  have hlot : ∃ L, Lot env (R ++ [L]) (P.set pop { p with relationships := p.relationships.set "friends" R.length }) T k w' := by
    rw [addErNetwork] at h
    obtain ⟨ws, w1, h1, h⟩ := Act.bind_eq_ok.1 h
    have s1 := lot_drawSeed hs h1
    obtain ⟨p', w2, h2, h⟩ := Act.bind_eq_ok.1 h
    obtain ⟨-, rfl⟩ := getPop_eq_ok.1 h2
    obtain ⟨prob, w3, h3, h⟩ := Act.bind_eq_ok.1 h
    obtain ⟨-, rfl⟩ := Act.ofPy_eq_ok.1 h3
    obtain ⟨seed, w4, h4, h⟩ := Act.bind_eq_ok.1 h
    have s4 := lot_drawSeed s1 h4
    obtain ⟨values, w5, h5, h⟩ := Act.bind_eq_ok.1 h
    obtain ⟨-, rfl⟩ := Act.ofPy_eq_ok.1 h5
    obtain ⟨i, w6, h6, h⟩ := Act.bind_eq_ok.1 h
    obtain ⟨p', hp', rfl, s6, -⟩ := lot_createRelationship s4 h6
    rw [hp] at hp'
    cases hp'
    obtain ⟨u1, w7, h7, h⟩ := Act.bind_eq_ok.1 h
    obtain ⟨L1, s7⟩ := lot_addRelations_list s6 h7
    rw [set_last] at s7
    obtain ⟨L2, s8⟩ := lot_addRelations_list s7 h
    rw [set_last] at s8
    exact ⟨L2, s8⟩
  obtain ⟨L, hL⟩ := hlot
  refine ⟨L, ?_, hL⟩
  obtain ⟨p1, r1, seed, n1, f1⟩ := C70_links hgr h hn
  obtain ⟨p2, r2, n2, f2⟩ := C70_symmetric hgr h hn
  have e1 : p1 = p := by
    have := n1.was
    rw [hs.pops, hp] at this
    cases this
    rfl
  subst e1
  have e2 : p2 = p1 := by
    have := n2.was
    rw [hs.pops, hp] at this
    cases this
    rfl
  subst e2
  have e3 : r2 = r1 := by
    have := n2.rels
    rw [n1.rels] at this
    simpa using this.symm
  subst e3
  have hl : w.rels.length = R.length := hs.rels.length_eq
  have hr : w'.rels[R.length]? = some r2 := by rw [n1.rels, ← hl]; simp
  obtain ⟨L', hL', hw⟩ := forall₂_at hL.rels hr
  simp only [List.getElem?_concat_length, Option.some.injEq] at hL'
  subst hL'
  refine Mutual.perm (L := r2.get_relations env.orders) ⟨fun i j => ⟨(f2 env.orders).1 i j, ?_⟩, fun x hx => ?_⟩
    (hw.2 env.orders).symm
  · by_cases hij : i ∈ p2.ids ∧ j ∈ p2.ids
    · obtain ⟨a, ha⟩ := List.mem_iff_getElem?.1 hij.1
      obtain ⟨b, hb⟩ := List.mem_iff_getElem?.1 hij.2
      rw [(f1 env.orders).2 a b i j ha hb]
      split <;> omega
    · rw [links, List.countP_eq_zero.2]
      · omega
      intro x hx hd
      have hd : x.1 = i ∧ x.2.1 = j := by simpa using hd
      have := (f1 env.orders).1 x hx
      exact hij ⟨hd.1 ▸ this.1, hd.2 ▸ this.2.1⟩
  · obtain ⟨h1, h2, h3⟩ := (f1 env.orders).1 x hx
    exact ⟨h1, h2, ((f2 env.orders).2 x hx).2.2, h3⟩

/-- a new story: the first one -/
theorem lot_createStory {cfg : StoryConfig} {n : Nat} {p : Population} (hs : Lot env R P [] k w)
    (hp : P[cfg.population]? = some p) (h : World.createStory env cfg w = .ok n w') : n = 0 ∧ ∃ s : Story σ,
      s.idField = cfg.idField ∧ s.ids = p.ids ∧ s.timerGen = cfg.timerGen ∧ s.autoReset = cfg.autoReset ∧
      Lot env R P [s] k w' := by
  have hp' : w.pops[cfg.population]? = some p := by rw [hs.pops]; exact hp
  obtain ⟨-, q, s, w1, h2, h3, hn', rfl⟩ := createStory_ok h
  rw [hp'] at h2
  cases h2
  obtain ⟨st, s0, w2, -, -, -, k1, k2, k3, k4, k5, k6, k7, k8, k9, k10, -, h5⟩ := newStory_ok h3
  have hids0 : s0.ids = p.ids := by simp [Story.ids, k10, Function.comp_def]
  have hf : s.idField = cfg.idField ∧ s.ids = p.ids ∧ s.timerGen = cfg.timerGen ∧ s.autoReset = cfg.autoReset := by
    rcases h5 with ⟨-, rfl, -⟩ | ⟨-, h5⟩
    · exact ⟨k5, hids0, k6, k7⟩
    · obtain ⟨-, -, h6, h7, -⟩ := resetStory_ok h5
      exact ⟨by rw [h6]; exact k5, h7.trans hids0, by rw [h6]; exact k6, by rw [h6]; exact k7⟩
  rw [k1, hs.stories] at hn'
  refine ⟨hn', s, hf.1, hf.2.1, hf.2.2.1, hf.2.2.2, k2.rels ▸ hs.rels, k2.pops.trans hs.pops, hs.wf, ?_,
    k2.date.trans hs.clock.1, k2.step.trans hs.clock.2⟩
  show w1.stories ++ [s] = [s]
  rw [k1, hs.stories]
  rfl

/-- activities drawn from a list -/
theorem draws_choice (hsem : env.sem = AnyGen.sem env.R) {size : Nat} {order : List (Val × World.StateGens)}
    {drawn : List (Val × List Rat × List Rat)} (h : StateDraws env size w order drawn w') {r : GenRef} {l : List Val}
    {p : Option (List Rat)} {x : σ} (hr : ∀ y ∈ order, y.2.activity = r) (hb : Began env w r (.choice l p x)) :
    ∀ y ∈ drawn, ∀ q ∈ y.2.1, Val.num q ∈ l := by
  induction h with
  | nil w => simp
  | @cons w w1 w2 w3 st g acts backs order drawn ha hb' rest ih =>
    have e : g.activity = r := hr (st, g) (by simp)
    rw [e] at ha
    have hb2 := generate_began hb' (generate_began ha hb)
    intro y hy q hq
    rcases List.mem_cons.1 hy with rfl | hy
    · obtain ⟨v, hv, e⟩ := Shop.began_choice hsem hb ha (.scalar (.num q)) (List.mem_map_of_mem hq)
      cases e
      exact hv
    · exact ih (fun z hz => hr z (by simp [hz])) hb2 y hy q hq

/-- the activities of the members of a new story -/
theorem activities_of (hsem : env.sem = AnyGen.sem env.R) {cfg : StoryConfig} {n : Nat} {p : Population} {s : Story σ}
    (hs : Lot env R P [] k w) (hp : P[cfg.population]? = some p) (h : World.createStory env cfg w = .ok n w')
    (hst : cfg.states = none) {l : List Val} {pr : Option (List Rat)} {x : σ}
    (hb : Began env w cfg.activity (.choice l pr x)) (hs' : w'.stories[n]? = some s) :
    ∀ i ∈ p.ids, ∃ ps y, s.params.get? i = some ps ∧ ps.get? (.str "default") = some y ∧ Val.num y.activity ∈ l := by
  have hp' : w.pops[cfg.population]? = some p := by rw [hs.pops]; exact hp
  obtain ⟨s', order, drawn, w1, d1, d2, d3, d4, d5, d6⟩ :=
    C90_parameters_of_a_new_story env cfg w w' n p hp' (hs.wf p (List.mem_of_getElem? hp)).ids h
  rw [hs'] at d1
  cases d1
  intro i hi
  obtain ⟨m, hm⟩ := List.mem_iff_getElem?.1 hi
  have hord : (Val.str "default", (⟨cfg.activity, .constant (.num 1)⟩ : StateGens)) ∈ order := (d3 _ _).2 (.inl ⟨rfl, rfl⟩)
  have hmem : Val.str "default" ∈ drawn.map Prod.fst := by
    rw [d5]
    exact List.mem_map_of_mem hord
  obtain ⟨⟨st, acts, backs⟩, hd, rfl⟩ := List.mem_map.1 hmem
  have hall := draws_choice hsem d4 (fun y hy => by
    obtain ⟨st, g⟩ := y
    rcases (d3 st g).1 hy with ⟨-, rfl⟩ | hy
    · rfl
    · rw [hst] at hy
      cases hy) hb _ hd
  obtain ⟨l1, l2, l3⟩ := d6 _ _ _ hd
  have hlt := (List.getElem?_eq_some_iff.1 hm).1
  obtain ⟨ps, e1, e2⟩ := l3 m i _ _ hm (List.getElem?_eq_getElem (by rw [l1]; exact hlt))
    (List.getElem?_eq_getElem (by rw [l2]; exact hlt))
  exact ⟨ps, _, e1, e2, hall _ (List.getElem_mem _)⟩

/-- the timer and the activities -/
theorem addActivity_lot {g : Parts (AnyGen σ)} {b : SeqGen} (hg : g.Usual b) {r : GenRef × GenRef} (hs : Lot env R P T k w)
    (h : addActivity env g w = .ok r w') : Lot env R P T k w' ∧ (∃ seed, Began env w' r.1 (g.timer seed)) ∧
      ∃ pr x, Began env w' r.2 (.choice [.num 3, .num 10, .num 20] pr x) := by
  rw [addActivity] at h
  obtain ⟨t, w1, h1, h⟩ := Act.bind_eq_ok.1 h
  have s1 := lot_seeded hs h1
  obtain ⟨-, -, seed1, b1⟩ := Shop.after_seeded (env := env) h1
  obtain ⟨x1, w2, h2, h⟩ := Act.bind_eq_ok.1 h
  obtain ⟨e1, rfl⟩ := Act.ofPy_eq_ok.1 h2
  obtain ⟨x2, w3, h3, h⟩ := Act.bind_eq_ok.1 h
  obtain ⟨e2, rfl⟩ := Act.ofPy_eq_ok.1 h3
  obtain ⟨x3, w4, h4, h⟩ := Act.bind_eq_ok.1 h
  obtain ⟨e3, rfl⟩ := Act.ofPy_eq_ok.1 h4
  obtain ⟨a, w5, h5, h⟩ := Act.bind_eq_ok.1 h
  obtain ⟨rfl, rfl⟩ := Act.pure_eq_ok.1 h
  have key : ∀ q : Rat, q ≠ 0 → CyclicTimer.activity defaultDailyConfig q day = .ok q := fun q hq =>
    C73_activity_per_cycle defaultDailyConfig q hq (by decide)
  rw [key _ (by norm_num)] at e1 e2 e3
  cases e1
  cases e2
  cases e3
  obtain ⟨a5, -, seed5, b5⟩ := Shop.after_seeded (env := env) h5
  obtain ⟨x, hx⟩ := hg.choice [.num 3, .num 10, .num 20] (some [2/10, 7/10, 1/10]) seed5
  rw [hx] at b5
  exact ⟨lot_seeded s1 h5, ⟨seed1, a5.began b1⟩, _, x, b5⟩

theorem relNamed_lot {pop i : Nat} {name : String} {p : Population} (hp : P[pop]? = some p) (hs : Lot env R P T k w)
    (h : Snd.relNamed pop name w = .ok i w') : w' = w ∧ p.relationships.get? name = some i := by
  rw [Snd.relNamed] at h
  obtain ⟨q, w1, h1, h⟩ := Act.bind_eq_ok.1 h
  obtain ⟨hq, rfl⟩ := getPop_eq_ok.1 h1
  rw [hs.pops, hp] at hq
  cases hq
  obtain ⟨h2, rfl⟩ := Act.ofPy_eq_ok.1 h
  exact ⟨rfl, Population.get_eq_ok.1 h2⟩

theorem choiceIn_lot {g : Parts (AnyGen σ)} {b : SeqGen} (hg : g.Usual b) {pop : Nat} {r : GenRef} {p : Population}
    (hp : P[pop]? = some p) (hs : Lot env R P T k w) (h : choiceIn env g pop w = .ok r w') :
    Lot env R P T k w' ∧ (∀ {r g}, Began env w r g → Began env w' r g) ∧ ∃ x, Began env w' r (.choice p.ids none x) := by
  rw [choiceIn] at h
  obtain ⟨q, w1, h1, h⟩ := Act.bind_eq_ok.1 h
  obtain ⟨hq, rfl⟩ := getPop_eq_ok.1 h1
  rw [hs.pops, hp] at hq
  cases hq
  obtain ⟨⟨al, pl⟩, v2, k2, h⟩ := Act.bind_eq_ok.1 h
  obtain ⟨k3, rfl⟩ := Act.ofPy_eq_ok.1 k2
  cases k3
  obtain ⟨a1, -, seed, b1⟩ := Shop.after_seeded (env := env) h
  obtain ⟨x, hx⟩ := hg.choice p.ids none seed
  rw [hx] at b1
  exact ⟨lot_seeded hs h, fun hb => a1.began hb, x, b1⟩

end Blog
end Trumania
