import Verif.Proofs.Networks
import Verif.Spec.Networks
import Verif.Spec.ExampleWorld

/-!
Properties of the relationships filled at creation: stocks (C71), Erdős–Rényi networks (C70).
-/

namespace Trumania
open Circus
variable {σ γ : Type} {env : Env σ γ}

theorem scalar_of_asVal {l : List Cell} {vs : List Val} (h : l.mapM Cell.asVal = .ok vs) :
    l = vs.map Cell.scalar := by
  have hf := mapM_ok_map h
  clear h
  induction hf with
  | nil => rfl
  | @cons a b l vs hab _ ih =>
    rw [List.map_cons, ← ih]
    cases a with
    | list x => rw [Cell.asVal] at hab; cases hab
    | scalar x => rw [Cell.asVal] at hab; cases hab; rfl

/-- the content a first addition gives -/
theorem content_first {R : Rng σ} {seed : Int} {o : Orders} {c : AddCall} {r : Relationship σ}
    (h : AddCall.exec (Relationship.new R seed) (c, o) = .ok r) (o' : Orders) :
    (r.get_relations o').Perm (Spec.added c) := by
  have := C16_step (R := R) (.new seed) h o o'
  have h0 : (Relationship.new R seed).get_relations o = [] := by
    apply List.eq_nil_iff_forall_not_mem.2
    rintro ⟨f, t, w⟩ hx
    rw [mem_get_relations] at hx
    simp [Relationship.new, pairsAt] at hx
  rw [h0, List.nil_append] at this
  exact this

theorem added_scalar {f t : List Val} (hl : f.length = t.length) (q : Rat) :
    Spec.added (.relations f t (.scalar q)) = (f.zip t).map fun x => (x.1, x.2, q) := by
  induction f generalizing t with
  | nil => simp [Spec.added]
  | cons a f ih =>
    cases t with
    | nil => simp at hl
    | cons b t =>
      have := ih (t := t) (by simpa using hl)
      simp only [Spec.added, List.length_cons, List.range_succ_eq_map, List.filterMap_cons,
        List.filterMap_map] at this ⊢
      simp only [List.getElem?_cons_zero, Spec.weightAt, Option.bind_eq_bind, Option.bind_some,
        List.zip_cons_cons, List.map_cons]
      congr 1

theorem added_list {f t : List Val} {ws : List Rat} (hl : f.length = t.length)
    (hw : f.length = ws.length) :
    Spec.added (.relations f t (.list ws)) = f.zip (t.zip ws) := by
  induction f generalizing t ws with
  | nil => simp [Spec.added]
  | cons a f ih =>
    cases t with
    | nil => simp at hl
    | cons b t =>
      cases ws with
      | nil => simp at hw
      | cons q ws =>
        have := ih (t := t) (ws := ws) (by simpa using hl) (by simpa using hw)
        simp only [Spec.added, List.length_cons, List.range_succ_eq_map, List.filterMap_cons,
          List.filterMap_map] at this ⊢
        simp only [List.getElem?_cons_zero, Spec.weightAt, Option.bind_eq_bind, Option.bind_some,
          List.zip_cons_cons]
        congr 1

/-! ### C71 -/

/-- **C71** `create_stock_relationship` creates a relationship whose relations are exactly the generated
items: as many relations to an item as it was generated, each from a member of the population and of
weight 1. The items are those the generator gives when asked for `n * size` values, once. -/
theorem C71_stock {w w' : World σ γ} {pop : Nat} {name : String} {gen : GenRef} {n : Int} {u : Unit}
    (h : createStock env pop name gen n w = .ok u w') :
    ∃ p r items w1, Spec.NewRelationship w w' pop name p r ∧
      World.generate env gen ((n * p.size : Int) : Rat) w = .ok (items.map Cell.scalar) w1 ∧
      w'.clock = w1.clock ∧
      ∀ o, ((r.get_relations o).map fun x => x.2.1).Perm items ∧
        ∀ x ∈ r.get_relations o, x.1 ∈ p.ids ∧ x.2.2 = 1 := by
  rw [createStock] at h
  obtain ⟨i, w1, h1, h⟩ := Act.bind_eq_ok.1 h
  obtain ⟨p, x, s, hs, hp, rfl, rfl⟩ := createRelationship_eq_ok h1
  obtain ⟨p', w2, h2, h⟩ := Act.bind_eq_ok.1 h
  obtain ⟨hp', rfl⟩ := World.getPop_eq_ok.1 h2
  have hlt : pop < w.pops.length := (List.getElem?_eq_some_iff.1 hp).1
  have hpp : p' = { p with relationships := p.relationships.set name w.rels.length } := by
    simp only [withRel, List.getElem?_set_self hlt, Option.some.injEq] at hp'
    exact hp'.symm
  obtain ⟨cells, w3, h3, h⟩ := Act.bind_eq_ok.1 h
  obtain ⟨hw3, hg⟩ := generate_frame h3
  obtain ⟨items, w4, h4, h⟩ := Act.bind_eq_ok.1 h
  obtain ⟨hitems, rfl⟩ := Act.ofPy_eq_ok.1 h4
  obtain ⟨seed, w5, h5, h⟩ := Act.bind_eq_ok.1 h
  obtain ⟨s2, -, rfl⟩ := drawSeed_eq_ok h5
  obtain ⟨asg, w6, h6, h⟩ := Act.bind_eq_ok.1 h
  obtain ⟨hasg, rfl⟩ := Act.ofPy_eq_ok.1 h6
  obtain ⟨r, r', hr, hadd, rfl⟩ := addRelations_eq_ok h
  have hrels : w3.rels = w.rels ++ [Relationship.new env.R x] := by rw [hw3]; rfl
  simp only [hrels, List.getElem?_concat_length, Option.some.injEq] at hr
  subst hr
  obtain ⟨hfst, hsnd⟩ := make_random_assign_ok hasg
  have hids : p'.ids = p.ids := by rw [hpp]
  have hsize : p'.size = p.size := by rw [hpp]
  refine ⟨p, r', items, { w with clock := w3.clock }, ⟨hp, ?_, ?_, ?_⟩, ?_, rfl, ?_⟩
  · show w3.pops = _
    rw [hw3]; rfl
  · simp [hrels]
  · show w3.stories = _
    rw [hw3]; rfl
  · rw [← scalar_of_asVal hitems, ← hsize]
    exact hg w rfl
  · intro o
    have hc : (r'.get_relations o).Perm _ :=
      content_first (c := .relations (asg.map Prod.snd) (asg.map Prod.fst) (.scalar 1)) hadd o
    rw [added_scalar (by simp)] at hc
    constructor
    · refine (hc.map _).trans ?_
      rw [List.map_map, ← hfst]
      have : ((fun x : Val × Val × Rat => x.2.1) ∘ fun x : Val × Val => (x.1, x.2, (1 : Rat))) =
        Prod.snd := rfl
      rw [this, List.map_snd_zip (by simp)]
    · intro y hy
      rw [hc.mem_iff, List.mem_map] at hy
      obtain ⟨z, hz, rfl⟩ := hy
      refine ⟨?_, rfl⟩
      rw [← hids]
      exact hsnd _ (List.of_mem_zip hz).1

/-- **C71** the number of relations is `n * size` when the generator gives as many values as asked. -/
theorem C71_count {w w' : World σ γ} {pop : Nat} {name : String} {gen : GenRef} {n : Int} {u : Unit}
    {p : Population} (hp : w.pops[pop]? = some p)
    (hg : ∀ cells w1, World.generate env gen ((n * p.size : Int) : Rat) w = .ok cells w1 →
      (cells.length : Int) = n * p.size)
    (h : createStock env pop name gen n w = .ok u w') :
    ∃ r, Spec.NewRelationship w w' pop name p r ∧
      ∀ o, ((r.get_relations o).length : Int) = n * p.size := by
  obtain ⟨p', r, items, w1, h1, h2, -, h3⟩ := C71_stock h
  have : p' = p := by have := h1.was; rw [hp] at this; cases this; rfl
  subst this
  refine ⟨r, h1, fun o => ?_⟩
  have := (h3 o).1.length_eq
  rw [List.length_map] at this
  rw [this]
  simpa using hg _ _ h2

/-- **C71** nothing is refused: with a known population, a generator that yields items and a member to
give them to, the relationship is created. -/
theorem C71_total {w w1 : World σ γ} {pop : Nat} {name : String} {gen : GenRef} {n : Int}
    {p : Population} {items : List Val} (hp : w.pops[pop]? = some p)
    (hg : World.generate env gen ((n * p.size : Int) : Rat) w = .ok (items.map Cell.scalar) w1)
    (hm : p.ids ≠ [] ∨ items = []) : ∃ w', createStock env pop name gen n w = .ok () w' := by
  obtain ⟨x, s, -, h1⟩ := createRelationship_ok (env := env) name hp
  have hlt : pop < w.pops.length := (List.getElem?_eq_some_iff.1 hp).1
  rw [createStock, Act.bind_ok h1]
  have h2 : World.getPop pop (withRel env w pop name p x s) = .ok
      { p with relationships := p.relationships.set name w.rels.length }
      (withRel env w pop name p x s) :=
    World.getPop_eq_ok.2 ⟨by simp [withRel, List.getElem?_set_self hlt], rfl⟩
  rw [Act.bind_ok h2]
  have h3 := (generate_frame hg).2 (withRel env w pop name p x s) rfl
  rw [Act.bind_ok h3]
  have h4 : (items.map Cell.scalar).mapM Cell.asVal = .ok items := by
    clear * -
    induction items with
    | nil => rfl
    | cons a l ih => rw [List.map_cons, List.mapM_cons, ih]; rfl
  rw [Act.bind_ok (Act.ofPy_ok h4 _)]
  obtain ⟨y, s', -, h5⟩ := drawSeed_ok (env := env) { withRel env w pop name p x s with clock := w1.clock }
  rw [Act.bind_ok h5]
  obtain ⟨asg, h6⟩ := make_random_assign_total env.R y items p.ids hm
  rw [Act.bind_ok (Act.ofPy_ok h6 _)]
  obtain ⟨r', h7⟩ := (C16_additions_total (R := env.R) (.new x)
    (.relations (asg.map Prod.snd) (asg.map Prod.fst) (.scalar 1)) env.orders).2
    ⟨by simp, by simp⟩
  exact ⟨_, addRelations_ok (r := Relationship.new env.R x) (by simp [withRel]) h7⟩

/-- **C71** the grouped version: each member gets the items of its own bulk, all of weight 1. -/
theorem C71_grouped {w w' : World σ γ} {pop : Nat} {name : String} {gen : GenRef} {u : Unit}
    (h : createStockGrp env pop name gen w = .ok u w') :
    ∃ p r bulks w1, Spec.NewRelationship w w' pop name p r ∧
      World.generate env gen (p.size : Rat) w = .ok (bulks.map Cell.list) w1 ∧
      w'.clock = w1.clock ∧
      ∀ o, (r.get_relations o).Perm
        ((p.ids.zip bulks).flatMap fun x => x.2.map fun t => (x.1, t, 1)) := by
  rw [createStockGrp] at h
  obtain ⟨i, w1, h1, h⟩ := Act.bind_eq_ok.1 h
  obtain ⟨p, x, s, hs, hp, rfl, rfl⟩ := createRelationship_eq_ok h1
  obtain ⟨p', w2, h2, h⟩ := Act.bind_eq_ok.1 h
  obtain ⟨hp', rfl⟩ := World.getPop_eq_ok.1 h2
  have hlt : pop < w.pops.length := (List.getElem?_eq_some_iff.1 hp).1
  have hpp : p' = { p with relationships := p.relationships.set name w.rels.length } := by
    simp only [withRel, List.getElem?_set_self hlt, Option.some.injEq] at hp'
    exact hp'.symm
  obtain ⟨cells, w3, h3, h⟩ := Act.bind_eq_ok.1 h
  obtain ⟨hw3, hg⟩ := generate_frame h3
  obtain ⟨bulks, w4, h4, h⟩ := Act.bind_eq_ok.1 h
  obtain ⟨hbulks, rfl⟩ := Act.ofPy_eq_ok.1 h4
  obtain ⟨r, r', hr, hadd, rfl⟩ := addGroupedRelations_eq_ok h
  have hrels : w3.rels = w.rels ++ [Relationship.new env.R x] := by rw [hw3]; rfl
  simp only [hrels, List.getElem?_concat_length, Option.some.injEq] at hr
  subst hr
  have hids : p'.ids = p.ids := by rw [hpp]
  have hsize : p'.size = p.size := by rw [hpp]
  have hcells : cells = bulks.map Cell.list := by
    have hf := mapM_ok_map hbulks
    clear * - hf
    induction hf with
    | nil => rfl
    | @cons a b l vs hab _ ih =>
      rw [List.map_cons, ← ih]
      cases a with
      | scalar x => rw [Cell.asList] at hab; cases hab
      | list x => rw [Cell.asList] at hab; cases hab; rfl
  refine ⟨p, r', bulks, { w with clock := w3.clock }, ⟨hp, ?_, ?_, ?_⟩, ?_, rfl, ?_⟩
  · show w3.pops = _
    rw [hw3]; rfl
  · simp [hrels]
  · show w3.stories = _
    rw [hw3]; rfl
  · rw [← hcells, ← hsize]
    exact hg w rfl
  · intro o
    rw [hids] at hadd
    exact content_first (c := .grouped p.ids bulks) hadd o

/-! Six items for three members. -/

example : ((createStock exEnv 0 "NAME" (.ref 0) 2).world? exWorld).map (fun w =>
    (w.pops.map fun p => Dict.get? p.relationships "NAME",
      w.rels.map fun r => r.get_relations Orders.a)) =
    some ([some 0], [[(.str "a", .str "id_001", 1), (.str "a", .str "id_004", 1),
      (.str "b", .str "id_002", 1), (.str "b", .str "id_005", 1), (.str "c", .str "id_000", 1),
      (.str "c", .str "id_003", 1)]]) := by decide +kernel

example : ((createStockGrp exEnv 0 "BULKS" (.constant (.list [.str "x", .str "y"]))).world?
    exWorld).map (fun w => w.rels.map fun r => r.get_relations Orders.a) =
    some [[(.str "a", .str "x", 1), (.str "a", .str "y", 1), (.str "b", .str "x", 1),
      (.str "b", .str "y", 1), (.str "c", .str "x", 1), (.str "c", .str "y", 1)]] := by decide +kernel

/-! ### C70 -/

theorem erNetwork_ok {ids : List Val} {edges : List (Nat × Nat)} {values : List (Val × Val)}
    (h : erNetwork ids edges = .ok values) :
    List.Forall₂ (fun e v => ids[e.1]? = some v.1 ∧ ids[e.2]? = some v.2) edges values := by
  rw [erNetwork] at h
  refine (mapM_ok_map h).imp ?_
  rintro ⟨i, j⟩ v hv
  cases h1 : nth ids i with
  | error e => simp only [h1] at hv; cases hv
  | ok a =>
    cases h2 : nth ids j with
    | error e => simp only [h1, h2] at hv; cases hv
    | ok b =>
      simp only [h1, h2] at hv
      cases hv
      exact ⟨nth_ok h1, nth_ok h2⟩

theorem erNetwork_total {ids : List Val} {edges : List (Nat × Nat)}
    (h : ∀ e ∈ edges, e.1 < ids.length ∧ e.2 < ids.length) :
    ∃ values, erNetwork ids edges = .ok values := by
  rw [erNetwork]
  induction edges with
  | nil => exact ⟨[], rfl⟩
  | cons e edges ih =>
    obtain ⟨vs, hvs⟩ := ih fun e he => h e (List.mem_cons_of_mem _ he)
    obtain ⟨h1, h2⟩ := h e List.mem_cons_self
    refine ⟨(ids[e.1], ids[e.2]) :: vs, ?_⟩
    rw [List.mapM_cons, hvs]
    simp only [nth, List.getElem?_eq_getElem h1, List.getElem?_eq_getElem h2]
    rfl

theorem idx_unique {ids : List Val} (hn : ids.Nodup) {i j : Nat} {a : Val} (hi : ids[i]? = some a)
    (hj : ids[j]? = some a) : i = j := by
  obtain ⟨h1, h1'⟩ := List.getElem?_eq_some_iff.1 hi
  obtain ⟨h2, h2'⟩ := List.getElem?_eq_some_iff.1 hj
  exact (List.Nodup.getElem_inj_iff hn).1 (h1'.trans h2'.symm)

theorem count_values {ids : List Val} (hn : ids.Nodup) {edges : List (Nat × Nat)}
    {values : List (Val × Val)}
    (h : List.Forall₂ (fun e v => ids[e.1]? = some v.1 ∧ ids[e.2]? = some v.2) edges values)
    {i j : Nat} {a b : Val} (hi : ids[i]? = some a) (hj : ids[j]? = some b) :
    values.count (a, b) = edges.count (i, j) := by
  induction h with
  | nil => rfl
  | @cons e v edges values hev _ ih =>
    rw [List.count_cons, List.count_cons, ih]
    congr 1
    have : (v == (a, b)) = (e == (i, j)) := by
      rw [Bool.eq_iff_iff, beq_iff_eq, beq_iff_eq]
      constructor
      · rintro rfl
        exact Prod.ext (idx_unique hn hev.1 hi) (idx_unique hn hev.2 hj)
      · rintro rfl
        exact Prod.ext (Option.some.inj (hev.1.symm.trans hi)) (Option.some.inj (hev.2.symm.trans hj))
    rw [this]

theorem count_swap (values : List (Val × Val)) (a b : Val) :
    (values.map Prod.swap).count (a, b) = values.count (b, a) := by
  rw [List.count, List.countP_map, List.count]
  apply List.countP_congr
  rintro ⟨x, y⟩ _
  simp [Prod.ext_iff, and_comm]

/-- the relations an ER network is asked to add, without their weights -/
theorem er_content {values : List (Val × Val)} {w1 w2 : List Rat} {R : Rng σ} {seed : Int}
    {o1 o2 : Orders} {r r' : Relationship σ} (h1 : values.length = w1.length)
    (h2 : values.length = w2.length)
    (ha : (Relationship.new R seed).add_relations o1 (values.map Prod.fst) (values.map Prod.snd)
      (.list w1) = .ok r)
    (hb : r.add_relations o2 (values.map Prod.snd) (values.map Prod.fst) (.list w2) = .ok r')
    (o : Orders) :
    ((r'.get_relations o).map fun x => (x.1, x.2.1)).Perm (values ++ values.map Prod.swap) ∧
      ∀ x ∈ r'.get_relations o, x.2.2 ∈ w1 ∨ x.2.2 ∈ w2 := by
  have hc1 : (r.get_relations o).Perm _ := content_first
    (c := .relations (values.map Prod.fst) (values.map Prod.snd) (.list w1)) ha o
  have hr : Relationship.Reachable R r := .add o1 (.new seed) ha
  have hc2 : (r'.get_relations o).Perm _ := C16_step
    (c := .relations (values.map Prod.snd) (values.map Prod.fst) (.list w2)) R hr hb o o
  rw [added_list (by simp) (by simpa using h1)] at hc1
  rw [added_list (by simp) (by simpa using h2)] at hc2
  have hz : ∀ (f t : List Val) (ws : List Rat), f.length = t.length → f.length = ws.length →
      (f.zip (t.zip ws)).map (fun x => (x.1, x.2.1)) = f.zip t := by
    intro f
    induction f with
    | nil => intro t ws _ _; rfl
    | cons a f ih =>
      intro t ws ht hw
      match t, ws, ht, hw with
      | b :: t, q :: ws, ht, hw =>
        simp only [List.zip_cons_cons, List.map_cons]
        rw [ih t ws (by simpa using ht) (by simpa using hw)]
  have hs : (values.map Prod.snd).zip (values.map Prod.fst) = values.map Prod.swap := by
    clear * -
    induction values with
    | nil => rfl
    | cons v values ih =>
      rw [List.map_cons, List.map_cons, List.map_cons, List.zip_cons_cons, ih]; rfl
  have hzw : ∀ (f t : List Val) (ws : List Rat), ∀ x ∈ f.zip (t.zip ws), x.2.2 ∈ ws :=
    fun f t ws x hx => (List.of_mem_zip (List.of_mem_zip hx).2).2
  constructor
  · refine (hc2.map _).trans ?_
    rw [List.map_append, hz _ _ _ (by simp) (by simpa using h2), hs]
    refine List.Perm.append_right _ ((hc1.map _).trans ?_)
    rw [hz _ _ _ (by simp) (by simpa using h1), zip_fst_snd]
  · intro x hx
    rw [hc2.mem_iff, List.mem_append] at hx
    rcases hx with hx | hx
    · rw [hc1.mem_iff] at hx
      exact .inl (hzw _ _ _ x hx)
    · exact .inr (hzw _ _ _ x hx)

theorem links_eq_count (content : List (Val × Val × Rat)) (a b : Val) :
    Spec.links content a b = (content.map fun x => (x.1, x.2.1)).count (a, b) := by
  rw [Spec.links, List.count, List.countP_map]
  apply List.countP_congr
  intro x _
  simp [Prod.ext_iff]

theorem pareto_one {R : Rng σ} {g : σ} {n : Nat} :
    (paretoGenerate R 1 false g n).1.length = n ∧ ∀ x ∈ (paretoGenerate R 1 false g n).1, 1 ≤ x := by
  have h1 := R.pareto_length g n
  have h2 := R.pareto_range g n
  simp only [paretoGenerate]
  constructor
  · simp [h1]
  · intro x hx
    simp only [Bool.false_eq_true, if_false, mul_one, List.mem_map] at hx
    obtain ⟨y, hy, rfl⟩ := hx
    have := h2 y hy
    linarith

/-- **C70** `add_er_social_network_relationship` creates a relationship linking the members as the
drawn graph does: two members are linked, once in each direction, if and only if the graph has an
edge between their positions. All relations are between members, and of weight at least 1. -/
theorem C70_links {graph : Nat → Rat → Int → List (Nat × Nat)} {w w' : World σ γ} {pop : Nat}
    {name : String} {degree : Rat} {u : Unit}
    (hs : ∀ n q seed, Spec.SimpleGraph n (graph n q seed))
    (h : addErNetwork env graph pop name degree w = .ok u w')
    (hn : ∀ p, w.pops[pop]? = some p → p.ids.Nodup) :
    ∃ p r seed, Spec.NewRelationship w w' pop name p r ∧ ∀ o,
      (∀ x ∈ r.get_relations o, x.1 ∈ p.ids ∧ x.2.1 ∈ p.ids ∧ 1 ≤ x.2.2) ∧
      ∀ (i j : Nat) a b, p.ids[i]? = some a → p.ids[j]? = some b →
        Spec.links (r.get_relations o) a b =
          if (i, j) ∈ graph p.ids.length (degree / p.ids.length) seed ∨
            (j, i) ∈ graph p.ids.length (degree / p.ids.length) seed then 1 else 0 := by
  rw [addErNetwork] at h
  obtain ⟨ws, w1, h1, h⟩ := Act.bind_eq_ok.1 h
  obtain ⟨s1, -, rfl⟩ := drawSeed_eq_ok h1
  obtain ⟨p, w2, h2, h⟩ := Act.bind_eq_ok.1 h
  obtain ⟨hp, rfl⟩ := World.getPop_eq_ok.1 h2
  obtain ⟨prob, w3, h3, h⟩ := Act.bind_eq_ok.1 h
  obtain ⟨hprob, rfl⟩ := Act.ofPy_eq_ok.1 h3
  obtain ⟨seed, w4, h4, h⟩ := Act.bind_eq_ok.1 h
  obtain ⟨s2, -, rfl⟩ := drawSeed_eq_ok h4
  obtain ⟨values, w5, h5, h⟩ := Act.bind_eq_ok.1 h
  obtain ⟨hval, rfl⟩ := Act.ofPy_eq_ok.1 h5
  obtain ⟨i, w6, h6, h⟩ := Act.bind_eq_ok.1 h
  obtain ⟨p', x, s3, -, hp', rfl, rfl⟩ := createRelationship_eq_ok h6
  cases hp.symm.trans hp'
  obtain ⟨u1, w7, h7, h⟩ := Act.bind_eq_ok.1 h
  obtain ⟨r, r1, hr, hadd1, rfl⟩ := addRelations_eq_ok h7
  obtain ⟨r2, r', hr2, hadd2, rfl⟩ := addRelations_eq_ok h
  simp only [withRel, List.getElem?_concat_length, Option.some.injEq] at hr
  subst hr
  simp only [withRel] at hr2
  rw [List.getElem?_set_self (by simp)] at hr2
  cases hr2
  have hpr : prob = degree / p.ids.length := by
    rw [erProbability] at hprob
    split at hprob
    · cases hprob
    · cases hprob; rfl
  subst hpr
  have hnd := hn p hp
  have hf := erNetwork_ok hval
  have hg := hs p.ids.length (degree / p.ids.length) seed
  have l1 := (pareto_one (R := env.R) (g := env.R.seed ws) (n := values.length))
  have l2 := (pareto_one (R := env.R)
    (g := (paretoGenerate env.R 1 false (env.R.seed ws) values.length).2) (n := values.length))
  have hcontent := er_content l1.1.symm l2.1.symm hadd1 hadd2
  refine ⟨p, r', seed, ⟨hp, rfl, by simp [withRel], rfl⟩, fun o => ⟨?_, ?_⟩⟩
  · intro y hy
    have hmem : (y.1, y.2.1) ∈ values ++ values.map Prod.swap :=
      (hcontent o).1.mem_iff.1 (List.mem_map_of_mem hy)
    have hv : ∀ v ∈ values, v.1 ∈ p.ids ∧ v.2 ∈ p.ids := by
      intro v hv
      obtain ⟨k, hk, rfl⟩ := List.getElem_of_mem hv
      have := (List.forall₂_iff_get.1 hf).2 k (by rw [hf.length_eq]; exact hk) hk
      exact ⟨List.mem_of_getElem? this.1, List.mem_of_getElem? this.2⟩
    have hw : 1 ≤ y.2.2 := by
      rcases (hcontent o).2 y hy with h | h
      · exact l1.2 _ h
      · exact l2.2 _ h
    rcases List.mem_append.1 hmem with h | h
    · exact ⟨(hv _ h).1, (hv _ h).2, hw⟩
    · obtain ⟨v, hvm, hve⟩ := List.mem_map.1 h
      have h1 : v.2 = y.1 := congrArg Prod.fst hve
      have h2 : v.1 = y.2.1 := congrArg Prod.snd hve
      rw [← h1, ← h2]
      exact ⟨(hv _ hvm).2, (hv _ hvm).1, hw⟩
  · intro i j a b hi hj
    rw [links_eq_count, (hcontent o).1.count_eq, List.count_append,
      count_swap,
      count_values hnd hf hi hj, count_values hnd hf hj hi]
    rw [hg.once.count, hg.once.count]
    by_cases h1 : (i, j) ∈ graph p.ids.length (degree / p.ids.length) seed
    · have h2 := hg.oneDirection _ h1
      simp [h1, h2]
    · simp [h1]

/-- **C70** the network is symmetric, links members only, and never a member with itself. -/
theorem C70_symmetric {graph : Nat → Rat → Int → List (Nat × Nat)} {w w' : World σ γ} {pop : Nat}
    {name : String} {degree : Rat} {u : Unit}
    (hs : ∀ n q seed, Spec.SimpleGraph n (graph n q seed))
    (h : addErNetwork env graph pop name degree w = .ok u w')
    (hn : ∀ p, w.pops[pop]? = some p → p.ids.Nodup) :
    ∃ p r, Spec.NewRelationship w w' pop name p r ∧ ∀ o,
      (∀ a b, Spec.links (r.get_relations o) a b = Spec.links (r.get_relations o) b a) ∧
      ∀ x ∈ r.get_relations o, x.1 ∈ p.ids ∧ x.2.1 ∈ p.ids ∧ x.1 ≠ x.2.1 := by
  obtain ⟨p, r, seed, h1, h2⟩ := C70_links hs h hn
  refine ⟨p, r, h1, fun o => ?_⟩
  obtain ⟨h3, h4⟩ := h2 o
  have hzero : ∀ a b, a ∉ p.ids ∨ b ∉ p.ids → Spec.links (r.get_relations o) a b = 0 := by
    intro a b hab
    rw [Spec.links, List.countP_eq_zero]
    intro x hx hd
    obtain ⟨rfl, rfl⟩ := of_decide_eq_true hd
    rcases hab with hab | hab
    · exact hab (h3 x hx).1
    · exact hab (h3 x hx).2.1
  constructor
  · intro a b
    by_cases ha : a ∈ p.ids
    · by_cases hb : b ∈ p.ids
      · obtain ⟨i, hi⟩ := List.mem_iff_getElem?.1 ha
        obtain ⟨j, hj⟩ := List.mem_iff_getElem?.1 hb
        rw [h4 i j a b hi hj, h4 j i b a hj hi]
        simp only [or_comm]
      · rw [hzero a b (.inr hb), hzero b a (.inl hb)]
    · rw [hzero a b (.inl ha), hzero b a (.inr ha)]
  · intro x hx
    refine ⟨(h3 x hx).1, (h3 x hx).2.1, fun he => ?_⟩
    obtain ⟨i, hi⟩ := List.mem_iff_getElem?.1 (h3 x hx).1
    have h5 := h4 i i x.1 x.1 hi hi
    have hpos : 0 < Spec.links (r.get_relations o) x.1 x.1 := by
      rw [Spec.links, List.countP_pos_iff]
      exact ⟨x, hx, by simp [← he]⟩
    rw [h5] at hpos
    split at hpos
    · rename_i hg
      have := (hs p.ids.length (degree / p.ids.length) seed).noLoop
      rcases hg with hg | hg <;> exact this _ hg rfl
    · exact absurd hpos (by decide)

/-- **C70** the network is created for any non-empty population; an empty population raises
`ZeroDivisionError`. -/
theorem C70_total {graph : Nat → Rat → Int → List (Nat × Nat)} {w : World σ γ} {pop : Nat}
    {name : String} {degree : Rat} (hs : ∀ n q seed, Spec.SimpleGraph n (graph n q seed))
    {p : Population} (hp : w.pops[pop]? = some p) :
    if p.ids = [] then ∃ w', addErNetwork env graph pop name degree w = .error .zeroDivisionError w'
    else ∃ w', addErNetwork env graph pop name degree w = .ok () w' := by
  obtain ⟨ws, s1, -, h1⟩ := drawSeed_ok (env := env) w
  have h2 : World.getPop pop { w with seeder := s1 } = .ok p { w with seeder := s1 } :=
    World.getPop_eq_ok.2 ⟨hp, rfl⟩
  split
  · rename_i he
    refine ⟨{ w with seeder := s1 }, ?_⟩
    rw [addErNetwork, Act.bind_ok h1]
    refine (Act.bind_ok h2).trans ?_
    refine Act.bind_err (Act.ofPy_error ?_ _)
    simp [erProbability, he]
  · rename_i he
    have h3 : erProbability degree p.ids.length = .ok (degree / p.ids.length) := by
      simp [erProbability, he]
    obtain ⟨seed, s2, -, h4⟩ := drawSeed_ok (env := env) { w with seeder := s1 }
    obtain ⟨values, h5⟩ := erNetwork_total
      (hs p.ids.length (degree / p.ids.length) seed).nodes
    obtain ⟨x, s3, -, h6⟩ := createRelationship_ok (env := env) (pop := pop)
      (w := { w with seeder := s2 }) name hp
    have l1 := (pareto_one (R := env.R) (g := env.R.seed ws) (n := values.length))
    have l2 := (pareto_one (R := env.R)
      (g := (paretoGenerate env.R 1 false (env.R.seed ws) values.length).2) (n := values.length))
    obtain ⟨r1, h7⟩ := (C16_additions_total (R := env.R) (.new x)
      (.relations (values.map Prod.fst) (values.map Prod.snd)
        (.list (paretoGenerate env.R 1 false (env.R.seed ws) values.length).1)) env.orders).2
      ⟨by simp, by simp [l1.1]⟩
    have hr1 : Relationship.Reachable env.R r1 := reachable_addCall env.R (.new x) h7
    obtain ⟨r2, h8⟩ := (C16_additions_total (R := env.R) hr1
      (.relations (values.map Prod.snd) (values.map Prod.fst)
        (.list (paretoGenerate env.R 1 false
          (paretoGenerate env.R 1 false (env.R.seed ws) values.length).2 values.length).1))
        env.orders).2 ⟨by simp, by simp [l2.1]⟩
    have e7 := addRelations_ok (env := env) (i := w.rels.length)
      (w := withRel env { w with seeder := s2 } pop name p x s3) (by simp [withRel]) h7
    obtain ⟨w8, e8⟩ : ∃ w8, addRelations env w.rels.length (values.map Prod.snd)
        (values.map Prod.fst) (.list (paretoGenerate env.R 1 false
          (paretoGenerate env.R 1 false (env.R.seed ws) values.length).2 values.length).1)
        { withRel env { w with seeder := s2 } pop name p x s3 with
          rels := (withRel env { w with seeder := s2 } pop name p x s3).rels.set w.rels.length r1 } =
        .ok () w8 :=
      ⟨_, addRelations_ok (r := r1)
        (by simp only [withRel]; rw [List.getElem?_set_self (by simp)]) h8⟩
    refine ⟨w8, ?_⟩
    rw [addErNetwork, Act.bind_ok h1]
    refine (Act.bind_ok h2).trans ?_
    rw [Act.bind_ok (Act.ofPy_ok h3 _), Act.bind_ok h4, Act.bind_ok (Act.ofPy_ok h5 _)]
    exact (Act.bind_ok h6).trans ((Act.bind_ok e7).trans e8)

/-- the path graph -/
def pathGraph (n : Nat) (_ : Rat) (_ : Int) : List (Nat × Nat) :=
  (List.range (n - 1)).map fun i => (i, i + 1)

/-- the hypothesis on the graphs holds of a non-trivial one -/
example : ∀ n q seed, Spec.SimpleGraph n (pathGraph n q seed) := by
  intro n q seed
  constructor
  · simp only [pathGraph, List.mem_map, List.mem_range]
    rintro _ ⟨i, hi, rfl⟩
    omega
  · simp only [pathGraph, List.mem_map, List.mem_range]
    rintro _ ⟨i, hi, rfl⟩
    omega
  · exact List.Nodup.map (fun a b h => (Prod.ext_iff.1 h).1) List.nodup_range
  · simp only [pathGraph, List.mem_map, List.mem_range]
    rintro _ ⟨i, hi, rfl⟩ ⟨j, hj, h⟩
    have := Prod.ext_iff.1 h
    simp only at this
    omega

/-! the weights of the two directions of an edge are drawn separately, and differ -/

example : exPop.ids.Nodup ∧ ((addErNetwork exEnv pathGraph 0 "NAME" 2).world? exWorld).map (fun w =>
    (w.pops.map fun p => Dict.get? p.relationships "NAME",
      w.rels.map fun r => r.get_relations Orders.a)) =
    some ([some 0], [[(.str "a", .str "b", 2), (.str "b", .str "c", 3), (.str "b", .str "a", 4),
      (.str "c", .str "b", 5)]]) := by decide +kernel

end Trumania
