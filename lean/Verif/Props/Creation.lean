import Verif.Props.Circus
import Verif.Props.Derived
import Verif.Props.GeneratorSizes
import Verif.Props.Population

/-!
# C52, C53, C58: what new populations and new attributes hold
-/

namespace Trumania
open Spec World
variable {σ γ : Type} {env : Env σ γ} {R : Rng σ}

/-! ### C53: new attributes -/

/-- **C53** an attribute created with initial values: the i-th member has the i-th value, nobody else
has one, and the rest of the population is as before. Reading it back for all the members gives the
values themselves. -/
theorem C53_created_values {p : Population} (hp : Population.WF p) (hs : p.size ≠ 0) (name : String)
    {values : List Cell} (hl : values.length = p.ids.length) :
    ∃ p', p.createAttribute name values = .ok p' ∧ p'.ids = p.ids ∧ p'.size = p.size ∧
      p'.relationships = p.relationships ∧ p'.getAttributeValues name p.ids = .ok values ∧
      (∀ n, n ≠ name → p'.getAttribute n = p.getAttribute n) ∧
      ∃ a, p'.getAttribute name = .ok a ∧
        ∀ i c, Holds a i c ↔ ∃ k : Nat, p.ids[k]? = some i ∧ values[k]? = some c := by
  have hn : (Attribute.new p.size p.ids values) = .ok ⟨p.ids.zip values⟩ := by
    rw [Attribute.new, if_neg hs, if_neg (by simp [hl])]
  have hone : OneValueEach ⟨p.ids.zip values⟩ := by
    simp only [OneValueEach]
    rw [List.map_fst_zip (by omega)]
    exact hp.ids
  have hget : ∀ n, ({ p with attributes := p.attributes.set name ⟨p.ids.zip values⟩ } :
      Population).getAttribute n =
      if name = n then .ok ⟨p.ids.zip values⟩ else p.getAttribute n := by
    intro n
    simp only [Population.getAttribute, Dict.get, Dict.get?_set]
    by_cases h : name = n
    · rw [if_pos h, if_pos h]
    · rw [if_neg h, if_neg h]
  refine ⟨{ p with attributes := p.attributes.set name ⟨p.ids.zip values⟩ }, ?_, rfl, rfl, rfl, ?_, ?_,
    ⟨p.ids.zip values⟩, ?_, ?_⟩
  · rw [Population.createAttribute, hn]; rfl
  · rw [Population.getAttributeValues, hget, if_pos rfl]
    refine (C53_get_values hone).2 ?_
    rw [List.forall₂_iff_zip]
    exact ⟨hl.symm, fun h => h⟩
  · intro n hne
    rw [hget, if_neg (Ne.symm hne)]
  · rw [hget, if_pos rfl]
  · intro i c
    simp only [Holds, List.mem_iff_getElem?, List.getElem?_zip_eq_some]

example : (⟨[.str "a", .str "b"], 2, [], []⟩ : Population).createAttribute "AGE" [.num 3, .num 4] =
    .ok ⟨[.str "a", .str "b"], 2, [("AGE", ⟨[(.str "a", .num 3), (.str "b", .num 4)]⟩)], []⟩ := by
  decide +kernel

/-- **C53** initial values in a wrong number are refused. -/
theorem C53_wrong_number_of_values (p : Population) (hs : p.size ≠ 0) (name : String)
    {values : List Cell} (hl : values.length ≠ p.ids.length) :
    p.createAttribute name values = .error .valueError := by
  rw [Population.createAttribute, Attribute.new, if_neg hs, if_pos hl]
  rfl

/-- **C53** an attribute initialized from a relationship: each member that has relations holds one of
its `to`s, and nobody else holds anything. The relations are as before. -/
theorem C53_created_from_relationship {r r' : Relationship σ} (hr : Relationship.Reachable R r) (o : Orders)
    {size : Nat} (hs : size ≠ 0) {a : Attribute}
    (h : Attribute.fromRelationship R size r = .ok (a, r')) :
    OneValueEach a ∧ (∀ i, Has (r.get_relations o) i → Knows a i) ∧
      (∀ i c, Holds a i c → ∃ t w, c = .scalar t ∧ (i, t, w) ∈ r.get_relations o) ∧
      ∀ o', (r'.get_relations o').Perm (r.get_relations o) := by
  rw [Attribute.fromRelationship, if_neg hs] at h
  obtain ⟨⟨rows, r1⟩, h1, h⟩ := bind_eq_ok.1 h
  cases h
  have hone := Attribute.select_one_all_froms hr h1
  obtain ⟨reqs, hn1, hn2, hall, outs, rfl, hf⟩ := C19_select_one_none R hr o h1
  obtain ⟨-, outs', hs'⟩ := _root_.Trumania.select_one_ok R hr.gwf h1
  refine ⟨?_, ?_, ?_, ?_⟩
  · simp only [OneValueEach, List.map_map]
    exact hone
  · intro i hi
    obtain ⟨q, hq, rfl⟩ := List.mem_map.1 (hall i hi)
    obtain ⟨out, hout, hans⟩ := forall₂_exists_right hf hq
    obtain ⟨row, t, w, rfl, -, e, -, -⟩ := hans.1 hi
    exact ⟨_, List.mem_map.2 ⟨row, List.mem_filterMap.2 ⟨_, hout, rfl⟩, by rw [e]⟩⟩
  · rintro i c hc
    obtain ⟨row, hrow, he⟩ := List.mem_map.1 hc
    obtain ⟨out, hout, he'⟩ := List.mem_filterMap.1 hrow
    obtain ⟨q, hq, hans⟩ := forall₂_exists_left hf hout
    cases he
    by_cases hh : Has (r.get_relations o) q.2
    · obtain ⟨row', t, w, e1, -, e2, e3, hm⟩ := hans.1 hh
      obtain rfl : row' = row := by rw [e1] at he'; exact Option.some.inj he'
      exact ⟨t, w, by rw [e3]; rfl, by rw [e2]; exact hm⟩
    · have := hans.2 hh
      rw [if_pos rfl] at this
      rw [this] at he'
      cases he'
  · intro o'
    rw [get_relations_perm_iff, hs'.keep rfl]
    intro f
    rw [get_relations_none_rowsOf]

example : ((Attribute.fromRelationship Rng.counter 2
    (⟨1, 1, [(.str "a", ⟨[.str "x", .str "y"], [1, 1]⟩), (.str "b", ⟨[.str "z"], [1]⟩)]⟩ :
      Relationship Nat)).map (·.1.ids)) = .ok [.str "a", .str "b"] := by
  decide +kernel

/-- **C53** `transform_inplace` replaces each value by its image, and keeps the members. -/
theorem C53_transform (a : Attribute) (f : Cell → Cell) :
    (∀ i, Knows (a.transform f) i ↔ Knows a i) ∧
      (∀ i c, Holds (a.transform f) i c ↔ ∃ c₀, Holds a i c₀ ∧ c = f c₀) ∧
      (OneValueEach a → OneValueEach (a.transform f) ∧
        ∀ l cs, a.getValues l = .ok cs → (a.transform f).getValues l = .ok (cs.map f)) := by
  have hh : ∀ i c, Holds (a.transform f) i c ↔ ∃ c₀, Holds a i c₀ ∧ c = f c₀ := by
    intro i c
    simp only [Holds, Attribute.transform, List.mem_map]
    constructor
    · rintro ⟨⟨j, d⟩, hm, he⟩
      cases he
      exact ⟨d, hm, rfl⟩
    · rintro ⟨d, hm, rfl⟩
      exact ⟨(i, d), hm, rfl⟩
  refine ⟨?_, hh, ?_⟩
  · intro i
    simp only [Knows, hh]
    constructor
    · rintro ⟨c, d, hd, -⟩; exact ⟨d, hd⟩
    · rintro ⟨d, hd⟩; exact ⟨f d, d, hd, rfl⟩
  · intro ha
    have ht : OneValueEach (a.transform f) := by
      simp only [OneValueEach, Attribute.transform, List.map_map]
      exact ha
    refine ⟨ht, fun l cs h => ?_⟩
    rw [C53_get_values ha] at h
    rw [C53_get_values ht]
    rw [List.forall₂_map_right_iff]
    exact h.imp fun i c hc => (hh i (f c)).2 ⟨c, hc, rfl⟩

/-! ### C55: new members -/

/-- **C55** after an update, the members are those of before and those of the frame, each once. -/
theorem C55_members {p p' : Population} (hp : Population.WF p) {f : Frame} (h : p.update f = .ok p') :
    (∀ i, i ∈ p'.ids ↔ i ∈ p.ids ∨ i ∈ f.index) ∧ p'.ids.Nodup := by
  obtain ⟨-, -, h1, -, -⟩ := Population.update_eq_ok h
  rw [h1]
  have hk : ∀ i, i ∈ (Population.keepLast f.rows).map (·.idx) ↔ i ∈ f.index :=
    Population.keepLast_idx f.rows
  refine ⟨fun i => ?_, ?_⟩
  · rw [mem_indexUnion, mem_indexDifference, hk]
    tauto
  · exact indexUnion_nodup hp.ids (indexDifference_nodup (Population.keepLast_nodup f.rows))

/-- an empty population gets its first members from an update -/
example : (((⟨[], 0, [("AGE", ⟨[]⟩)], []⟩ : Population).update
    ⟨["AGE"], [⟨.str "b", [.num 1]⟩, ⟨.str "a", [.num 2]⟩]⟩).map (·.ids)) =
    .ok [.str "b", .str "a"] := by
  decide +kernel

/-! ### C52, C58: new populations -/

/-- **C52** a population created with sequential ids has exactly the `size` next ids of the generator,
and the generator continues after them. -/
theorem C52_sequential_population {env' : Env σ (AnyGen σ)}
    (hs : env'.sem = AnyGen.sem R) {c : Circus σ (AnyGen σ)} {name : String} {i size : Nat} {g : SeqGen}
    (hn : ∀ j, ¬ PopNamed c name j) (hg : c.world.gens[i]? = some (.seq g)) :
    ∃ k c' p, Circus.createPopulation env' name (.generated (.ref i) size) c = .ok k c' ∧
      PopNamed c' name k ∧ c'.world.pops[k]? = some p ∧ p.size = size ∧
      p.ids = Spec.idsFrom g size ∧ p.ids.length = size ∧ p.ids.Nodup ∧
      c'.world.gens[i]? = some (.seq { g with counter := g.counter + (size : Int) }) := by
  have hc : c.populations.contains name = false := by
    rw [Dict.contains]
    cases h : c.populations.get? name with
    | none => rfl
    | some j => exact absurd h (hn j)
  have hpy : pyInt (size : Rat) = size := AnyGen.pyInt_natCast size
  have hnd : (Spec.idsFrom g size).Nodup := by
    refine List.Nodup.map ?_ List.nodup_range
    intro a b hab
    have := buildId_injective (Val.str.inj hab)
    omega
  have hlen : (Spec.idsFrom g size).length = size := by simp [Spec.idsFrom]
  have hids : ((g.generate (size : Rat)).1.map Cell.str).mapM Cell.asVal = .ok (Spec.idsFrom g size) := by
    have : ((g.generate (size : Rat)).1.map Cell.str) = (Spec.idsFrom g size).map Cell.scalar := by
      simp only [SeqGen.generate, hpy, build_ids, arange, Spec.idsFrom, List.map_map, Int.toNat_natCast]
      rfl
    rw [this, mapM_ok_iff]
    rw [List.forall₂_map_left_iff]
    exact List.forall₂_same.2 fun x _ => rfl
  have hnew : ∃ w, Circus.newPopulation env' (.generated (.ref i) size) c.world =
      .ok ⟨Spec.idsFrom g size, size, [], []⟩ w ∧
      w.gens[i]? = some (.seq { g with counter := g.counter + (size : Int) }) := by
    by_cases h0 : size = 0
    · subst h0
      refine ⟨c.world, ?_, by simpa using hg⟩
      rw [Circus.newPopulation, if_pos rfl]
      rfl
    · refine ⟨{ c.world with clock := { c.world.clock with listeners :=
        (c.world.clock.listeners.set i (.seq (g.generate (size : Rat)).2)) } }, ?_, ?_⟩
      · rw [Circus.newPopulation, if_neg h0]
        have hcall : World.generate env' (.ref i) (size : Rat) c.world =
            .ok ((g.generate (size : Rat)).1.map Cell.str) { c.world with clock :=
              { c.world.clock with listeners :=
                (c.world.clock.listeners.set i (.seq (g.generate (size : Rat)).2)) } } := by
          rw [World.generate, World.call, Act.bind_ok (getGen_eq_ok.2 ⟨hg, rfl⟩), hs]
          rfl
        rw [Act.bind_ok hcall, Act.bind_ok (Act.ofPy_ok hids _)]
        refine Act.ofPy_ok ?_ _
        rw [Population.new, if_neg h0, Population.ofIds, if_pos hnd]
      · have hlt : i < c.world.clock.listeners.length := (List.getElem?_eq_some_iff.1 hg).1
        simp only [World.gens, List.getElem?_set_self hlt, SeqGen.generate, hpy]
  obtain ⟨w, hw, hgw⟩ := hnew
  rcases Circus.createPopulation_cases (env := env') name (.generated (.ref i) size) c with
    ⟨h1, -⟩ | ⟨-, ⟨e, w', h1, -, -⟩ | ⟨p, w', h1, ho, h2⟩⟩
  · rw [hc] at h1; cases h1
  · rw [hw] at h1; cases h1
  · rw [hw] at h1
    cases h1
    refine ⟨_, _, ⟨Spec.idsFrom g size, size, [], []⟩, h2, ?_, ?_, rfl, rfl, hlen, hnd, hgw⟩
    · simp only [PopNamed, Dict.get?_set, if_true]
    · have : w.pops = c.world.pops := congrArg (fun x => x.2.1) ho
      simp [this]

example : ((⟨[(.str "a", .num 3), (.str "b", .num 4)]⟩ : Attribute).transform fun _ => .num 1).getValues
    [.str "b"] = .ok [.num 1] := by
  decide +kernel

/-- **C58** a loaded population is found under its name, in the state in which it was loaded; the other
names, and all the objects, stay. -/
theorem C58_population_loaded (c : Circus σ γ) (name : String) (p : Population) :
    ∃ i c', Circus.attachPopulation name p c = .ok i c' ∧ PopNamed c' name i ∧
      c'.world.pops[i]? = some p ∧ (∀ j, j < i → c'.world.pops[j]? = c.world.pops[j]?) ∧
      (∀ n j, n ≠ name → (PopNamed c' n j ↔ PopNamed c n j)) ∧
      c'.world.rels = c.world.rels ∧ c'.world.stories = c.world.stories ∧
      c'.generators = c.generators := by
  refine ⟨c.world.pops.length, { c with
    world := { c.world with pops := c.world.pops ++ [p] }
    populations := c.populations.set name c.world.pops.length }, rfl, ?_, ?_, ?_, ?_, rfl, rfl, rfl⟩
  · simp only [PopNamed, Dict.get?_set, if_true]
  · simp
  · intro j hj
    simp only [List.getElem?_append_left hj]
  · intro n j hne
    simp only [PopNamed, Dict.get?_set, if_neg (Ne.symm hne)]

end Trumania
