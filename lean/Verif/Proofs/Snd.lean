import Verif.Model.Snd
import Verif.Proofs.Networks
import Verif.Proofs.Circus
import Verif.Proofs.Population
import Verif.Proofs.NewStory
import Verif.Proofs.Gen
import Verif.Props.Networks

/-! Helper lemmas: what the constructor of the scenario of test_snd.py leaves. -/

namespace Trumania
namespace Snd
open Spec World Circus
variable {σ γ : Type} {env : Env σ γ}

/-- what of a population does not depend on its attributes -/
def popCore (p : Population) : List Val × Nat × Dict String Nat := (p.ids, p.size, p.relationships)

/-- what of a story is constant -/
def storyCore (s : Story σ) : String × String × List Val × GenRef := (s.name, s.idField, s.ids, s.timerGen)

/-- the relationships, the populations, the stories, and the first two generators -/
structure Shape (w : World σ γ) (R : List (Relationship σ)) (P : List (List Val × Nat × Dict String Nat))
    (S : List (String × String × List Val × GenRef)) (T : List γ) : Prop where
  rels : w.rels = R
  pops : w.pops.map popCore = P
  stories : w.stories.map storyCore = S
  gens : w.gens.take 2 = T

/-- a generator which is none of the first two -/
def Far (g : GenRef) : Prop := ∀ j ∈ refs g, 2 ≤ j

variable {R : List (Relationship σ)} {P : List (List Val × Nat × Dict String Nat)}
  {S : List (String × String × List Val × GenRef)} {T : List γ}

theorem Shape.pop (h : Shape w R P S T) {i : Nat} {p : Population} (hp : w.pops[i]? = some p) :
    P[i]? = some (popCore p) := by
  rw [← h.pops, List.getElem?_map, hp]
  rfl

theorem take_two {l : List γ} (h : (l.take 2).length = 2) : 2 ≤ l.length := by
  rw [List.length_take] at h
  omega

theorem addGenerator_shape {g : γ} {w w' : World σ γ} {r : GenRef} (hs : Shape w R P S T)
    (h : addGenerator g w = .ok r w') :
    r = .ref w.gens.length ∧ w'.gens = w.gens ++ [g] ∧ Shape w' R P S ((w.gens ++ [g]).take 2) := by
  rw [addGenerator] at h
  cases h
  exact ⟨rfl, rfl, hs.rels, hs.pops, hs.stories, rfl⟩

theorem addGenerator_far {g : γ} {w w' : World σ γ} {r : GenRef} (hs : Shape w R P S T) (hT : T.length = 2)
    (h : addGenerator g w = .ok r w') : Far r ∧ Shape w' R P S T := by
  obtain ⟨rfl, -, h2⟩ := addGenerator_shape hs h
  have hl : 2 ≤ w.gens.length := take_two (hs.gens ▸ hT)
  refine ⟨fun j hj => ?_, h2.rels, h2.pops, h2.stories, ?_⟩
  · rw [refs, List.mem_singleton] at hj
    omega
  · rw [h2.gens, List.take_append_of_le_length hl, hs.gens]

theorem drawSeed_shape {w w' : World σ γ} {x : Int} (hs : Shape w R P S T)
    (h : drawSeed env w = .ok x w') : Shape w' R P S T := by
  obtain ⟨s, -, rfl⟩ := drawSeed_eq_ok h
  exact ⟨hs.rels, hs.pops, hs.stories, hs.gens⟩

theorem seeded_far {mk : Int → γ} {w w' : World σ γ} {r : GenRef} (hs : Shape w R P S T)
    (hT : T.length = 2) (h : seeded env mk w = .ok r w') : Far r ∧ Shape w' R P S T := by
  rw [seeded] at h
  obtain ⟨x, w1, h1, h2⟩ := Act.bind_eq_ok.1 h
  exact addGenerator_far (drawSeed_shape hs h1) hT h2

theorem take_two_congr {l l' : List γ} (h0 : l'[0]? = l[0]?) (h1 : l'[1]? = l[1]?) :
    l'.take 2 = l.take 2 := by
  apply List.ext_getElem?
  intro i
  rw [List.getElem?_take, List.getElem?_take]
  split
  · have : i = 0 ∨ i = 1 := by omega
    rcases this with rfl | rfl <;> assumption
  · rfl

theorem generate_far {g : GenRef} {n : Rat} {w w' : World σ γ} {cells : List Cell} (hg : Far g)
    (hs : Shape w R P S T) (h : World.generate env g n w = .ok cells w') : Shape w' R P S T := by
  obtain ⟨h1, h2⟩ := generate_rest h
  refine ⟨h2.rels.trans hs.rels, by rw [h2.pops, hs.pops], by rw [h1, hs.stories], ?_⟩
  rw [← hs.gens]
  exact take_two_congr (call_gens_other (fun hj => by have := hg _ hj; omega) h)
    (call_gens_other (fun hj => by have := hg _ hj; omega) h)

theorem createRelationship_shape {w w' : World σ γ} {pop i : Nat} {name : String} (hs : Shape w R P S T)
    (h : createRelationship env pop name none w = .ok i w') :
    ∃ c x, P[pop]? = some c ∧ i = R.length ∧
      Shape w' (R ++ [Relationship.new env.R x]) (P.set pop (c.1, c.2.1, c.2.2.set name R.length)) S T := by
  obtain ⟨p, x, s, -, hp, rfl, rfl⟩ := createRelationship_eq_ok h
  refine ⟨popCore p, x, hs.pop hp, by rw [hs.rels], ?_, ?_, hs.stories, hs.gens⟩
  · simp only [withRel, hs.rels]
  · simp only [withRel, List.map_set, hs.pops, popCore, hs.rels]

theorem setAttributes_shape {w : World σ γ} {pop : Nat} {p : Population} {a : Dict String Attribute}
    (hs : Shape w R P S T) (hp : w.pops[pop]? = some p) :
    Shape { w with pops := w.pops.set pop { p with attributes := a } } R P S T := by
  refine ⟨hs.rels, ?_, hs.stories, hs.gens⟩
  have := hs.pop hp
  simp only [List.map_set, hs.pops, popCore] at this ⊢
  apply List.ext_getElem?
  intro i
  rw [List.getElem?_set]
  split
  · rename_i hi
    subst hi
    split
    · exact this.symm
    · rename_i hlt
      rw [List.getElem?_eq_none (by omega)] at this
      cases this
  · rfl

theorem createConstant_shape {w w' : World σ γ} {pop : Nat} {name : String} {v : Cell} {u : Unit}
    (hs : Shape w R P S T) (h : createConstant pop name v w = .ok u w') : Shape w' R P S T := by
  rw [createConstant] at h
  obtain ⟨p, w1, h1, h⟩ := Act.bind_eq_ok.1 h
  obtain ⟨hp, rfl⟩ := getPop_eq_ok.1 h1
  obtain ⟨p', w2, h2, h⟩ := Act.bind_eq_ok.1 h
  obtain ⟨h3, rfl⟩ := Act.ofPy_eq_ok.1 h2
  rw [setPop_eq_ok] at h
  subst h
  rw [Population.createAttribute] at h3
  obtain ⟨a, -, h3⟩ := bind_eq_ok.1 h3
  cases h3
  exact setAttributes_shape hs hp

theorem createDrawn_shape {w w' : World σ γ} {pop : Nat} {name : String} {g : GenRef} {u : Unit}
    (hg : Far g) (hs : Shape w R P S T) (h : createDrawn env pop name g w = .ok u w') :
    Shape w' R P S T := by
  rw [createDrawn] at h
  obtain ⟨p, w1, h1, h⟩ := Act.bind_eq_ok.1 h
  obtain ⟨hp, rfl⟩ := getPop_eq_ok.1 h1
  obtain ⟨vs, w2, hs2, h⟩ : ∃ (vs : List Cell) (w2 : World σ γ), (Shape w2 R P S T ∧ w2.pops = w.pops) ∧
      (do let p ← Act.ofPy (p.createAttribute name vs); setPop pop p : Act (World σ γ) Unit) w2 =
        .ok u w' := by
    split at h
    · exact ⟨_, w, ⟨hs, rfl⟩, h⟩
    · obtain ⟨vs, w2, h2, h⟩ := Act.bind_eq_ok.1 h
      exact ⟨vs, w2, ⟨generate_far hg hs h2, (generate_rest h2).2.pops⟩, h⟩
  obtain ⟨p', w3, h3, h⟩ := Act.bind_eq_ok.1 h
  obtain ⟨h4, rfl⟩ := Act.ofPy_eq_ok.1 h3
  rw [setPop_eq_ok] at h
  subst h
  rw [Population.createAttribute] at h4
  obtain ⟨a, -, h4⟩ := bind_eq_ok.1 h4
  cases h4
  exact setAttributes_shape hs2.1 (hs2.2 ▸ hp)

theorem addRelations_shape {w w' : World σ γ} {i : Nat} {f t : List Val} {ws : Weights} {u : Unit}
    (hs : Shape w R P S T) (h : addRelations env i f t ws w = .ok u w') :
    ∃ r r', R[i]? = some r ∧ r.add_relations env.orders f t ws = .ok r' ∧
      Shape w' (R.set i r') P S T := by
  obtain ⟨r, r', h1, h2, rfl⟩ := addRelations_eq_ok h
  exact ⟨r, r', hs.rels ▸ h1, h2, by simp only [hs.rels], hs.pops, hs.stories, hs.gens⟩

theorem createPopulation_shape {c c' : Circus σ γ} {name : String} {g : GenRef} {n i : Nat}
    (hs : Shape c.world R P S T) (h : createPopulation env name (.generated g n) c = .ok i c') :
    ∃ ids w, i = P.length ∧ ids.Nodup ∧ c'.world = { w with pops := c'.world.pops } ∧
      c'.world.rels = R ∧ c'.world.pops.map popCore = P ++ [(ids, n, [])] ∧
      c'.world.stories.map storyCore = S ∧
      ((ids = [] ∧ w = c.world) ∨ ∃ cells, World.generate env g (n : Rat) c.world = .ok cells w ∧
        cells.mapM Cell.asVal = .ok ids) := by
  rcases createPopulation_cases (env := env) name (.generated g n) c with ⟨-, he⟩ | ⟨-, ⟨e, w, -, -, he⟩ |
    ⟨p, w, h1, h2, he⟩⟩
  · rw [he] at h; cases h
  · rw [he] at h; cases h
  · rw [he] at h
    cases h
    simp only [World.objects, Prod.mk.injEq] at h2
    obtain ⟨k1, k2, k3⟩ := h2
    have hlen : c.world.pops.length = P.length := by rw [← hs.pops, List.length_map]
    have key : ∃ ids, p = ⟨ids, n, [], []⟩ ∧ ids.Nodup ∧ ((ids = [] ∧ w = c.world) ∨
        ∃ cells, World.generate env g (n : Rat) c.world = .ok cells w ∧ cells.mapM Cell.asVal = .ok ids) := by
      simp only [newPopulation] at h1
      split at h1
      · rename_i hn
        obtain ⟨h3, rfl⟩ := Act.ofPy_eq_ok.1 h1
        simp only [Population.new, Population.ofIds, if_true, List.nodup_nil] at h3
        cases h3
        exact ⟨[], by rw [hn], List.nodup_nil, .inl ⟨rfl, rfl⟩⟩
      · rename_i hn
        obtain ⟨cells, w1, h4, h1⟩ := Act.bind_eq_ok.1 h1
        obtain ⟨ids, w2, h5, h1⟩ := Act.bind_eq_ok.1 h1
        obtain ⟨h5', rfl⟩ := Act.ofPy_eq_ok.1 h5
        obtain ⟨h6, rfl⟩ := Act.ofPy_eq_ok.1 h1
        simp only [Population.new, if_neg hn, Population.ofIds] at h6
        split at h6
        · rename_i hnd
          cases h6
          exact ⟨ids, rfl, hnd, .inr ⟨cells, h4, h5'⟩⟩
        · cases h6
    obtain ⟨ids, rfl, hnd, hid⟩ := key
    refine ⟨ids, w, hlen, hnd, rfl, by rw [← hs.rels]; exact k1, ?_, by rw [← hs.stories]; simp only [k3], hid⟩
    simp only [List.map_append, k2, hs.pops]
    rfl

theorem createPopulation_far {c c' : Circus σ γ} {name : String} {g : GenRef} {n i : Nat} (hg : Far g)
    (hs : Shape c.world R P S T) (h : createPopulation env name (.generated g n) c = .ok i c') :
    ∃ ids, i = P.length ∧ ids.Nodup ∧ Shape c'.world R (P ++ [(ids, n, [])]) S T ∧ 
      (ids = [] ∨ ∃ cells w, World.generate env g (n : Rat) c.world = .ok cells w ∧
        cells.mapM Cell.asVal = .ok ids) := by
  obtain ⟨ids, w, h1, h2, h3, h4, h5, h6, h7⟩ := createPopulation_shape hs h
  refine ⟨ids, h1, h2, ⟨h4, h5, h6, ?_⟩, ?_⟩
  · rw [h3]
    show w.gens.take 2 = T
    rcases h7 with ⟨-, rfl⟩ | ⟨cells, h7, -⟩
    · exact hs.gens
    · exact (generate_far hg hs h7).gens
  · rcases h7 with ⟨h7, -⟩ | ⟨cells, h7, h8⟩
    · exact .inl h7
    · exact .inr ⟨cells, w, h7, h8⟩

theorem storyParams_gens {ids : List Val} {size : Nat} {states : List (Val × StateGens)}
    {params params' : Dict Val (Dict Val StateParams)} {w w' : World σ γ} {i : Nat}
    (hi : ∀ st ∈ states, i ∉ refs st.2.activity ∧ i ∉ refs st.2.back)
    (h : storyParams env ids size states params w = .ok params' w') : w'.gens[i]? = w.gens[i]? := by
  induction states generalizing params w with
  | nil =>
    rw [storyParams, Act.pure_eq_ok] at h
    rw [h.2]
  | cons st rest ih =>
    obtain ⟨st, g⟩ := st
    rw [storyParams] at h
    simp only [Act.bind_eq_ok, Act.ofPy_eq_ok] at h
    obtain ⟨c1, w1, h1, c2, w2, h2, a, _, ⟨h3, rfl⟩, b, _, ⟨h4, rfl⟩, ps, _, ⟨h5, rfl⟩, h6⟩ := h
    rw [ih (fun s hs => hi s (List.mem_cons_of_mem _ hs)) h6, call_gens_other (hi _ List.mem_cons_self).2 h2,
      call_gens_other (hi _ List.mem_cons_self).1 h1]

theorem merge_mem {ν : Type} {so : SetOrder Val} {d1 : Dict Val ν} {d2 : Option (Dict Val ν)}
    {r : Dict Val ν} (h : merge_2_dicts so (some d1) d2 = .ok r) {x : Val × ν} (hx : x ∈ r) :
    x ∈ d1 ∨ ∃ d, d2 = some d ∧ x ∈ d := by
  cases d2 with
  | none => cases h; exact .inl hx
  | some d =>
    simp only [merge_2_dicts, merge2] at h
    obtain ⟨k, -, hk⟩ := forall₂_exists_left (mapM_ok_iff.1 h) hx
    split at hk
    · cases hk
      exact .inr ⟨d, rfl, Dict.get?_mem (by assumption)⟩
    · cases hk
      exact .inl (Dict.get?_mem (by assumption))
    · cases hk
    · cases hk

/-- a story whose generators are none of the first two -/
def FarStory (cfg : StoryConfig) : Prop :=
  Far cfg.activity ∧ Far cfg.timerGen ∧ ∀ d, cfg.states = some d → ∀ s ∈ d, Far s.2.activity ∧ Far s.2.back

theorem newStory_gens {cfg : StoryConfig} {p : Population} {w w' : World σ γ} {s : Story σ} {i : Nat}
    (hf : FarStory cfg) (hi : i < 2) (h : newStory env cfg p w = .ok s w') : w'.gens[i]? = w.gens[i]? := by
  rw [newStory] at h
  simp only [Act.bind_eq_ok, Act.ofPy_eq_ok] at h
  obtain ⟨states, _, ⟨h1, rfl⟩, params, w1, h2, h3⟩ := h
  have hnot : ∀ {g : GenRef}, Far g → i ∉ refs g := fun hg hm => by have := hg _ hm; omega
  have e1 : w1.gens[i]? = w.gens[i]? := by
    refine storyParams_gens (fun st hst => ?_) h2
    rcases merge_mem h1 hst with hm | ⟨d, hd, hm⟩
    · rw [List.mem_singleton] at hm
      subst hm
      exact ⟨hnot hf.1, by simp [refs]⟩
    · exact ⟨hnot (hf.2.2 d hd st hm).1, hnot (hf.2.2 d hd st hm).2⟩
  rw [initialReset] at h3
  split at h3
  · obtain ⟨-, -, -, -, -, -, h4⟩ := resetStory_ok h3
    rcases h4 with ⟨-, -, rfl⟩ | ⟨ps, cells, ts, -, -, -, h5, -⟩
    · exact e1
    · rw [call_gens_other (hnot hf.2.1) h5, e1]
  · obtain ⟨-, rfl⟩ := Act.pure_eq_ok.1 h3
    exact e1

theorem createStory_shape {cfg : StoryConfig} {w w' : World σ γ} {n : Nat} (hf : FarStory cfg)
    (hs : Shape w R P S T) (h : World.createStory env cfg w = .ok n w') :
    ∃ c, P[cfg.population]? = some c ∧ n = S.length ∧
      Shape w' R P (S ++ [(cfg.name, cfg.idField, c.1, cfg.timerGen)]) T := by
  obtain ⟨-, p, s, w1, h2, h3, rfl, rfl⟩ := createStory_ok h
  obtain ⟨st, s0, w2, -, -, -, k1, k2, k3, k4, k5, k6, -, -, -, k7, -, h5⟩ := newStory_ok h3
  have hcore : storyCore s = (cfg.name, cfg.idField, p.ids, cfg.timerGen) := by
    have h0 : storyCore s0 = (cfg.name, cfg.idField, p.ids, cfg.timerGen) := by
      simp only [storyCore, k3, k5, k6, Story.ids, k7, List.map_map, Function.comp_def, List.map_id']
    rcases h5 with ⟨-, rfl, -⟩ | ⟨-, h5⟩
    · exact h0
    · obtain ⟨-, -, h6, h7, -⟩ := resetStory_ok h5
      rw [← h0]
      simp only [storyCore, h7]
      rw [h6]
  refine ⟨popCore p, hs.pop h2, ?_, ?_⟩
  · rw [k1, ← hs.stories, List.length_map]
  · refine ⟨k2.rels.trans hs.rels, by rw [← hs.pops]; simp only [k2.pops], ?_, ?_⟩
    · simp only [List.map_append, k1, hs.stories, List.map_cons, List.map_nil, hcore]
      rfl
    · rw [← hs.gens]
      exact take_two_congr (l' := w1.gens) (newStory_gens hf (by omega) h3) (newStory_gens hf (by omega) h3)

theorem storyNamed_shape {name : String} {w w' : World σ γ} {i : Nat} (hs : Shape w R P S T)
    (h : storyNamed name w = .ok i w') : w' = w ∧ S.findIdx? (fun s => decide (s.1 = name)) = some i := by
  rw [storyNamed, Act.bind_ok (FS.get_ok w)] at h
  cases hf : w.findStory name with
  | none => rw [hf] at h; cases h
  | some j =>
    rw [hf] at h
    cases h
    refine ⟨rfl, ?_⟩
    rw [findStory] at hf
    rw [← hs.stories, List.findIdx?_map]
    exact hf

theorem relNamed_shape {pop : Nat} {name : String} {w w' : World σ γ} {i : Nat} (hs : Shape w R P S T)
    (h : relNamed pop name w = .ok i w') : w' = w ∧ ∃ c, P[pop]? = some c ∧ c.2.2.get? name = some i := by
  rw [relNamed] at h
  obtain ⟨p, w1, h1, h⟩ := Act.bind_eq_ok.1 h
  obtain ⟨hp, rfl⟩ := getPop_eq_ok.1 h1
  obtain ⟨h2, rfl⟩ := Act.ofPy_eq_ok.1 h
  exact ⟨rfl, _, hs.pop hp, Population.get_eq_ok.1 h2⟩

/-- the (from, to) pairs of a relationship -/
def Filled (env : Env σ γ) (r : Relationship σ) (L : List (Val × Val)) : Prop :=
  Relationship.Reachable env.R r ∧ ∀ o, ((r.get_relations o).map fun x => (x.1, x.2.1)).Perm L

theorem filled_new (x : Int) : Filled env (Relationship.new env.R x) [] := by
  refine ⟨.new x, fun o => ?_⟩
  have h0 : (Relationship.new env.R x).get_relations o = [] := by
    apply List.eq_nil_iff_forall_not_mem.2
    rintro ⟨f, t, w⟩ hx
    rw [mem_get_relations] at hx
    simp [Relationship.new, pairsAt] at hx
  rw [h0]
  exact .refl _

theorem filled_add {r r' : Relationship σ} {L : List (Val × Val)} {f t : List Val} {q : Rat}
    (hr : Filled env r L) (hl : f.length = t.length)
    (h : r.add_relations env.orders f t (.scalar q) = .ok r') : Filled env r' (L ++ f.zip t) := by
  have h : AddCall.exec r (.relations f t (.scalar q), env.orders) = .ok r' := h
  refine ⟨reachable_addCall env.R hr.1 h, fun o => ?_⟩
  have := (C16_step env.R hr.1 h o o).map fun x => (x.1, x.2.1)
  rw [List.map_append, added_scalar hl, List.map_map] at this
  refine this.trans ((hr.2 o).append ?_)
  simp [Function.comp_def]

theorem fillStock_shape {pop rel : Nat} {items : List Val} {w w' : World σ γ} {u : Unit}
    (hs : Shape w R P S T) (h : fillStock env pop rel items w = .ok u w') {r : Relationship σ}
    {L : List (Val × Val)} (hr : R[rel]? = some r) (hf : Filled env r L) :
    ∃ c r', ∃ owners : List Val, P[pop]? = some c ∧ owners.length = items.length ∧ (∀ o ∈ owners, o ∈ c.1) ∧
      Filled env r' (L ++ owners.zip items) ∧ Shape w' (R.set rel r') P S T := by
  rw [fillStock] at h
  obtain ⟨p, w1, h1, h⟩ := Act.bind_eq_ok.1 h
  obtain ⟨hp, rfl⟩ := getPop_eq_ok.1 h1
  obtain ⟨seed, w2, h2, h⟩ := Act.bind_eq_ok.1 h
  have hs2 := drawSeed_shape hs h2
  obtain ⟨asg, w3, h3, h⟩ := Act.bind_eq_ok.1 h
  obtain ⟨h3', rfl⟩ := Act.ofPy_eq_ok.1 h3
  obtain ⟨k1, k2⟩ := make_random_assign_ok h3'
  obtain ⟨r0, r', h4, h5, h6⟩ := addRelations_shape hs2 h
  rw [hr] at h4
  cases h4
  refine ⟨popCore p, r', asg.map Prod.snd, hs.pop hp, ?_, k2, ?_, h6⟩
  · rw [← k1, List.length_map, List.length_map]
  · rw [← k1]
    exact filled_add hf (by simp) h5

/-! ### The steps of the constructor -/

theorem onWorld_circus {α : Type} {a : Act (World σ γ) α} {c c' : Circus σ γ} {r : α}
    (h : onWorld a c = .ok r c') : a c.world = .ok r c'.world := by
  rw [onWorld] at h
  cases he : a c.world with
  | ok x w => rw [he] at h; cases h; rfl
  | error e w => rw [he] at h; cases h

/-- the two generators in use before the others, once the ids and the first SIMs are drawn -/
def FirstDraws (env : Env σ γ) (p : Params) (g : Parts γ) (sims : List Val) (T : List γ) : Prop :=
  ∃ d s cells, T = [d, s] ∧ env.sem.generate g.simIds (p.nSimsDistributor : Rat) = .ok (cells, s) ∧
    cells.mapM Cell.asVal = .ok sims

theorem generate_ref {i : Nat} {n : Rat} {w w' : World σ γ} {cells : List Cell}
    (h : World.generate env (.ref i) n w = .ok cells w') : ∃ a a', w.gens[i]? = some a ∧
      env.sem.generate a n = .ok (cells, a') ∧
      w' = { w with clock := { w.clock with listeners := w.clock.listeners.set i a' } } := by
  rw [World.generate, call] at h
  obtain ⟨a, w1, h1, h⟩ := Act.bind_eq_ok.1 h
  obtain ⟨h1', rfl⟩ := getGen_eq_ok.1 h1
  obtain ⟨⟨v, a'⟩, w2, h2, h⟩ := Act.bind_eq_ok.1 h
  obtain ⟨h2', rfl⟩ := Act.ofPy_eq_ok.1 h2
  obtain ⟨u, w3, h3, h⟩ := Act.bind_eq_ok.1 h
  obtain ⟨rfl, rfl⟩ := Act.pure_eq_ok.1 h
  exact ⟨a, a', h1', h2', setGen_eq_ok.1 h3⟩

theorem createDistributors_shape {p : Params} {g : Parts γ} {c c' : Circus σ γ} {d : Nat} {simGen : GenRef}
    (hs : Shape c.world [] [] [] []) (h : createDistributors env p g c = .ok (d, simGen) c') :
    ∃ r0 ids n sims T, ∃ owners : List Val, d = 0 ∧ simGen = .ref 1 ∧ ids.Nodup ∧ FirstDraws env p g sims T ∧
      owners.length = sims.length ∧ (∀ o ∈ owners, o ∈ ids) ∧ Filled env r0 (owners.zip sims) ∧
      Shape c'.world [r0] [(ids, n, [("SIM", 0)])] [] T := by
  rw [createDistributors] at h
  have hempty : c.world.gens = [] := by
    have := hs.gens
    cases hg : c.world.gens with
    | nil => rfl
    | cons a l => rw [hg] at this; simp at this
  obtain ⟨idsGen, c1, h1, h⟩ := Act.bind_eq_ok.1 h
  obtain ⟨rfl, k1, s1⟩ := addGenerator_shape hs (onWorld_circus h1)
  rw [hempty] at k1 s1
  obtain ⟨dist, c2, h2, h⟩ := Act.bind_eq_ok.1 h
  obtain ⟨ids, w, rfl, hnd, e1, e2, e3, e4, e5⟩ := createPopulation_shape s1 h2
  rw [hempty] at e5
  have hg2 : ∃ a, c2.world.gens = [a] := by
    rw [e1]
    show ∃ a, w.gens = [a]
    rcases e5 with ⟨-, rfl⟩ | ⟨cells, h3, -⟩
    · exact ⟨_, k1⟩
    · obtain ⟨a, a', -, -, rfl⟩ := generate_ref h3
      refine ⟨a', ?_⟩
      have k1 : c1.world.clock.listeners = [g.distributorIds] := k1
      simp [gens, k1]
  obtain ⟨a0, hg2⟩ := hg2
  have s2 : Shape c2.world [] [(ids, p.nDistributors, [])] [] [a0] := ⟨e2, e3, e4, by rw [hg2]; rfl⟩
  have h := onWorld_circus h
  obtain ⟨sr, w3, h3, h⟩ := Act.bind_eq_ok.1 h
  have hg3 : w3.gens = [a0] := by
    obtain ⟨_, _, _, -, -, -, rfl⟩ := createRelationship_eq_ok h3
    exact hg2
  obtain ⟨cc, x, hc, rfl, s3⟩ := createRelationship_shape s2 h3
  simp only [List.length_nil, List.getElem?_cons_zero, Option.some.injEq] at hc
  subst hc
  obtain ⟨sg, w4, h4, h⟩ := Act.bind_eq_ok.1 h
  obtain ⟨rfl, k4, s4⟩ := addGenerator_shape s3 h4
  rw [hg3] at k4 s4 h
  obtain ⟨cells, w5, h5, h⟩ := Act.bind_eq_ok.1 h
  obtain ⟨b, s', hb, hgen, rfl⟩ := generate_ref h5
  rw [k4] at hb
  cases hb
  have s5 : Shape { w4 with clock := { w4.clock with listeners := w4.clock.listeners.set [a0].length s' } }
      ([] ++ [Relationship.new env.R x])
      (List.set [(ids, p.nDistributors, [])] 0 (ids, p.nDistributors, Dict.set [] "SIM" 0)) []
      [a0, s'] := by
    refine ⟨s4.rels, s4.pops, s4.stories, ?_⟩
    have k4 : w4.clock.listeners = [a0] ++ [g.simIds] := k4
    simp [gens, k4]
  obtain ⟨sims, w6, h6, h⟩ := Act.bind_eq_ok.1 h
  obtain ⟨h6', rfl⟩ := Act.ofPy_eq_ok.1 h6
  obtain ⟨u, w7, h7, h⟩ := Act.bind_eq_ok.1 h
  obtain ⟨cc, r0, owners, hc, hlen, hown, hfill, s7⟩ := fillStock_shape s5 h7 rfl (filled_new x)
  simp only [List.length_nil, List.set_cons_zero, List.getElem?_cons_zero, Option.some.injEq] at hc
  subst hc
  obtain ⟨u', w8, h8, h⟩ := Act.bind_eq_ok.1 h
  have s8 := createConstant_shape s7 h8
  obtain ⟨he, hw⟩ := Act.pure_eq_ok.1 h
  cases he
  rw [hw] at s8
  exact ⟨r0, ids, _, sims, [a0, s'], owners, rfl, rfl, hnd, ⟨a0, s', cells, rfl, hgen, h6'⟩, hlen, hown,
    hfill, s8⟩

theorem addRestock_shape {fmt : Int → Cell} {d i : Nat} {simGen : GenRef} {w w' : World σ γ}
    {ops : List (Op (World σ γ))} {c : List Val × Nat × Dict String Nat} (hs : Shape w R P S T)
    (hc : P[d]? = some c) (hr : c.2.2.get? "SIM" = some i)
    (h : addRestock env fmt d simGen w = .ok ops w') :
    ops = restockOps env fmt S.length d i simGen ∧
      Shape w' R P (S ++ [("distributor_restock", "DISTRIBUTOR_ID", c.1, (restockStory d).timerGen)]) T := by
  rw [addRestock] at h
  obtain ⟨n, w1, h1, h⟩ := Act.bind_eq_ok.1 h
  have hfar : FarStory (restockStory d) :=
    ⟨by simp [Far, restockStory, refs], by simp [Far, restockStory, refs], by simp [restockStory]⟩
  obtain ⟨c1, e1, rfl, s1⟩ := createStory_shape hfar hs h1
  rw [show (restockStory d).population = d from rfl, hc] at e1
  cases e1
  obtain ⟨j, w2, h2, h⟩ := Act.bind_eq_ok.1 h
  obtain ⟨rfl, c2, e2, e3⟩ := relNamed_shape s1 h2
  rw [hc] at e2
  cases e2
  rw [hr] at e3
  cases e3
  obtain ⟨rfl, rfl⟩ := Act.pure_eq_ok.1 h
  exact ⟨rfl, s1⟩

/-- ids drawn from a new generator, or none -/
def Drawn (env : Env σ γ) (a : γ) (n : Nat) (ids : List Val) : Prop :=
  ids = [] ∨ ∃ cells a', env.sem.generate a (n : Rat) = .ok (cells, a') ∧ cells.mapM Cell.asVal = .ok ids

theorem newPopulation_drawn {a : γ} {name : String} {n i : Nat} {ig : GenRef} {c c1 c' : Circus σ γ}
    (hs : Shape c.world R P S T) (hT : T.length = 2) (h1 : onWorld (addGenerator a) c = .ok ig c1)
    (h2 : createPopulation env name (.generated ig n) c1 = .ok i c') :
    ∃ ids, i = P.length ∧ ids.Nodup ∧ Drawn env a n ids ∧ Shape c'.world R (P ++ [(ids, n, [])]) S T := by
  obtain ⟨hfar, s1⟩ := addGenerator_far hs hT (onWorld_circus h1)
  obtain ⟨rfl, hg, -⟩ := addGenerator_shape hs (onWorld_circus h1)
  obtain ⟨ids, rfl, hnd, s2, hd⟩ := createPopulation_far hfar s1 h2
  refine ⟨ids, rfl, hnd, ?_, s2⟩
  rcases hd with rfl | ⟨cells, w, h3, h4⟩
  · exact .inl rfl
  · obtain ⟨b, b', hb, h5, -⟩ := generate_ref h3
    rw [hg, List.getElem?_append_right (Nat.le_refl _), Nat.sub_self] at hb
    cases hb
    exact .inr ⟨cells, b', h5, h4⟩

/-- the SIMs given to the dealers, those of the broke dealer aside -/
def dealerSims (p : Params) : List Val := (build_ids p.nSimsDealer 0 "SIM_" 10).map Val.str

def brokePairs : List (Val × Val) := brokeSims.map fun s => (brokeDealer, s)

theorem createDealers_shape {p : Params} {g : Parts γ} {c c' : Circus σ γ} {d : Nat}
    (hs : Shape c.world R P S T) (hT : T.length = 2) (h : createDealers env p g c = .ok d c') :
    ∃ r ids, ∃ owners : List Val, d = P.length ∧ ids.Nodup ∧ Drawn env g.dealerIds p.nDealers ids ∧
      owners.length = (dealerSims p).length ∧ (∀ o ∈ owners, o ∈ ids) ∧
      Filled env r (owners.zip (dealerSims p) ++ brokePairs) ∧
      Shape c'.world (R ++ [r]) (P ++ [(ids, p.nDealers, [("SIM", R.length)])]) S T := by
  rw [createDealers] at h
  obtain ⟨ig, c1, h1, h⟩ := Act.bind_eq_ok.1 h
  obtain ⟨i, c2, h2, h⟩ := Act.bind_eq_ok.1 h
  obtain ⟨ids, rfl, hnd, hd, s2⟩ := newPopulation_drawn hs hT h1 h2
  have h := onWorld_circus h
  obtain ⟨j, w3, h3, h⟩ := Act.bind_eq_ok.1 h
  obtain ⟨cc, x, hc, rfl, s3⟩ := createRelationship_shape s2 h3
  rw [List.getElem?_append_right (Nat.le_refl _), Nat.sub_self] at hc
  cases hc
  obtain ⟨u, w4, h4, h⟩ := Act.bind_eq_ok.1 h
  obtain ⟨cc, r, owners, hc, hlen, hown, hfill, s4⟩ := fillStock_shape (r := Relationship.new env.R x) s3 h4
    (by simp) (filled_new x)
  rw [List.getElem?_set_self (by simp)] at hc
  cases hc
  obtain ⟨u', w5, h5, h⟩ := Act.bind_eq_ok.1 h
  obtain ⟨r1, r2, k1, k2, s5⟩ := addRelations_shape s4 h5
  rw [List.getElem?_set_self (by simp)] at k1
  cases k1
  obtain ⟨rfl, rfl⟩ := Act.pure_eq_ok.1 h
  refine ⟨r2, ids, owners, rfl, hnd, hd, hlen, hown, ?_, ?_⟩
  · have := filled_add hfill (by simp) k2
    rw [List.nil_append] at this
    exact this
  · simpa [Dict.set] using s5

theorem createAgents_shape {p : Params} {g : Parts γ} {c c' : Circus σ γ} {d : Nat}
    (hs : Shape c.world R P S T) (hT : T.length = 2) (h : createAgents env p g c = .ok d c') :
    ∃ r ids, d = P.length ∧ ids.Nodup ∧ Drawn env g.agentIds p.nAgents ids ∧ Filled env r [] ∧
      Shape c'.world (R ++ [r]) (P ++ [(ids, p.nAgents, [("SIM", R.length)])]) S T := by
  rw [createAgents] at h
  obtain ⟨ig, c1, h1, h⟩ := Act.bind_eq_ok.1 h
  obtain ⟨i, c2, h2, h⟩ := Act.bind_eq_ok.1 h
  obtain ⟨ids, rfl, hnd, hd, s2⟩ := newPopulation_drawn hs hT h1 h2
  have h := onWorld_circus h
  obtain ⟨j, w3, h3, h⟩ := Act.bind_eq_ok.1 h
  obtain ⟨cc, x, hc, rfl, s3⟩ := createRelationship_shape s2 h3
  rw [List.getElem?_append_right (Nat.le_refl _), Nat.sub_self] at hc
  cases hc
  obtain ⟨ng, w4, h4, h⟩ := Act.bind_eq_ok.1 h
  obtain ⟨hfar, s4⟩ := seeded_far s3 hT h4
  obtain ⟨u, w5, h5, h⟩ := Act.bind_eq_ok.1 h
  have s5 := createDrawn_shape hfar s4 h5
  obtain ⟨rfl, rfl⟩ := Act.pure_eq_ok.1 h
  exact ⟨_, ids, rfl, hnd, hd, filled_new x, by simpa [Dict.set] using s5⟩

theorem connectAgents_shape {p : Params} {g : Parts γ} {w w' : World σ γ} {a d : Nat} {u : Unit}
    (hs : Shape w R P S T) (hT : T.length = 2) (h : connectAgents env p g a d w = .ok u w') :
    ∃ c r, P[a]? = some c ∧
      Shape w' (R ++ [r]) (P.set a (c.1, c.2.1, c.2.2.set "DEALERS" R.length)) S T := by
  rw [connectAgents] at h
  obtain ⟨q, w1, h1, h⟩ := Act.bind_eq_ok.1 h
  obtain ⟨-, rfl⟩ := Act.ofPy_eq_ok.1 h1
  obtain ⟨wg, w2, h2, h⟩ := Act.bind_eq_ok.1 h
  obtain ⟨hfar, s2⟩ := addGenerator_far hs hT h2
  obtain ⟨pa, w3, h3, h⟩ := Act.bind_eq_ok.1 h
  obtain ⟨-, rfl⟩ := getPop_eq_ok.1 h3
  obtain ⟨pd, w3, h3, h⟩ := Act.bind_eq_ok.1 h
  obtain ⟨-, rfl⟩ := getPop_eq_ok.1 h3
  obtain ⟨seed, w4, h4, h⟩ := Act.bind_eq_ok.1 h
  have s4 := drawSeed_shape s2 h4
  obtain ⟨edges, w5, h5, h⟩ := Act.bind_eq_ok.1 h
  obtain ⟨-, rfl⟩ := Act.ofPy_eq_ok.1 h5
  obtain ⟨rel, w6, h6, h⟩ := Act.bind_eq_ok.1 h
  obtain ⟨c, x, hc, rfl, s6⟩ := createRelationship_shape s4 h6
  obtain ⟨cells, w7, h7, h⟩ := Act.bind_eq_ok.1 h
  have s7 := generate_far hfar s6 h7
  obtain ⟨ws, w8, h8, h⟩ := Act.bind_eq_ok.1 h
  obtain ⟨-, rfl⟩ := Act.ofPy_eq_ok.1 h8
  obtain ⟨u1, w9, h9, h⟩ := Act.bind_eq_ok.1 h
  obtain ⟨r1, r2, -, -, s9⟩ := addRelations_shape s7 h9
  obtain ⟨r3, r4, -, -, s10⟩ := addRelations_shape s9 h
  exact ⟨c, r4, hc, by simpa using s10⟩

theorem connectDealers_shape {g : Parts γ} {w w' : World σ γ} {a d : Nat} {u : Unit}
    (hs : Shape w R P S T) (hT : T.length = 2) (h : connectDealers env g a d w = .ok u w') :
    ∃ c r, P[a]? = some c ∧
      Shape w' (R ++ [r]) (P.set a (c.1, c.2.1, c.2.2.set "DISTRIBUTOR" R.length)) S T := by
  rw [connectDealers] at h
  obtain ⟨rel, w6, h6, h⟩ := Act.bind_eq_ok.1 h
  obtain ⟨c, x, hc, rfl, s6⟩ := createRelationship_shape hs h6
  obtain ⟨seed, w4, h4, h⟩ := Act.bind_eq_ok.1 h
  have s4 := drawSeed_shape s6 h4
  obtain ⟨pa, w3, h3, h⟩ := Act.bind_eq_ok.1 h
  obtain ⟨-, rfl⟩ := getPop_eq_ok.1 h3
  obtain ⟨pd, w3, h3, h⟩ := Act.bind_eq_ok.1 h
  obtain ⟨-, rfl⟩ := getPop_eq_ok.1 h3
  obtain ⟨⟨idx, st⟩, w5, h5, h⟩ := Act.bind_eq_ok.1 h
  obtain ⟨-, rfl⟩ := Act.ofPy_eq_ok.1 h5
  obtain ⟨asg, w5, h5, h⟩ := Act.bind_eq_ok.1 h
  obtain ⟨-, rfl⟩ := Act.ofPy_eq_ok.1 h5
  obtain ⟨u1, w9, h9, h⟩ := Act.bind_eq_ok.1 h
  obtain ⟨r1, r2, -, -, s9⟩ := addRelations_shape s4 h9
  obtain ⟨bg, w10, h10, h⟩ := Act.bind_eq_ok.1 h
  obtain ⟨hfar, s10⟩ := seeded_far s9 hT h10
  have s11 := createDrawn_shape hfar s10 h
  exact ⟨c, r2, hc, by simpa using s11⟩

theorem addPurchases_shape {g : Parts γ} {fmt : Int → Cell} {a d i j k : Nat} {w w' : World σ γ}
    {ops : List (Op (World σ γ))} {ca cd : List Val × Nat × Dict String Nat} (hs : Shape w R P S T)
    (hT : T.length = 2) (hca : P[a]? = some ca) (hcd : P[d]? = some cd)
    (hi : ca.2.2.get? "DEALERS" = some i) (hj : cd.2.2.get? "SIM" = some j) (hk : ca.2.2.get? "SIM" = some k)
    (h : addPurchases env g fmt a d w = .ok ops w') :
    ∃ tg, Far tg ∧ ops = purchaseOps env fmt S.length i j k ∧
      Shape w' R P (S ++ [("purchases", "AGENT", ca.1, tg)]) T := by
  rw [addPurchases] at h
  obtain ⟨tg, w1, h1, h⟩ := Act.bind_eq_ok.1 h
  obtain ⟨f1, s1⟩ := seeded_far hs hT h1
  obtain ⟨ag, w2, h2, h⟩ := Act.bind_eq_ok.1 h
  obtain ⟨f2, s2⟩ := seeded_far s1 hT h2
  obtain ⟨n, w3, h3, h⟩ := Act.bind_eq_ok.1 h
  have hfar : FarStory (purchaseStory a tg ag) := by
    refine ⟨f2, f1, ?_⟩
    intro dd hdd s hs
    cases hdd
    rw [List.mem_singleton] at hs
    subst hs
    simp [Far, refs]
  obtain ⟨c1, e1, rfl, s3⟩ := createStory_shape hfar s2 h3
  rw [show (purchaseStory a tg ag).population = a from rfl, hca] at e1
  cases e1
  obtain ⟨i', w4, h4, h⟩ := Act.bind_eq_ok.1 h
  obtain ⟨rfl, c2, e2, e3⟩ := relNamed_shape s3 h4
  rw [hca] at e2; cases e2
  rw [hi] at e3; cases e3
  obtain ⟨j', w5, h5, h⟩ := Act.bind_eq_ok.1 h
  obtain ⟨rfl, c2, e2, e3⟩ := relNamed_shape s3 h5
  rw [hcd] at e2; cases e2
  rw [hj] at e3; cases e3
  obtain ⟨k', w6, h6, h⟩ := Act.bind_eq_ok.1 h
  obtain ⟨rfl, c2, e2, e3⟩ := relNamed_shape s3 h6
  rw [hca] at e2; cases e2
  rw [hk] at e3; cases e3
  obtain ⟨rfl, rfl⟩ := Act.pure_eq_ok.1 h
  exact ⟨tg, f1, rfl, s3⟩

theorem addBulk_shape {g : Parts γ} {fmt : Int → Cell} {d t i j k l : Nat} {w w' : World σ γ}
    {ops : List (Op (World σ γ))} {cd ct : List Val × Nat × Dict String Nat} (hs : Shape w R P S T)
    (hT : T.length = 2) (hcd : P[d]? = some cd) (hct : P[t]? = some ct)
    (hi : cd.2.2.get? "DISTRIBUTOR" = some i) (hj : ct.2.2.get? "SIM" = some j)
    (hk : cd.2.2.get? "SIM" = some k)
    (hl : S.findIdx? (fun s => decide (s.1 = "distributor_restock")) = some l)
    (h : addBulk env g fmt d t w = .ok ops w') :
    ∃ tg, Far tg ∧ ops = bulkOps env fmt S.length l d t i j k ∧
      Shape w' R P (S ++ [("bulk_purchases", "DEALER_ID", cd.1, tg)]) T := by
  rw [addBulk] at h
  obtain ⟨tg, w1, h1, h⟩ := Act.bind_eq_ok.1 h
  obtain ⟨f1, s1⟩ := seeded_far hs hT h1
  obtain ⟨n, w3, h3, h⟩ := Act.bind_eq_ok.1 h
  have hfar : FarStory (bulkStory d tg) :=
    ⟨by simp [bulkStory, Far, refs], f1, by simp [bulkStory]⟩
  obtain ⟨c1, e1, rfl, s3⟩ := createStory_shape hfar s1 h3
  rw [show (bulkStory d tg).population = d from rfl, hcd] at e1
  cases e1
  obtain ⟨i', w4, h4, h⟩ := Act.bind_eq_ok.1 h
  obtain ⟨rfl, c2, e2, e3⟩ := relNamed_shape s3 h4
  rw [hcd] at e2; cases e2
  rw [hi] at e3; cases e3
  obtain ⟨j', w5, h5, h⟩ := Act.bind_eq_ok.1 h
  obtain ⟨rfl, c2, e2, e3⟩ := relNamed_shape s3 h5
  rw [hct] at e2; cases e2
  rw [hj] at e3; cases e3
  obtain ⟨k', w6, h6, h⟩ := Act.bind_eq_ok.1 h
  obtain ⟨rfl, c2, e2, e3⟩ := relNamed_shape s3 h6
  rw [hcd] at e2; cases e2
  rw [hk] at e3; cases e3
  obtain ⟨l', w7, h7, h⟩ := Act.bind_eq_ok.1 h
  obtain ⟨rfl, e4⟩ := storyNamed_shape s3 h7
  rw [List.findIdx?_append, hl] at e4
  cases e4
  obtain ⟨rfl, rfl⟩ := Act.pure_eq_ok.1 h
  exact ⟨tg, f1, rfl, s3⟩

theorem addHolidays_shape {g : Parts γ} {fmt : Int → Cell} {a l : Nat} {w w' : World σ γ}
    {ops : List (Op (World σ γ)) × List (Op (World σ γ))} {ca : List Val × Nat × Dict String Nat}
    (hs : Shape w R P S T) (hT : T.length = 2) (hca : P[a]? = some ca)
    (hl : S.findIdx? (fun s => decide (s.1 = "purchases")) = some l)
    (h : addHolidays env g fmt a w = .ok ops w') :
    ∃ tg, Far tg ∧ ops = (leaveOps env fmt S.length l (S.length + 1), returnOps env fmt (S.length + 1) l) ∧
      Shape w' R P (S ++ [("agent_start_holidays", "AGENT", ca.1, tg),
        ("agent_stops_holidays", "AGENT", ca.1, tg)]) T := by
  rw [addHolidays] at h
  obtain ⟨tg, w1, h1, h⟩ := Act.bind_eq_ok.1 h
  obtain ⟨f1, s1⟩ := seeded_far hs hT h1
  obtain ⟨g1, w2, h2, h⟩ := Act.bind_eq_ok.1 h
  obtain ⟨f2, s2⟩ := seeded_far s1 hT h2
  obtain ⟨g2, w3, h3, h⟩ := Act.bind_eq_ok.1 h
  obtain ⟨f3, s3⟩ := seeded_far s2 hT h3
  obtain ⟨n, w4, h4, h⟩ := Act.bind_eq_ok.1 h
  have hfar : FarStory (leaveStory a tg g1) := ⟨f2, f1, by simp [leaveStory]⟩
  obtain ⟨c1, e1, rfl, s4⟩ := createStory_shape hfar s3 h4
  rw [show (leaveStory a tg g1).population = a from rfl, hca] at e1
  cases e1
  obtain ⟨m, w5, h5, h⟩ := Act.bind_eq_ok.1 h
  have hfar : FarStory (returnStory a tg g2) := ⟨f3, f1, by simp [returnStory]⟩
  obtain ⟨c1, e1, rfl, s5⟩ := createStory_shape hfar s4 h5
  rw [show (returnStory a tg g2).population = a from rfl, hca] at e1
  cases e1
  obtain ⟨l', w7, h7, h⟩ := Act.bind_eq_ok.1 h
  obtain ⟨rfl, e4⟩ := storyNamed_shape s5 h7
  rw [List.findIdx?_append, List.findIdx?_append, hl] at e4
  cases e4
  obtain ⟨rfl, rfl⟩ := Act.pure_eq_ok.1 h
  refine ⟨tg, f1, by simp, by simpa [leaveStory, returnStory] using s5⟩

theorem addReviews_shape {g : Parts γ} {fmt : Int → Cell} {a : Nat} {c c' : Circus σ γ}
    {ops : List (Op (World σ γ))} {ca : List Val × Nat × Dict String Nat}
    (hs : Shape c.world R P S T) (hT : T.length = 2) (hca : P[a]? = some ca)
    (h : addReviews env g fmt a c = .ok ops c') :
    ∃ tg rg xg, ∃ rc : List Val × Nat × Dict String Nat, Far tg ∧ Far rg ∧ Far xg ∧
      ops = reviewOps env fmt S.length a P.length rg xg ∧
      Shape c'.world R (P ++ [rc]) (S ++ [("agent_reviews", "AGENT", ca.1, tg)]) T := by
  rw [addReviews] at h
  obtain ⟨tg, c1, h1, h⟩ := Act.bind_eq_ok.1 h
  obtain ⟨f1, s1⟩ := seeded_far hs hT (onWorld_circus h1)
  obtain ⟨g1, c2, h2, h⟩ := Act.bind_eq_ok.1 h
  obtain ⟨f2, s2⟩ := seeded_far s1 hT (onWorld_circus h2)
  obtain ⟨rv, c3, h3, h⟩ := Act.bind_eq_ok.1 h
  obtain ⟨ids, rfl, -, s3, -⟩ := createPopulation_far f1 s2 h3
  have h := onWorld_circus h
  obtain ⟨u, w4, h4, h⟩ := Act.bind_eq_ok.1 h
  have s4 := createConstant_shape s3 h4
  obtain ⟨u, w5, h5, h⟩ := Act.bind_eq_ok.1 h
  have s5 := createConstant_shape s4 h5
  obtain ⟨u, w6, h6, h⟩ := Act.bind_eq_ok.1 h
  have s6 := createConstant_shape s5 h6
  obtain ⟨u, w7, h7, h⟩ := Act.bind_eq_ok.1 h
  have s7 := createConstant_shape s6 h7
  obtain ⟨n, w8, h8, h⟩ := Act.bind_eq_ok.1 h
  have hfar : FarStory (reviewStory a tg g1) := ⟨f2, f1, by simp [reviewStory]⟩
  obtain ⟨c1, e1, rfl, s8⟩ := createStory_shape hfar s7 h8
  have hlt : a < P.length := by
    rcases Nat.lt_or_ge a P.length with h | h
    · exact h
    · rw [List.getElem?_eq_none h] at hca; cases hca
  rw [show (reviewStory a tg g1).population = a from rfl, List.getElem?_append_left hlt, hca] at e1
  cases e1
  obtain ⟨rg, w9, h9, h⟩ := Act.bind_eq_ok.1 h
  obtain ⟨f9, s9⟩ := addGenerator_far s8 hT h9
  obtain ⟨xg, w10, h10, h⟩ := Act.bind_eq_ok.1 h
  obtain ⟨f10, s10⟩ := seeded_far s9 hT h10
  obtain ⟨rfl, rfl⟩ := Act.pure_eq_ok.1 h
  exact ⟨tg, rg, xg, _, f1, f9, f10, rfl, s10⟩

/-- what the constructor leaves -/
structure Built (env : Env σ γ) (p : Params) (g : Parts γ) (fmt : Int → Cell)
    (chains : List (List (Op (World σ γ)))) (w : World σ γ) : Prop where
  built : ∃ r0 r1 r2 r3 r4 distIds dealerIds agentIds n rc sims T t1 t2 t3 t5 rg xg,
    ∃ owners0 owners1 : List Val,
    chains = [restockOps env fmt 0 0 0 (.ref 1), purchaseOps env fmt 1 3 1 2, bulkOps env fmt 2 0 1 0 4 0 1,
      leaveOps env fmt 3 1 4, returnOps env fmt 4 1, reviewOps env fmt 5 2 3 rg xg] ∧
    Shape w [r0, r1, r2, r3, r4]
      [(distIds, n, [("SIM", 0)]), (dealerIds, p.nDealers, [("SIM", 1), ("DISTRIBUTOR", 4)]),
        (agentIds, p.nAgents, [("SIM", 2), ("DEALERS", 3)]), rc]
      [("distributor_restock", "DISTRIBUTOR_ID", distIds, (restockStory 0).timerGen),
        ("purchases", "AGENT", agentIds, t1), ("bulk_purchases", "DEALER_ID", dealerIds, t2),
        ("agent_start_holidays", "AGENT", agentIds, t3), ("agent_stops_holidays", "AGENT", agentIds, t3),
        ("agent_reviews", "AGENT", agentIds, t5)] T ∧
    (Far t1 ∧ Far t2 ∧ Far t3 ∧ Far t5 ∧ Far rg ∧ Far xg) ∧
    (distIds.Nodup ∧ dealerIds.Nodup ∧ agentIds.Nodup) ∧
    Drawn env g.dealerIds p.nDealers dealerIds ∧ Drawn env g.agentIds p.nAgents agentIds ∧
    FirstDraws env p g sims T ∧
    (owners0.length = sims.length ∧ (∀ o ∈ owners0, o ∈ distIds) ∧ Filled env r0 (owners0.zip sims)) ∧
    (owners1.length = (dealerSims p).length ∧ (∀ o ∈ owners1, o ∈ dealerIds) ∧
      Filled env r1 (owners1.zip (dealerSims p) ++ brokePairs)) ∧
    Filled env r2 []

theorem build_shape {p : Params} {g : Parts γ} {fmt : Int → Cell} {c c' : Circus σ γ}
    {chains : List (List (Op (World σ γ)))} (hs : Shape c.world [] [] [] [])
    (h : build env p g fmt c = .ok chains c') : Built env p g fmt chains c'.world := by
  rw [build] at h
  obtain ⟨⟨d, sg⟩, c1, h1, h⟩ := Act.bind_eq_ok.1 h
  obtain ⟨r0, distIds, n, sims, T, owners0, rfl, rfl, nd0, hfd, a1, a2, a3, s1⟩ := createDistributors_shape hs h1
  have hT : T.length = 2 := by
    obtain ⟨_, _, _, rfl, -⟩ := hfd
    rfl
  dsimp only at h
  obtain ⟨op0, c2, h2, h⟩ := Act.bind_eq_ok.1 h
  obtain ⟨rfl, s2⟩ := addRestock_shape s1 rfl rfl (onWorld_circus h2)
  obtain ⟨dl, c3, h3, h⟩ := Act.bind_eq_ok.1 h
  obtain ⟨r1, dealerIds, owners1, rfl, nd1, hd1, b1, b2, b3, s3⟩ := createDealers_shape s2 hT h3
  obtain ⟨ag, c4, h4, h⟩ := Act.bind_eq_ok.1 h
  obtain ⟨r2, agentIds, rfl, nd2, hd2, e1, s4⟩ := createAgents_shape s3 hT h4
  obtain ⟨u, c5, h5, h⟩ := Act.bind_eq_ok.1 h
  obtain ⟨ca, r3, hca, s5⟩ := connectAgents_shape s4 hT (onWorld_circus h5)
  cases hca
  obtain ⟨u, c6, h6, h⟩ := Act.bind_eq_ok.1 h
  obtain ⟨cd, r4, hcd, s6⟩ := connectDealers_shape s5 hT (onWorld_circus h6)
  cases hcd
  obtain ⟨op1, c7, h7, h⟩ := Act.bind_eq_ok.1 h
  obtain ⟨t1, f1, rfl, s7⟩ := addPurchases_shape (i := 3) (j := 1) (k := 2) s6 hT rfl rfl rfl rfl rfl (onWorld_circus h7)
  obtain ⟨op2, c8, h8, h⟩ := Act.bind_eq_ok.1 h
  obtain ⟨t2, f2, rfl, s8⟩ := addBulk_shape (i := 4) (j := 0) (k := 1) (l := 0) s7 hT rfl rfl rfl rfl rfl rfl (onWorld_circus h8)
  obtain ⟨⟨op3, op4⟩, c9, h9, h⟩ := Act.bind_eq_ok.1 h
  obtain ⟨t3, f3, e34, s9⟩ := addHolidays_shape (l := 1) s8 hT rfl rfl (onWorld_circus h9)
  cases e34
  dsimp only at h
  obtain ⟨op5, c10, h10, h⟩ := Act.bind_eq_ok.1 h
  obtain ⟨t5, rg, xg, rc, f5, f6, f7, rfl, s10⟩ := addReviews_shape s9 hT rfl h10
  obtain ⟨rfl, rfl⟩ := Act.pure_eq_ok.1 h
  exact ⟨r0, r1, r2, r3, r4, distIds, dealerIds, agentIds, n, rc, sims, T, t1, t2, t3, t5, rg, xg, owners0,
    owners1, rfl, s10, ⟨f1, f2, f3, f5, f6, f7⟩, ⟨nd0, nd1, nd2⟩, hd1, hd2, hfd, ⟨a1, a2, a3⟩, ⟨b1, b2, b3⟩, e1⟩

end Snd
end Trumania
