import Verif.Spec.Cdr
import Verif.Proofs.CdrObjects
import Verif.Proofs.SndPops
import Verif.Props.Components

/-! Helper lemmas: what the constructor of the scenario of test_cdr.py leaves. -/

namespace Trumania
namespace Cdr
open Spec World Circus
variable {σ γ : Type} {env : Env σ γ}

/-- the pairs of the relationships, the populations, and the names and the fields of the stories -/
structure Stage (env : Env σ γ) (R : List (List (Val × Val))) (P : List Population) (S : List (String × String))
    (w : World σ γ) : Prop where
  rels : List.Forall₂ (Snd.Filled env) w.rels R
  pops : w.pops = P
  stories : w.stories.map (fun s => (s.name, s.idField)) = S
  wf : ∀ p ∈ P, Population.WF p
  ids : ∀ s ∈ w.stories, s.ids.Nodup

variable {R : List (List (Val × Val))} {P : List Population} {S : List (String × String)} {w w' : World σ γ}

theorem Stage.same (h : Stage env R P S w) (h1 : w'.rels = w.rels) (h2 : w'.pops = w.pops)
    (h3 : w'.stories = w.stories) : Stage env R P S w' :=
  ⟨h1 ▸ h.rels, h2.trans h.pops, h3 ▸ h.stories, h.wf, h3 ▸ h.ids⟩

theorem stage_drawSeed {x : Int} (hs : Stage env R P S w) (h : drawSeed env w = .ok x w') : Stage env R P S w' := by
  obtain ⟨s, -, rfl⟩ := drawSeed_eq_ok h
  exact hs.same rfl rfl rfl

theorem stage_addGenerator {g : γ} {r : GenRef} (hs : Stage env R P S w) (h : Snd.addGenerator g w = .ok r w') :
    Stage env R P S w' := by
  rw [Snd.addGenerator] at h
  cases h
  exact hs.same rfl rfl rfl

theorem stage_seeded {mk : Int → γ} {r : GenRef} (hs : Stage env R P S w) (h : Snd.seeded env mk w = .ok r w') :
    Stage env R P S w' := by
  rw [Snd.seeded] at h
  obtain ⟨x, w1, h1, h2⟩ := Act.bind_eq_ok.1 h
  exact stage_addGenerator (stage_drawSeed hs h1) h2

theorem stage_localSeeded {mk : Int → γ} {s : σ} {r : GenRef × σ} (hs : Stage env R P S w)
    (h : localSeeded env s mk w = .ok r w') : Stage env R P S w' := by
  rw [localSeeded] at h
  obtain ⟨x, w1, h1, h⟩ := Act.bind_eq_ok.1 h
  obtain ⟨-, rfl⟩ := Act.ofPy_eq_ok.1 h1
  obtain ⟨g, w2, h2, h⟩ := Act.bind_eq_ok.1 h
  obtain ⟨-, rfl⟩ := Act.pure_eq_ok.1 h
  exact stage_addGenerator hs h2

theorem stage_generate {g : GenRef} {n : Rat} {cells : List Cell} (hs : Stage env R P S w)
    (h : World.generate env g n w = .ok cells w') : Stage env R P S w' := by
  obtain ⟨h1, h2⟩ := call_sameRest h
  exact hs.same h2.rels h2.pops h1

theorem wf_set_at {P : List Population} {k : Nat} {p : Population} (h : ∀ p ∈ P, Population.WF p)
    (hp : Population.WF p) : ∀ q ∈ P.set k p, Population.WF q := by
  intro q hq
  rcases List.mem_or_eq_of_mem_set hq with hq | rfl
  · exact h q hq
  · exact hp

theorem stage_setPop {pop : Nat} {p' : Population} (hs : Stage env R P S w)
    (hp' : Population.WF p') (h : w'.pops = w.pops.set pop p') (h1 : w'.rels = w.rels)
    (h3 : w'.stories = w.stories) : Stage env R (P.set pop p') S w' :=
  ⟨h1 ▸ hs.rels, by rw [h, hs.pops], h3 ▸ hs.stories, wf_set_at hs.wf hp', h3 ▸ hs.ids⟩

theorem new_wf {p : Population} {name : String} {values : List Cell} {a : Attribute} (hp : Population.WF p)
    (h : Attribute.new p.size p.ids values = .ok a) :
    Population.WF { p with attributes := p.attributes.set name a } := by
  refine Population.popCall_wf (R := Rng.counter) (.createAttribute name values ?_) hp
  rw [Population.createAttribute, h]
  rfl

theorem stage_createGiven {pop : Nat} {name : String} {values : List Cell} {u : Unit} (hs : Stage env R P S w)
    (h : createGiven pop name values w = .ok u w') : ∃ p a, P[pop]? = some p ∧
      Attribute.new p.size p.ids values = .ok a ∧
      Stage env R (P.set pop { p with attributes := p.attributes.set name a }) S w' := by
  rw [createGiven] at h
  obtain ⟨p, w1, h1, h⟩ := Act.bind_eq_ok.1 h
  obtain ⟨hp, rfl⟩ := getPop_eq_ok.1 h1
  obtain ⟨p', w2, h2, h⟩ := Act.bind_eq_ok.1 h
  obtain ⟨h3, rfl⟩ := Act.ofPy_eq_ok.1 h2
  rw [setPop_eq_ok] at h
  subst h
  rw [Population.createAttribute] at h3
  obtain ⟨a, h4, h3⟩ := bind_eq_ok.1 h3
  cases h3
  rw [hs.pops] at hp
  exact ⟨p, a, hp, h4, stage_setPop hs (new_wf (hs.wf p (List.mem_of_getElem? hp)) h4) rfl rfl rfl⟩

theorem stage_createDrawn {pop : Nat} {name : String} {g : GenRef} {u : Unit} (hs : Stage env R P S w)
    (h : Snd.createDrawn env pop name g w = .ok u w') : ∃ p a values, P[pop]? = some p ∧
      (p.size = 0 ∧ values = [] ∨ ∃ w1, World.generate env g (p.size : Rat) w = .ok values w1) ∧
      Attribute.new p.size p.ids values = .ok a ∧
      Stage env R (P.set pop { p with attributes := p.attributes.set name a }) S w' := by
  obtain ⟨p, a, values, h1, h2, h3, h4⟩ := Snd.createDrawn_attrs h
  have h5 : w'.rels = w.rels ∧ w'.stories = w.stories := by
    rw [Snd.createDrawn] at h
    obtain ⟨p, w1, h1, h⟩ := Act.bind_eq_ok.1 h
    obtain ⟨-, rfl⟩ := getPop_eq_ok.1 h1
    obtain ⟨vs, w2, hv, h⟩ : ∃ (vs : List Cell) (w2 : World σ γ), (w2.rels = w.rels ∧ w2.stories = w.stories) ∧
        (do let p ← Act.ofPy (p.createAttribute name vs); setPop pop p : Act (World σ γ) Unit) w2 =
          .ok u w' := by
      split at h
      · exact ⟨_, w, ⟨rfl, rfl⟩, h⟩
      · obtain ⟨vs, w2, h2, h⟩ := Act.bind_eq_ok.1 h
        exact ⟨vs, w2, ⟨(call_sameRest h2).2.rels, (call_sameRest h2).1⟩, h⟩
    obtain ⟨p', w3, h3, h⟩ := Act.bind_eq_ok.1 h
    obtain ⟨-, rfl⟩ := Act.ofPy_eq_ok.1 h3
    rw [setPop_eq_ok] at h
    subst h
    exact hv
  rw [hs.pops] at h1
  exact ⟨p, a, values, h1, h2, h3, stage_setPop hs (new_wf (hs.wf p (List.mem_of_getElem? h1)) h3) h4 h5.1 h5.2⟩

theorem stage_createRelationship {pop i : Nat} {name : String} (hs : Stage env R P S w)
    (h : createRelationship env pop name none w = .ok i w') : ∃ p, P[pop]? = some p ∧ i = R.length ∧
      Stage env (R ++ [[]]) (P.set pop { p with relationships := p.relationships.set name R.length }) S w' := by
  obtain ⟨p, x, s, -, hp, rfl, rfl⟩ := createRelationship_eq_ok h
  have hl : w.rels.length = R.length := hs.rels.length_eq
  refine ⟨p, hs.pops ▸ hp, hl, ?_, ?_, hs.stories, ?_, hs.ids⟩
  · exact List.rel_append hs.rels (.cons (Snd.filled_new x) .nil)
  · simp only [withRel, hs.pops, hl]
  · have hp' := hs.wf p (List.mem_of_getElem? (hs.pops ▸ hp))
    exact wf_set_at hs.wf ⟨hp'.ids, hp'.names, hp'.values⟩

theorem forall₂_set {α β : Type} {Q : α → β → Prop} {l : List α} {l' : List β} (h : List.Forall₂ Q l l') {i : Nat}
    {a : α} {b : β} (hab : Q a b) : List.Forall₂ Q (l.set i a) (l'.set i b) := by
  induction h generalizing i with
  | nil => exact .nil
  | cons h hs ih =>
    cases i with
    | zero => exact .cons hab hs
    | succ i => exact .cons h ih

theorem forall₂_at {α β : Type} {Q : α → β → Prop} {l : List α} {l' : List β} (h : List.Forall₂ Q l l') {i : Nat}
    {a : α} (ha : l[i]? = some a) : ∃ b, l'[i]? = some b ∧ Q a b := by
  induction h generalizing i with
  | nil => simp at ha
  | cons h hs ih =>
    cases i with
    | zero =>
      cases ha
      exact ⟨_, rfl, h⟩
    | succ i => exact ih ha

/-- the pairs added by `add_relations`, whatever the weights -/
theorem filled_add_any {r r' : Relationship σ} {L : List (Val × Val)} {f t : List Val} {ws : Weights}
    (hr : Snd.Filled env r L) (hl : f.length = t.length)
    (h : r.add_relations env.orders f t ws = .ok r') : Snd.Filled env r' (L ++ f.zip t) := by
  have h : AddCall.exec r (.relations f t ws, env.orders) = .ok r' := h
  refine ⟨reachable_addCall env.R hr.1 h, fun o => ?_⟩
  have := (C16_step env.R hr.1 h o o).map fun x => (x.1, x.2.1)
  rw [List.map_append] at this
  refine this.trans ((hr.2 o).append ?_)
  have hws := addCall_wellSized h
  rw [added_relations, addedRows]
  have key : (f.zip (t.zip (ws.expand f.length))).map (fun x => (x.1, x.2.1)) = f.zip t := by
    have hlen : t.length ≤ (ws.expand f.length).length := by
      cases ws with
      | scalar q => simp [Weights.expand, hl]
      | list l => exact hl ▸ hws.2 l rfl
    have : t = (t.zip (ws.expand f.length)).map Prod.fst := (List.map_fst_zip hlen).symm
    conv_rhs => rw [this, List.zip_map_right]
    rfl
  rw [key]

theorem stage_addRelations {i : Nat} {f t : List Val} {ws : Weights} {u : Unit} (hl : f.length = t.length)
    (hs : Stage env R P S w) (h : addRelations env i f t ws w = .ok u w') :
    ∃ L, R[i]? = some L ∧ Stage env (R.set i (L ++ f.zip t)) P S w' := by
  obtain ⟨r, r', h1, h2, rfl⟩ := addRelations_eq_ok h
  obtain ⟨L, hL, hf⟩ := forall₂_at hs.rels h1
  exact ⟨L, hL, forall₂_set hs.rels (filled_add_any hf hl h2), hs.pops, hs.stories, hs.wf, hs.ids⟩

theorem stage_createPopulation {c c' : Circus σ γ} {name : String} {init : PopInit} {i : Nat}
    (hs : Stage env R P S c.world) (h : createPopulation env name init c = .ok i c') :
    ∃ ids n, i = P.length ∧ (∀ g m, init = .generated g m → n = m ∧ (m = 0 → ids = [])) ∧
      (∀ l, init = .ids l → ids = l) ∧
      Stage env R (P ++ [⟨ids, n, [], []⟩]) S c'.world := by
  rcases createPopulation_cases (env := env) name init c with ⟨-, he⟩ | ⟨-, ⟨e, w, -, -, he⟩ |
    ⟨p, w, h1, h2, he⟩⟩
  · rw [he] at h; cases h
  · rw [he] at h; cases h
  · rw [he] at h
    cases h
    simp only [World.objects, Prod.mk.injEq] at h2
    obtain ⟨k1, k2, k3⟩ := h2
    have hof : ∀ {ids : List Val} {n : Nat} {q : Population}, Population.ofIds ids n = .ok q →
        q = ⟨ids, n, [], []⟩ ∧ ids.Nodup := by
      intro ids n q hq
      rw [Population.ofIds] at hq
      split at hq
      · cases hq; exact ⟨rfl, by assumption⟩
      · cases hq
    have key : ∃ ids n, p = ⟨ids, n, [], []⟩ ∧ ids.Nodup ∧ (∀ g m, init = .generated g m → n = m ∧ (m = 0 → ids = [])) ∧
        (∀ l, init = .ids l → ids = l) := by
      cases init with
      | ids l =>
        obtain ⟨h3, -⟩ := Act.ofPy_eq_ok.1 h1
        obtain ⟨rfl, h4⟩ := hof h3
        exact ⟨l, _, rfl, h4, fun _ _ e => (by cases e), fun _ e => (by cases e; rfl)⟩
      | generated g m =>
        rw [newPopulation] at h1
        split at h1
        · rename_i hm
          subst hm
          obtain ⟨h3, -⟩ := Act.ofPy_eq_ok.1 h1
          rw [Population.new, if_pos rfl] at h3
          obtain ⟨rfl, h4⟩ := hof h3
          exact ⟨[], 0, rfl, h4, fun _ _ e => (by cases e; exact ⟨rfl, fun _ => rfl⟩), fun _ e => (by cases e)⟩
        · rename_i hm
          obtain ⟨cells, w1, -, h1⟩ := Act.bind_eq_ok.1 h1
          obtain ⟨ids, w2, -, h1⟩ := Act.bind_eq_ok.1 h1
          obtain ⟨h3, -⟩ := Act.ofPy_eq_ok.1 h1
          rw [Population.new, if_neg hm] at h3
          obtain ⟨rfl, h4⟩ := hof h3
          exact ⟨ids, m, rfl, h4, fun _ _ e => (by cases e; exact ⟨rfl, fun h => absurd h hm⟩), fun _ e => (by cases e)⟩
      | both => cases h1
      | neither => cases h1
    obtain ⟨ids, n, rfl, h4, h5, h6⟩ := key
    refine ⟨ids, n, by rw [hs.pops], h5, h6, ?_, ?_, ?_, ?_, ?_⟩
    · exact k1 ▸ hs.rels
    · show w.pops ++ _ = _
      rw [k2, hs.pops]
    · exact k3 ▸ hs.stories
    · intro q hq
      rcases List.mem_append.1 hq with hq | hq
      · exact hs.wf q hq
      · rw [List.mem_singleton] at hq
        subst hq
        exact ⟨h4, List.nodup_nil, by simp⟩
    · exact k3 ▸ hs.ids

theorem stage_createStory {cfg : StoryConfig} {n : Nat} (hs : Stage env R P S w)
    (h : World.createStory env cfg w = .ok n w') :
    n = S.length ∧ Stage env R P (S ++ [(cfg.name, cfg.idField)]) w' := by
  obtain ⟨-, p, s, w1, h2, h3, rfl, rfl⟩ := createStory_ok h
  obtain ⟨st, s0, w2, -, -, -, k1, k2, k3, k4, k5, k6, -, -, -, k7, -, h5⟩ := newStory_ok h3
  have hcore : s.name = cfg.name ∧ s.idField = cfg.idField ∧ s.ids = p.ids := by
    have h0 : s0.ids = p.ids := by
      simp only [Story.ids, k7, List.map_map, Function.comp_def, List.map_id']
    rcases h5 with ⟨-, rfl, -⟩ | ⟨-, h5⟩
    · exact ⟨k3, k5, h0⟩
    · obtain ⟨-, -, h6, h7, -⟩ := resetStory_ok h5
      refine ⟨?_, ?_, h7.trans h0⟩
      · rw [h6]
        exact k3
      · rw [h6]
        exact k5
  refine ⟨by rw [k1, ← hs.stories, List.length_map], k2.rels ▸ hs.rels, k2.pops.trans hs.pops, ?_, hs.wf, ?_⟩
  · simp only [List.map_append, k1, hs.stories, List.map_cons, List.map_nil, hcore.1, hcore.2.1]
  · intro x hx
    rcases List.mem_append.1 hx with hx | hx
    · exact hs.ids x (k1 ▸ hx)
    · rw [List.mem_singleton] at hx
      subst hx
      rw [hcore.2.2]
      exact (hs.wf p (List.mem_of_getElem? (hs.pops ▸ h2))).ids

theorem stage_addWeighted {i : Nat} {g : GenRef} {pairs : List (Val × Val)} {u : Unit} (hs : Stage env R P S w)
    (h : addWeighted env i g pairs w = .ok u w') : ∃ L, R[i]? = some L ∧ Stage env (R.set i (L ++ pairs)) P S w' := by
  rw [addWeighted] at h
  obtain ⟨cells, w1, h1, h⟩ := Act.bind_eq_ok.1 h
  obtain ⟨ws, w2, h2, h⟩ := Act.bind_eq_ok.1 h
  obtain ⟨-, rfl⟩ := Act.ofPy_eq_ok.1 h2
  obtain ⟨L, h3, h4⟩ := stage_addRelations (by simp) (stage_generate hs h1) h
  exact ⟨L, h3, by rwa [← List.zip_of_prod rfl rfl] at h4⟩

/-- the values of an attribute drawn from a relationship: a related one for each member that has any -/
theorem stage_createFromRelation {pop rel : Nat} {name : String} {u : Unit} (hs : Stage env R P S w)
    (h : createFromRelation env pop rel name w = .ok u w') : ∃ p a L, P[pop]? = some p ∧ R[rel]? = some L ∧
      (∀ i c, Holds a i c → ∃ x, c = .scalar x ∧ (i, x) ∈ L) ∧
      (p.size ≠ 0 → ∀ i x, (i, x) ∈ L → ∃ c, Holds a i c) ∧
      Stage env R (P.set pop { p with attributes := p.attributes.set name a }) S w' := by
  rw [createFromRelation] at h
  obtain ⟨p, w1, h1, h⟩ := Act.bind_eq_ok.1 h
  obtain ⟨hp, rfl⟩ := getPop_eq_ok.1 h1
  obtain ⟨r, w1, h1, h⟩ := Act.bind_eq_ok.1 h
  obtain ⟨hr, rfl⟩ := getRel_eq_ok.1 h1
  obtain ⟨⟨a, r'⟩, w1, h1, h⟩ := Act.bind_eq_ok.1 h
  obtain ⟨ha, rfl⟩ := Act.ofPy_eq_ok.1 h1
  obtain ⟨u1, w1, h1, h⟩ := Act.bind_eq_ok.1 h
  rw [setRel_eq_ok] at h1
  subst h1
  rw [setPop_eq_ok] at h
  subst h
  obtain ⟨L, hL, hf⟩ := forall₂_at hs.rels hr
  rw [hs.pops] at hp
  have hwf : Population.WF { p with attributes := p.attributes.set name a } :=
    Population.popCall_wf (.relationAttribute name hf.1 ha) (hs.wf p (List.mem_of_getElem? hp))
  have hset : R.set rel L = R := by
    apply List.ext_getElem?
    intro j
    rw [List.getElem?_set]
    split
    · rename_i e
      subst e
      split
      · exact hL.symm
      · rw [List.getElem?_eq_none (by omega)] at hL
        cases hL
    · rfl
  have key : Snd.Filled env r' L ∧
      (∀ i c, Holds a i c → ∃ x, c = .scalar x ∧ (i, x) ∈ L) ∧
      (p.size ≠ 0 → ∀ i x, (i, x) ∈ L → ∃ c, Holds a i c) := by
    rw [Attribute.fromRelationship] at ha
    split at ha
    · rename_i hz
      cases ha
      exact ⟨hf, fun i c hi => (List.not_mem_nil hi).elim, fun h => absurd hz h⟩
    · obtain ⟨⟨rows, r1⟩, h1, ha⟩ := bind_eq_ok.1 ha
      cases ha
      have hm : ∀ i x, (i, x) ∈ L ↔ ∃ wt, (i, x, wt) ∈ r.get_relations Orders.a := by
        intro i x
        rw [← (hf.2 Orders.a).mem_iff, List.mem_map]
        constructor
        · rintro ⟨⟨a, b, c⟩, hx, e⟩
          cases e
          exact ⟨c, hx⟩
        · rintro ⟨wt, hx⟩
          exact ⟨_, hx, rfl⟩
      obtain ⟨reqs, -, -, h2, outs, rfl, h3⟩ := C19_select_one_none env.R hf.1 Orders.a h1
      refine ⟨⟨.selectOne hf.1 h1, fun o => ?_⟩, ?_, ?_⟩
      · obtain ⟨-, outs', hs'⟩ := select_one_ok env.R hf.1.gwf h1
        refine List.Perm.trans ?_ (hf.2 o)
        apply List.Perm.map
        rw [get_relations_perm_iff, hs'.keep rfl]
        intro f
        rw [get_relations_none_rowsOf]
      · intro i c hi
        obtain ⟨row, hrow, e⟩ := List.mem_map.1 hi
        cases e
        obtain ⟨out, hout, e⟩ := List.mem_filterMap.1 hrow
        obtain ⟨k, hk⟩ := List.mem_iff_getElem?.1 hout
        obtain ⟨q, -, hq⟩ := forall₂_at' h3 hk
        subst e
        refine ⟨_, rfl, ?_⟩
        by_cases hh : Has (r.get_relations Orders.a) q.2
        · obtain ⟨row', t, wt, e1, -, e2, e3, e4⟩ := hq.1 hh
          cases e1
          rw [e2, e3, hm]
          exact ⟨wt, e4⟩
        · have := hq.2 hh
          rw [if_pos rfl] at this
          cases this
      · intro _ i x hx
        obtain ⟨wt, hx⟩ := (hm _ _).1 hx
        obtain ⟨q, hq, e⟩ := List.mem_map.1 (h2 i ⟨x, wt, hx⟩)
        obtain ⟨k, hk⟩ := List.mem_iff_getElem?.1 hq
        obtain ⟨out, hout, ha⟩ := forall₂_at h3 hk
        obtain ⟨row', t, wt', e1, -, e2, -⟩ := ha.1 (e ▸ ⟨x, wt, hx⟩)
        subst e1
        exact ⟨_, List.mem_map.2 ⟨row', List.mem_filterMap.2 ⟨_, List.mem_of_getElem? hout, rfl⟩, by
          rw [e2, e]⟩⟩
  exact ⟨p, a, L, hp, hL, key.2.1, key.2.2, by
    have := forall₂_set (i := rel) hs.rels key.1
    rwa [hset] at this, by simp only [hs.pops], hs.stories, wf_set_at hs.wf hwf, hs.ids⟩

theorem bipartite_mem {α β : Type} {group1 : List α} {group2 : List β} {p : Rat} {edges : List (Nat × Nat)}
    {out : List (α × β)} (h : make_random_bipartite_data group1 group2 p edges = .ok out) :
    ∀ x ∈ out, x.1 ∈ group1 ∧ x.2 ∈ group2 := by
  rw [make_random_bipartite_data] at h
  split at h
  · cases h; simp
  split at h
  · cases h
  rw [mapM_ok_iff] at h
  intro x hx
  obtain ⟨k, hk⟩ := List.mem_iff_getElem?.1 hx
  obtain ⟨⟨i, j⟩, -, hij⟩ := forall₂_at' h hk
  simp only [bind_eq_ok] at hij
  obtain ⟨a', h1, h2⟩ := hij
  split at h2
  · cases h2
  · simp only [bind_eq_ok] at h2
    obtain ⟨b', h3, h4⟩ := h2
    cases h4
    rw [nth] at h1 h3
    split at h1 <;> cases h1
    split at h3 <;> cases h3
    exact ⟨List.mem_of_getElem? (by assumption), List.mem_of_getElem? (by assumption)⟩

theorem stage_relNamed {pop i : Nat} {name : String} (hs : Stage env R P S w)
    (h : Snd.relNamed pop name w = .ok i w') : w' = w ∧ ∃ p, P[pop]? = some p ∧ p.relationships.get? name = some i := by
  rw [Snd.relNamed] at h
  obtain ⟨p, w1, h1, h⟩ := Act.bind_eq_ok.1 h
  obtain ⟨hp, rfl⟩ := getPop_eq_ok.1 h1
  obtain ⟨h2, rfl⟩ := Act.ofPy_eq_ok.1 h
  exact ⟨rfl, p, hs.pops ▸ hp, Population.get_eq_ok.1 h2⟩

theorem stage_storyNamed {name : String} {i : Nat} (hs : Stage env R P S w)
    (h : Snd.storyNamed name w = .ok i w') : w' = w ∧ S.findIdx? (fun s => decide (s.1 = name)) = some i := by
  rw [Snd.storyNamed, Act.bind_ok (FS.get_ok w)] at h
  cases hf : w.findStory name with
  | none => rw [hf] at h; cases h
  | some j =>
    rw [hf] at h
    cases h
    refine ⟨rfl, ?_⟩
    rw [findStory] at hf
    rw [← hs.stories, List.findIdx?_map]
    exact hf

/-- a new attribute has a value for each member -/
theorem new_holds {n : Nat} {ids : List Val} {values : List Cell} {a : Attribute}
    (h : Attribute.new n ids values = .ok a) (hn : n = 0 → ids = []) :
    (∀ s ∈ ids, ∃ v, Holds a s v) ∧ (∀ s v, Holds a s v → s ∈ ids ∧ v ∈ values) ∧
    (n ≠ 0 → values.length = ids.length ∧ a.table = ids.zip values) := by
  rw [Attribute.new] at h
  split at h
  · rename_i hz
    cases h
    rw [hn hz]
    exact ⟨by simp, fun s v h => (List.not_mem_nil h).elim, fun h => absurd hz h⟩
  · split at h
    · cases h
    · rename_i hz hl
      rw [not_not] at hl
      cases h
      refine ⟨fun s hs => ?_, fun s v h => List.of_mem_zip h, fun _ => ⟨hl, rfl⟩⟩
      obtain ⟨k, hk, rfl⟩ := List.getElem_of_mem hs
      exact ⟨values[k]'(hl ▸ hk), List.mem_iff_getElem.2 ⟨k, by simp [hl, hk], by simp⟩⟩

theorem generate_recharge {n : Rat} {values : List Cell} (h : World.generate env recharge n w = .ok values w') :
    ∀ v ∈ values, v = .num 1000 := by
  obtain ⟨rfl, -⟩ := Act.pure_eq_ok.1 h
  exact fun v hv => List.eq_of_mem_replicate hv

/-- **the subscribers and the SIMs** -/
theorem createSubsAndSims_stage {p : Params} {g : Parts γ} {c c' : Circus σ γ} {r : Nat × Nat}
    (hs : Stage env [] [] [] c.world) (h : createSubsAndSims env p g c = .ok r c') :
    ∃ seed subIds simIds mapping pairs ao aa am numbers, r = (0, 1) ∧
      operatorPairs subIds (g.operators seed p.nSubscribers) = .ok mapping ∧
      simIds.length = mapping.length ∧ ao.table = simIds.zip (mapping.map fun x => .scalar x.2) ∧
      (∀ s v, Holds aa s v ↔ s ∈ simIds ∧ v = .num 1000) ∧ (∀ s, s ∈ simIds ↔ ∃ v, Holds am s v) ∧
      Snd.Sizes env g.msisdns numbers ∧ am.table = simIds.zip numbers ∧
      (∀ x ∈ pairs, x.1 ∈ simIds ∧ x.2 ∈ (build_ids p.nAgents 0 "AGENT_" 3).map Val.str) ∧
      Stage env [(mapping.map Prod.fst).zip simIds, pairs]
        [⟨subIds, p.nSubscribers, [], [("SIMS", 0)]⟩,
         ⟨simIds, mapping.length, [("OPERATOR", ao), ("MAIN_ACCT", aa), ("MSISDN", am)], [("POSSIBLE_AGENTS", 1)]⟩]
        [] c'.world := by
  rw [createSubsAndSims] at h
  obtain ⟨seed, c1, h1, h⟩ := Act.bind_eq_ok.1 h
  have s1 := stage_drawSeed hs (Snd.onWorld_circus h1)
  obtain ⟨sg, c2, h2, h⟩ := Act.bind_eq_ok.1 h
  have s2 := stage_addGenerator s1 (Snd.onWorld_circus h2)
  obtain ⟨subs, c3, h3, h⟩ := Act.bind_eq_ok.1 h
  obtain ⟨subIds, n, rfl, hn, -, s3⟩ := stage_createPopulation s2 h3
  obtain ⟨rfl, -⟩ := hn _ _ rfl
  obtain ⟨q, c4, h4, h⟩ := Act.bind_eq_ok.1 h
  have h4 := Snd.onWorld_circus h4
  obtain ⟨hq, h4'⟩ := getPop_eq_ok.1 h4
  rw [s3.pops] at hq
  cases hq
  have s4 := h4' ▸ s3
  obtain ⟨mapping, c5, h50, h⟩ := Act.bind_eq_ok.1 h
  obtain ⟨h5, rfl⟩ := Act.ofPy_eq_ok.1 h50
  obtain ⟨mg, c6, h6, h⟩ := Act.bind_eq_ok.1 h
  have s6 := stage_addGenerator s4 (Snd.onWorld_circus h6)
  obtain ⟨sims, c7, h7, h⟩ := Act.bind_eq_ok.1 h
  obtain ⟨simIds, m, rfl, hm0, -, s7⟩ := stage_createPopulation s6 h7
  obtain ⟨rfl, hm⟩ := hm0 _ _ rfl
  have h := Snd.onWorld_circus h
  obtain ⟨u1, w1, h8, h⟩ := Act.bind_eq_ok.1 h
  obtain ⟨q1, ao, e, ho, s8⟩ := stage_createGiven s7 h8
  cases e
  obtain ⟨u2, w2, h9, h⟩ := Act.bind_eq_ok.1 h
  obtain ⟨q2, aa, vs, e, hv, ha, s9⟩ := stage_createDrawn s8 h9
  cases e
  obtain ⟨i, w3, h10, h⟩ := Act.bind_eq_ok.1 h
  obtain ⟨q3, e, rfl, s10⟩ := stage_createRelationship s9 h10
  cases e
  obtain ⟨t, w4, h11, h⟩ := Act.bind_eq_ok.1 h
  obtain ⟨ht, rfl⟩ := getPop_eq_ok.1 h11
  rw [s10.pops] at ht
  cases ht
  have hlen : simIds.length = mapping.length := by
    by_cases hz : mapping.length = 0
    · rw [hm hz, hz]
      rfl
    · have := ((new_holds ho hm).2.2 hz).1
      rw [List.length_map] at this
      exact this.symm
  obtain ⟨u3, w5, h12, h⟩ := Act.bind_eq_ok.1 h
  obtain ⟨L, e, s11⟩ := stage_addRelations (by simpa using hlen.symm) s10 h12
  cases e
  obtain ⟨ng, w6, h13, h⟩ := Act.bind_eq_ok.1 h
  have s12 := stage_seeded s11 h13
  obtain ⟨u4, w7, h14, h⟩ := Act.bind_eq_ok.1 h
  obtain ⟨q4, am, vs', e, hv', hb, s13⟩ := stage_createDrawn s12 h14
  cases e
  obtain ⟨sd, w8, h15, h⟩ := Act.bind_eq_ok.1 h
  have s14 := stage_drawSeed s13 h15
  obtain ⟨pairs, w9, h16, h⟩ := Act.bind_eq_ok.1 h
  obtain ⟨hpairs, rfl⟩ := Act.ofPy_eq_ok.1 h16
  obtain ⟨j, w10, h17, h⟩ := Act.bind_eq_ok.1 h
  obtain ⟨q5, e, rfl, s15⟩ := stage_createRelationship s14 h17
  cases e
  obtain ⟨wg, w11, h18, h⟩ := Act.bind_eq_ok.1 h
  have s16 := stage_seeded s15 h18
  obtain ⟨u5, w12, h19, h⟩ := Act.bind_eq_ok.1 h
  obtain ⟨L, e, s17⟩ := stage_addWeighted s16 h19
  cases e
  obtain ⟨rfl, h20⟩ := Act.pure_eq_ok.1 h
  refine ⟨seed, subIds, simIds, mapping, pairs, ao, aa, am, vs', rfl, h5, hlen, ?_, ?_, ?_, ?_, ?_,
    bipartite_mem hpairs, ?_⟩
  · by_cases hz : mapping.length = 0
    · rw [hm hz]
      rw [Attribute.new, if_pos hz] at ho
      cases ho
      rfl
    · exact ((new_holds ho hm).2.2 hz).2
  · obtain ⟨k1, k2, -⟩ := new_holds ha hm
    have hvs : ∀ v ∈ vs, v = .num 1000 := by
      rcases hv with ⟨-, rfl⟩ | ⟨w1, hv⟩
      · simp
      · exact generate_recharge hv
    intro s v
    constructor
    · intro hh
      exact ⟨(k2 s v hh).1, hvs v (k2 s v hh).2⟩
    · rintro ⟨hh, rfl⟩
      obtain ⟨v, hv⟩ := k1 s hh
      rwa [hvs v (k2 s v hv).2] at hv
  · obtain ⟨k1, k2, -⟩ := new_holds hb hm
    exact fun s => ⟨k1 s, fun ⟨v, hv⟩ => (k2 s v hv).1⟩
  · rcases hv' with ⟨-, rfl⟩ | ⟨w1, hv'⟩
    · exact .inl rfl
    · obtain ⟨x, a', hx⟩ := Snd.seeded_generate h13 hv'
      exact .inr ⟨x, _, a', hx⟩
  · by_cases hz : mapping.length = 0
    · rw [hm hz]
      rw [Attribute.new, if_pos hz] at hb
      cases hb
      rfl
    · exact ((new_holds hb hm).2.2 hz).2
  · exact h20 ▸ s17

theorem last_at {P : List Population} {p : Population} : (P ++ [p])[P.length]? = some p := by simp

theorem last_set {P : List Population} {p q : Population} : (P ++ [p]).set P.length q = P ++ [q] := by simp

theorem last_rel {R : List (List (Val × Val))} {L : List (Val × Val)} : (R ++ [L])[R.length]? = some L := by simp

theorem last_rel_set {R : List (List (Val × Val))} {L L' : List (Val × Val)} :
    (R ++ [L]).set R.length L' = R ++ [L'] := by simp

/-- the cells have a health, drawn from the generator `x` -/
def Healthy (env : Env σ γ) (x : γ) (q : Population) : Prop :=
  ∃ ah, attributeOf q "HEALTH" ah ∧ (∀ s ∈ q.ids, ∃ v, Holds ah s v) ∧
    ∀ s v, Holds ah s v → s ∈ q.ids ∧ CanDraw env x v

/-- **the cells and the cities** -/
theorem buildUganda_stage {g : Parts γ} {c c' : Circus σ γ} {r : Nat × Nat} (hs : Stage env R P S c.world)
    (h : buildUganda env g c = .ok r c') :
    ∃ cells cities L, r = (P.length, P.length + 1) ∧
      Stage env (R ++ [L]) (P ++ [cells, cities]) S c'.world ∧
      ∃ s1 s2 s3, LocalSeeds env s1 s2 s3 ∧ Healthy env (g.cellHealth s3) cells := by
  rw [buildUganda] at h
  obtain ⟨cg, c1, h1, h⟩ := Act.bind_eq_ok.1 h
  have s1 := stage_addGenerator hs (Snd.onWorld_circus h1)
  obtain ⟨cells, c2, h2, h⟩ := Act.bind_eq_ok.1 h
  obtain ⟨ids, n, rfl, hn, -, s2⟩ := stage_createPopulation s1 h2
  obtain ⟨rfl, -⟩ := hn _ _ rfl
  obtain ⟨⟨cityIds, s⟩, c3, h30, h⟩ := Act.bind_eq_ok.1 h
  have s3 : ∃ cell, Stage env R (P ++ [cell]) S c3.world ∧
      ∃ s1 s2 s3, LocalSeeds env s1 s2 s3 ∧ Healthy env (g.cellHealth s3) cell := by
    have h3 := Snd.onWorld_circus h30
    obtain ⟨⟨lat, st1⟩, w1, k1, h3⟩ := Act.bind_eq_ok.1 h3
    have t1 := stage_localSeeded s2 k1
    obtain ⟨u1, w2, k2, h3⟩ := Act.bind_eq_ok.1 h3
    obtain ⟨q1, a1, v1, e1, -, -, t2⟩ := stage_createDrawn t1 k2
    rw [last_set] at t2
    obtain ⟨⟨lon, st2⟩, w3, k3, h3⟩ := Act.bind_eq_ok.1 h3
    have t3 := stage_localSeeded t2 k3
    obtain ⟨u2, w4, k4, h3⟩ := Act.bind_eq_ok.1 h3
    obtain ⟨q2, a2, v2, e2, -, -, t4⟩ := stage_createDrawn t3 k4
    rw [last_set] at t4
    obtain ⟨⟨health, st3⟩, w5, k5, h3⟩ := Act.bind_eq_ok.1 h3
    have t5 := stage_localSeeded t4 k5
    obtain ⟨u3, w6, k6, h3⟩ := Act.bind_eq_ok.1 h3
    obtain ⟨q3, a3, v3, e3, hv3, ha3, t6⟩ := stage_createDrawn t5 k6
    rw [last_set] at t6
    rw [last_at] at e1
    cases e1
    rw [last_at] at e2
    cases e2
    rw [last_at] at e3
    cases e3
    obtain ⟨⟨cityGen, st4⟩, w7, k7, h3⟩ := Act.bind_eq_ok.1 h3
    have t7 := stage_localSeeded t6 k7
    obtain ⟨names, w8, k8, h3⟩ := Act.bind_eq_ok.1 h3
    have t8 := stage_generate t7 k8
    obtain ⟨names', w9, k9, h3⟩ := Act.bind_eq_ok.1 h3
    obtain ⟨-, rfl⟩ := Act.ofPy_eq_ok.1 k9
    obtain ⟨-, e⟩ := Act.pure_eq_ok.1 h3
    obtain ⟨sd1, n1, -⟩ := (localSeeded_began k1).1
    obtain ⟨sd2, n2, -⟩ := (localSeeded_began k3).1
    obtain ⟨sd3, n3, b3⟩ := (localSeeded_began k5).1
    refine ⟨_, e ▸ t8, sd1, sd2, sd3, ⟨_, _, _, n1, n2, n3⟩, a3, List.mem_of_getElem? (i := 2) rfl, ?_⟩
    obtain ⟨l1, l2, -⟩ := new_holds ha3 (by simp)
    refine ⟨l1, fun x v hx => ⟨(l2 x v hx).1, ?_⟩⟩
    rcases hv3 with ⟨hz, -⟩ | ⟨w1, hv3⟩
    · simp at hz
    · exact began_draws b3 hv3 v (l2 x v hx).2
  obtain ⟨cell, s3, hhealth⟩ := s3
  obtain ⟨cities, c4, h4, h⟩ := Act.bind_eq_ok.1 h
  obtain ⟨ids', n', rfl, -, -, s4⟩ := stage_createPopulation s3 h4
  obtain ⟨u, c5, h50, h⟩ := Act.bind_eq_ok.1 h
  obtain ⟨rfl, rfl⟩ := Act.pure_eq_ok.1 h
  have h5 := Snd.onWorld_circus h50
  obtain ⟨rel, w1, k1, h5⟩ := Act.bind_eq_ok.1 h5
  obtain ⟨q1, -, rfl, t1⟩ := stage_createRelationship s4 k1
  rw [last_set] at t1
  obtain ⟨a, w2, k2, h5⟩ := Act.bind_eq_ok.1 h5
  obtain ⟨-, rfl⟩ := getPop_eq_ok.1 k2
  obtain ⟨b, w3, k3, h5⟩ := Act.bind_eq_ok.1 h5
  obtain ⟨-, rfl⟩ := getPop_eq_ok.1 k3
  obtain ⟨⟨seed, st⟩, w4, k4, h5⟩ := Act.bind_eq_ok.1 h5
  obtain ⟨-, rfl⟩ := Act.ofPy_eq_ok.1 k4
  obtain ⟨assigned, w5, k5, h5⟩ := Act.bind_eq_ok.1 h5
  obtain ⟨-, rfl⟩ := Act.ofPy_eq_ok.1 k5
  obtain ⟨u1, w6, k6, h5⟩ := Act.bind_eq_ok.1 h5
  obtain ⟨L, -, t2⟩ := stage_addRelations (by simp) t1 k6
  rw [last_rel_set] at t2
  obtain ⟨⟨pg, st'⟩, w7, k7, h5⟩ := Act.bind_eq_ok.1 h5
  have t3 := stage_localSeeded t2 k7
  obtain ⟨q2, a2, v2, e2, -, -, t4⟩ := stage_createDrawn t3 h5
  rw [last_set, List.append_assoc] at t4
  exact ⟨_, _, _, by simp, t4, hhealth⟩

theorem addUganda_stage {g : Parts γ} {fmt : Int → Cell} {c c' : Circus σ γ}
    {r : Nat × List (Op (World σ γ)) × List (Op (World σ γ))} (hs : Stage env R P S c.world)
    (h : addUganda env g fmt c = .ok r c') :
    ∃ u cells cities L, u.cells = P.length ∧
      r = (P.length, Uganda.breakDownOps env u fmt S.length (S.length + 1),
        Uganda.repairOps env u fmt (S.length + 1)) ∧
      Stage env (R ++ [L]) (P ++ [cells, cities])
        (S ++ [("cell_break_down", "CELL_ID"), ("cell_repair_down", "CELL_ID")]) c'.world ∧
      ∃ s1 s2 s3, LocalSeeds env s1 s2 s3 ∧ Healthy env (g.cellHealth s3) cells ∧
        Began env c'.world u.unhealthy (g.unhealthy s1) ∧ Began env c'.world u.healthy (g.healthy s2) := by
  rw [addUganda] at h
  obtain ⟨⟨cells, cities⟩, c1, h1, h⟩ := Act.bind_eq_ok.1 h
  obtain ⟨cellsPop, citiesPop, L, e, s1, d1, d2, d3, hloc, hhealth⟩ := buildUganda_stage hs h1
  cases e
  have h := Snd.onWorld_circus h
  obtain ⟨timer, w1, k1, h⟩ := Act.bind_eq_ok.1 h
  have t1 := stage_seeded s1 k1
  obtain ⟨⟨unhealthy, st⟩, w2, k2, h⟩ := Act.bind_eq_ok.1 h
  have t2 := stage_localSeeded t1 k2
  obtain ⟨⟨healthy, st'⟩, w3, k3, h⟩ := Act.bind_eq_ok.1 h
  have t3 := stage_localSeeded t2 k3
  obtain ⟨faults, w4, k4, h⟩ := Act.bind_eq_ok.1 h
  have t4 := stage_seeded t3 k4
  obtain ⟨repairs, w5, k5, h⟩ := Act.bind_eq_ok.1 h
  have t5 := stage_seeded t4 k5
  obtain ⟨⟨down, repair⟩, w6, k6, h⟩ := Act.bind_eq_ok.1 h
  obtain ⟨rfl, h6⟩ := Act.pure_eq_ok.1 h
  rw [Uganda.createStories] at k6
  obtain ⟨d, w7, k7, k6⟩ := Act.bind_eq_ok.1 k6
  obtain ⟨rfl, t6⟩ := stage_createStory t5 k7
  obtain ⟨d', w8, k8, k6⟩ := Act.bind_eq_ok.1 k6
  obtain ⟨rfl, t7⟩ := stage_createStory t6 k8
  obtain ⟨e, e'⟩ := Act.pure_eq_ok.1 k6
  cases e
  subst e'
  rw [List.append_assoc] at t7
  obtain ⟨x1, x2, x3, m1, m2, m3⟩ := id hloc
  obtain ⟨sd1, n1, b1⟩ := (localSeeded_began k2).1
  obtain ⟨sd2, n2, b2⟩ := (localSeeded_began k3).1
  rw [m1] at n1
  cases n1
  rw [m2] at n2
  cases n2
  have fwd : ∀ {q : GenRef} {y : γ}, Began env w3 q y → Began env w8 q y := fun hb =>
    (createStory_began k8).1 ((createStory_began k7).1 ((seeded_began k5).2.1 ((seeded_began k4).2.1 hb)))
  exact ⟨⟨P.length, timer, faults, repairs, unhealthy, healthy⟩, cellsPop, citiesPop, L, rfl,
    by simp, h6 ▸ t7, _, _, _, hloc, hhealth, h6 ▸ fwd ((localSeeded_began k3).2 b1), h6 ▸ fwd b2⟩

/-- **the moves** -/
theorem addMobility_stage {g : Parts γ} {fmt : Int → Cell} {subs cells : Nat} {ops : List (Op (World σ γ))}
    (hs : Stage env R P S w) (h : addMobility env g fmt subs cells w = .ok ops w') :
    ∃ s c pairs a, P[subs]? = some s ∧ P[cells]? = some c ∧
      (∀ x ∈ pairs, x.1 ∈ s.ids ∧ (subs ≠ cells → x.2 ∈ c.ids)) ∧
      (∀ i v, Holds a i v → ∃ x, v = .scalar x ∧ (i, x) ∈ pairs) ∧
      (s.size ≠ 0 → ∀ i x, (i, x) ∈ pairs → ∃ v, Holds a i v) ∧
      ops = mobilityOps env fmt S.length subs R.length ∧
      Stage env (R ++ [pairs]) (P.set subs { s with
        relationships := s.relationships.set "POSSIBLE_CELLS" R.length
        attributes := s.attributes.set "CELL" a }) (S ++ [("mobility", "A_ID")]) w' := by
  rw [addMobility] at h
  obtain ⟨timer, w1, k1, h⟩ := Act.bind_eq_ok.1 h
  have t1 := stage_seeded hs k1
  obtain ⟨weights, w2, k2, h⟩ := Act.bind_eq_ok.1 h
  have t2 := stage_seeded t1 k2
  obtain ⟨rel, w3, k3, h⟩ := Act.bind_eq_ok.1 h
  obtain ⟨s, hp, rfl, t3⟩ := stage_createRelationship t2 k3
  have hlt := (List.getElem?_eq_some_iff.1 hp).1
  obtain ⟨s', w4, k4, h⟩ := Act.bind_eq_ok.1 h
  obtain ⟨hs', rfl⟩ := getPop_eq_ok.1 k4
  rw [t3.pops, List.getElem?_set_self hlt] at hs'
  cases hs'
  obtain ⟨c, w5, k5, h⟩ := Act.bind_eq_ok.1 h
  obtain ⟨hc, rfl⟩ := getPop_eq_ok.1 k5
  rw [t3.pops] at hc
  obtain ⟨seed, w6, k6, h⟩ := Act.bind_eq_ok.1 h
  have t4 := stage_drawSeed t3 k6
  obtain ⟨pairs, w7, k7, h⟩ := Act.bind_eq_ok.1 h
  obtain ⟨hpairs, rfl⟩ := Act.ofPy_eq_ok.1 k7
  obtain ⟨u1, w8, k8, h⟩ := Act.bind_eq_ok.1 h
  obtain ⟨L, e, t5⟩ := stage_addWeighted t4 k8
  rw [last_rel] at e
  cases e
  rw [last_rel_set, List.nil_append] at t5
  obtain ⟨u2, w9, k9, h⟩ := Act.bind_eq_ok.1 h
  obtain ⟨q, a, L', e1, e2, ha, ha', t6⟩ := stage_createFromRelation t5 k9
  rw [last_rel] at e2
  cases e2
  rw [List.getElem?_set_self hlt] at e1
  cases e1
  rw [List.set_set] at t6
  obtain ⟨own, w10, k10, h⟩ := Act.bind_eq_ok.1 h
  obtain ⟨rfl, t7⟩ := stage_createStory t6 k10
  obtain ⟨rfl, rfl⟩ := Act.pure_eq_ok.1 h
  have hmem := bipartite_mem hpairs
  have hc' : ∃ c0, P[cells]? = some c0 ∧ c0.ids = c.ids := by
    rw [List.getElem?_set] at hc
    split at hc
    · rename_i e
      subst e
      cases hc
      exact ⟨s, hp, rfl⟩
    · exact ⟨c, hc, rfl⟩
  obtain ⟨c0, hc0, hids⟩ := hc'
  exact ⟨s, c0, pairs, a, hp, hc0, fun x hx => ⟨(hmem x hx).1, fun _ => hids ▸ (hmem x hx).2⟩, ha, ha', rfl, t7⟩

/-- **the friends** -/
theorem addErNetwork_stage {graph : Nat → Rat → Int → List (Nat × Nat)} {pop : Nat} {name : String} {degree : Rat}
    {u : Unit} (hs : Stage env R P S w) (h : addErNetwork env graph pop name degree w = .ok u w') :
    ∃ p seed pairs, P[pop]? = some p ∧ p.ids ≠ [] ∧
      erNetwork p.ids (graph p.ids.length (degree / p.ids.length) seed) = .ok pairs ∧
      Stage env (R ++ [pairs ++ pairs.map Prod.swap])
        (P.set pop { p with relationships := p.relationships.set name R.length }) S w' := by
  rw [addErNetwork] at h
  obtain ⟨ws, w1, k1, h⟩ := Act.bind_eq_ok.1 h
  have t1 := stage_drawSeed hs k1
  obtain ⟨p, w2, k2, h⟩ := Act.bind_eq_ok.1 h
  obtain ⟨hp, rfl⟩ := getPop_eq_ok.1 k2
  rw [t1.pops] at hp
  obtain ⟨prob, w3, k3, h⟩ := Act.bind_eq_ok.1 h
  obtain ⟨hprob, rfl⟩ := Act.ofPy_eq_ok.1 k3
  rw [erProbability] at hprob
  split at hprob
  · cases hprob
  rename_i hne
  cases hprob
  obtain ⟨seed, w4, k4, h⟩ := Act.bind_eq_ok.1 h
  have t2 := stage_drawSeed t1 k4
  obtain ⟨values, w5, k5, h⟩ := Act.bind_eq_ok.1 h
  obtain ⟨hval, rfl⟩ := Act.ofPy_eq_ok.1 k5
  obtain ⟨rel, w6, k6, h⟩ := Act.bind_eq_ok.1 h
  obtain ⟨p', hp', rfl, t3⟩ := stage_createRelationship t2 k6
  rw [hp] at hp'
  cases hp'
  simp only at h
  obtain ⟨u1, w7, k7, h⟩ := Act.bind_eq_ok.1 h
  obtain ⟨L, e, t4⟩ := stage_addRelations (by simp) t3 k7
  rw [last_rel] at e
  cases e
  obtain ⟨L', e, t5⟩ := stage_addRelations (by simp) t4 h
  rw [last_rel_set, last_rel] at e
  cases e
  refine ⟨p, seed, values, hp, fun e => hne (by rw [e]; rfl), hval, ?_⟩
  have e1 : (values.map Prod.fst).zip (values.map Prod.snd) = values := (List.zip_of_prod rfl rfl).symm
  have e2 : (values.map Prod.snd).zip (values.map Prod.fst) = values.map Prod.swap := by
    rw [List.zip_map']
    rfl
  rw [last_rel_set, last_rel_set, e1, e2, List.nil_append] at t5
  exact t5

theorem addTopups_stage {fmt : Int → Cell} {sims : Nat} {ops : List (Op (World σ γ))} (hs : Stage env R P S w)
    (h : addTopups env fmt sims w = .ok ops w') : ∃ p i, P[sims]? = some p ∧
      p.relationships.get? "POSSIBLE_AGENTS" = some i ∧ ops = topupOps env fmt S.length sims i ∧
      Stage env R P (S ++ [("topups", "SIM_ID")]) w' := by
  rw [addTopups] at h
  obtain ⟨own, w1, k1, h⟩ := Act.bind_eq_ok.1 h
  obtain ⟨rfl, t1⟩ := stage_createStory hs k1
  obtain ⟨i, w2, k2, h⟩ := Act.bind_eq_ok.1 h
  obtain ⟨e, p, hp, hi⟩ := stage_relNamed t1 k2
  rw [e] at h
  obtain ⟨rfl, rfl⟩ := Act.pure_eq_ok.1 h
  exact ⟨p, i, hp, hi, rfl, t1⟩

/-- **the calls and the messages** -/
theorem addCommunications_stage {g : Parts γ} {subs sims cells : Nat} {t : Talk} (hs : Stage env R P S w)
    (h : addCommunications env g subs sims cells w = .ok t w') : ∃ s a, P[subs]? = some s ∧
      t.subs = subs ∧ t.sims = sims ∧ t.cells = cells ∧ t.calls = S.length ∧ t.sms = S.length + 1 ∧
      s.relationships.get? "FRIENDS" = some t.friends ∧ s.relationships.get? "SIMS" = some t.simsOf ∧
      (S ++ [("calls", "A_ID"), ("sms", "A_ID")]).findIdx? (fun s => decide (s.1 = "topups")) = some t.topups ∧
      Stage env R (P.set subs { s with attributes := s.attributes.set "EXCITABILITY" a })
        (S ++ [("calls", "A_ID"), ("sms", "A_ID")]) w' := by
  rw [addCommunications] at h
  obtain ⟨durations, w1, k1, h⟩ := Act.bind_eq_ok.1 h
  have t1 := stage_seeded hs k1
  obtain ⟨timer, w2, k2, h⟩ := Act.bind_eq_ok.1 h
  have t2 := stage_seeded t1 k2
  obtain ⟨rt, w3, k3, h⟩ := Act.bind_eq_ok.1 h
  have t3 := stage_seeded t2 k3
  obtain ⟨normal, w4, k4, h⟩ := Act.bind_eq_ok.1 h
  have t4 := stage_seeded t3 k4
  obtain ⟨excited, w5, k5, h⟩ := Act.bind_eq_ok.1 h
  have t5 := stage_seeded t4 k5
  obtain ⟨exc, w6, k6, h⟩ := Act.bind_eq_ok.1 h
  have t6 := stage_seeded t5 k6
  obtain ⟨u1, w7, k7, h⟩ := Act.bind_eq_ok.1 h
  obtain ⟨s, a, vs, hp, -, -, t7⟩ := stage_createDrawn t6 k7
  have hlt := (List.getElem?_eq_some_iff.1 hp).1
  obtain ⟨flat, w8, k8, h⟩ := Act.bind_eq_ok.1 h
  have t8 := stage_seeded t7 k8
  obtain ⟨back, w9, k9, h⟩ := Act.bind_eq_ok.1 h
  have t9 := stage_seeded t8 k9
  obtain ⟨calls, w10, k10, h⟩ := Act.bind_eq_ok.1 h
  obtain ⟨rfl, t10⟩ := stage_createStory t9 k10
  obtain ⟨sms, w11, k11, h⟩ := Act.bind_eq_ok.1 h
  obtain ⟨rfl, t11⟩ := stage_createStory t10 k11
  rw [List.append_assoc] at t11
  obtain ⟨friends, w12, k12, h⟩ := Act.bind_eq_ok.1 h
  obtain ⟨e, q1, hq1, hf⟩ := stage_relNamed t11 k12
  rw [e] at h
  rw [List.getElem?_set_self hlt] at hq1
  cases hq1
  obtain ⟨simsOf, w13, k13, h⟩ := Act.bind_eq_ok.1 h
  obtain ⟨e', q2, hq2, hso⟩ := stage_relNamed t11 k13
  rw [e'] at h
  rw [List.getElem?_set_self hlt] at hq2
  cases hq2
  obtain ⟨topups, w14, k14, h⟩ := Act.bind_eq_ok.1 h
  obtain ⟨e'', htop⟩ := stage_storyNamed t11 k14
  rw [e''] at h
  obtain ⟨rfl, rfl⟩ := Act.pure_eq_ok.1 h
  exact ⟨s, a, hp, rfl, rfl, rfl, rfl, by simp, hf, hso, htop, t11⟩

/-- what the constructor leaves -/
structure Opened (env : Env σ γ) (p : Params) (g : Parts γ) (c : Cast) (w : World σ γ) (seed : Int)
    (subIds simIds : List Val) (mapping ags pls frs : List (Val × Val)) (cellsPop : Population) : Prop where
  cast : c.t.subs = 0 ∧ c.t.sims = 1 ∧ c.t.cells = 2 ∧ c.u.cells = 2 ∧ c.t.simsOf = 0 ∧ c.agents = 1 ∧ c.places = 3 ∧
    c.t.friends = 4
  stories : c.down = 0 ∧ c.repair = 1 ∧ c.mobility = 2 ∧ c.t.topups = 3 ∧ c.t.calls = 4 ∧ c.t.sms = 5
  accepts : ∃ seed, Began env w c.t.flatTrigger (g.flatTrigger seed)
  recharges : ∃ seed, Began env w c.t.rechargeTrigger (g.rechargeTrigger seed)
  dormant : ∃ s, w.stories[c.t.topups]? = some s ∧ s.timerGen = .constant (.num (-1)) ∧ ∀ id, ¬Scheduled s id
  levels : ∃ s1 s2 s3, LocalSeeds env s1 s2 s3 ∧ Healthy env (g.cellHealth s3) cellsPop ∧
    Began env w c.u.unhealthy (g.unhealthy s1) ∧ Began env w c.u.healthy (g.healthy s2)
  operators : operatorPairs subIds (g.operators seed p.nSubscribers) = .ok mapping
  size : simIds.length = mapping.length
  agents : ∀ x ∈ ags, x.1 ∈ simIds ∧ x.2 ∈ (build_ids p.nAgents 0 "AGENT_" 3).map Val.str
  places : ∀ x ∈ pls, x.1 ∈ subIds ∧ x.2 ∈ cellsPop.ids
  friends : ∃ seed pairs, erNetwork subIds (g.friends subIds.length (p.degree / subIds.length) seed) = .ok pairs ∧
    frs = pairs ++ pairs.map Prod.swap
  stage : ∃ ao aa am ac ae L r0 r1 cities numbers,
    ao.table = simIds.zip (mapping.map fun x => .scalar x.2) ∧
    (∀ s v, Holds aa s v ↔ s ∈ simIds ∧ v = .num 1000) ∧ (∀ s, s ∈ simIds ↔ ∃ v, Holds am s v) ∧
    Snd.Sizes env g.msisdns numbers ∧ am.table = simIds.zip numbers ∧
    (∀ i v, Holds ac i v → ∃ x, v = .scalar x ∧ (i, x) ∈ pls) ∧
    (p.nSubscribers ≠ 0 → ∀ i x, (i, x) ∈ pls → ∃ v, Holds ac i v) ∧
    Stage env [(mapping.map Prod.fst).zip simIds, ags, L, pls, frs]
      [⟨subIds, p.nSubscribers, [("CELL", ac), ("EXCITABILITY", ae)], r0⟩,
       ⟨simIds, mapping.length, [("OPERATOR", ao), ("MAIN_ACCT", aa), ("MSISDN", am)], r1⟩, cellsPop, cities]
      [("cell_break_down", "CELL_ID"), ("cell_repair_down", "CELL_ID"), ("mobility", "A_ID"), ("topups", "SIM_ID"),
       ("calls", "A_ID"), ("sms", "A_ID")] w

theorem build_opened {p : Params} {g : Parts γ} {fmt : Int → Cell} {c c' : Circus σ γ}
    {chains : List (List (Op (World σ γ)))} (hs : Stage env [] [] [] c.world)
    (h : build env p g fmt c = .ok chains c') :
    ∃ cast seed subIds simIds mapping agents places friends cellsPop, chains = cast.chains env fmt ∧
      Opened env p g cast c'.world seed subIds simIds mapping agents places friends cellsPop := by
  rw [build] at h
  obtain ⟨⟨subs, sims⟩, c1, h1, h⟩ := Act.bind_eq_ok.1 h
  obtain ⟨seed, subIds, simIds, mapping, agents, ao, aa, am, nums, e, hop, hlen, hao, haa, ham, hnums, hnums', hag,
    s1⟩ :=
    createSubsAndSims_stage hs h1
  cases e
  obtain ⟨⟨cells, down, repair⟩, c2, h2, h⟩ := Act.bind_eq_ok.1 h
  obtain ⟨u, cellsPop, cities, L, hu, e, s2, x1, x2, x3, hloc, hhealth, b1, b2⟩ := addUganda_stage s1 h2
  cases e
  obtain ⟨mobility, c3, h3, h⟩ := Act.bind_eq_ok.1 h
  obtain ⟨q1, q2, places, ac, e1, e2, hpl, hac, hac', rfl, s3⟩ := addMobility_stage s2 (Snd.onWorld_circus h3)
  cases e1
  cases e2
  obtain ⟨u1, c4, h4, h⟩ := Act.bind_eq_ok.1 h
  obtain ⟨q3, seed', pairs, e3, -, her, s4⟩ := addErNetwork_stage s3 (Snd.onWorld_circus h4)
  cases e3
  obtain ⟨topups, c5, h5, h⟩ := Act.bind_eq_ok.1 h
  obtain ⟨q4, i, e4, hi, rfl, s5⟩ := addTopups_stage s4 (Snd.onWorld_circus h5)
  cases e4
  cases hi
  obtain ⟨t, c6, h6, h⟩ := Act.bind_eq_ok.1 h
  obtain ⟨q5, ae, e5, g1, g2, g3, g4, g5, g6, g7, g8, s6⟩ := addCommunications_stage s5 (Snd.onWorld_circus h6)
  cases e5
  obtain ⟨o1, o2, l, o3⟩ := addCommunications_objects (Snd.onWorld_circus h6)
  obtain ⟨s, d1, d2, d3⟩ := addTopups_dormant (Snd.onWorld_circus h5)
  obtain ⟨rfl, rfl⟩ := Act.pure_eq_ok.1 h
  have fwd : ∀ {q : GenRef} {y : γ}, Began env c2.world q y → Began env c6.world q y := fun hb =>
    addCommunications_began (Snd.onWorld_circus h6) (addTopups_began (Snd.onWorld_circus h5)
      (addErNetwork_began (Snd.onWorld_circus h4) (addMobility_began (Snd.onWorld_circus h3) hb)))
  have g6' : t.friends = 4 := by
    injection g6 with g6
    exact g6.symm
  have g7' : t.simsOf = 0 := by
    injection g7 with g7
    exact g7.symm
  have g8' : t.topups = 3 := by
    injection g8 with g8
    exact g8.symm
  refine ⟨⟨t, 1, 3, 2, u, 0, 1⟩, seed, subIds, simIds, mapping, agents, places, pairs ++ pairs.map Prod.swap, cellsPop, ?_,
    ⟨g1, g2, g3, hu, g7', rfl, rfl, g6'⟩, ⟨rfl, rfl, rfl, g8', g4, g5⟩, o1, o2, ⟨s, ?_, d2, d3⟩,
    ⟨x1, x2, x3, hloc, hhealth, fwd b1, fwd b2⟩, hop, hlen, hag,
    fun x hx => ⟨(hpl x hx).1, (hpl x hx).2 (by simp)⟩, ⟨seed', pairs, her, rfl⟩, ?_⟩
  · rw [Cast.chains]
    simp only [g8', g1, g2]
    rfl
  · have hlen := congrArg List.length s4.stories
    simp only [List.length_map, List.length_append, List.length_cons, List.length_nil] at hlen
    rw [o3, d1]
    simp [g8', hlen]
  · exact ⟨ao, aa, am, ac, ae, L, _, _, cities, nums, hao, haa, ham, hnums, hnums', hac, hac', s6⟩

end Cdr
end Trumania
