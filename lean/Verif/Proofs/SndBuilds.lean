import Verif.Spec.SndSupplied
import Verif.Proofs.ShopBuilds
import Verif.Proofs.SndSafeBuild
import Verif.Props.Batches

/-! Helper lemmas: the constructor of the SND scenario does not raise. -/

namespace Trumania
namespace Snd
open Spec World Circus Cdr Builds
open Shop (onWorld_ok)
variable {σ : Type} {env : Env σ (AnyGen σ)} {w w' w1 w2 : World σ (AnyGen σ)} {c c' : Circus σ (AnyGen σ)}
  {R : List (List (Val × Val))} {P : List Population} {S : List (String × String)}

/-! ### Stories that declare states -/

theorem storyParams_ends {ids : List Val} {size : Nat} {states : List (Val × StateGens)}
    {params : Dict Val (Dict Val StateParams)} (hl : ids.length = size)
    (hst : ∀ s ∈ states, GivesNums env w s.2.activity ∧ GivesNums env w s.2.back) :
    ∃ ps w', storyParams env ids size states params w = .ok ps w' ∧ ∀ r a, Began env w r a → Began env w' r a := by
  induction states generalizing w params with
  | nil => exact ⟨params, w, rfl, fun _ _ h => h⟩
  | cons s rest ih =>
    obtain ⟨st, g⟩ := s
    obtain ⟨hact, hback⟩ := hst _ List.mem_cons_self
    obtain ⟨acts, w1, e1, l1⟩ := nums_ends hact size
    obtain ⟨backs, w2, e2, l2⟩ := nums_ends (hback.later (w' := w1) (generate_began e1)) size
    obtain ⟨ps, hps⟩ : ∃ ps, Story.addState ids params st acts backs = .ok ps := by
      rw [Story.addState, if_neg (by rw [l1, l2, hl]; simp)]
      exact ⟨_, rfl⟩
    obtain ⟨ps', w3, e3, k3⟩ := ih (w := w2) (params := ps) fun s hs =>
      ⟨(hst s (List.mem_cons_of_mem _ hs)).1.later fun h => generate_began e2 (generate_began e1 h),
        (hst s (List.mem_cons_of_mem _ hs)).2.later fun h => generate_began e2 (generate_began e1 h)⟩
    refine ⟨ps', w3, ?_, fun r a h => k3 r a (generate_began e2 (generate_began e1 h))⟩
    rw [storyParams, Act.bind_ok e1, Act.bind_ok e2, Act.bind_ok (Act.ofPy_ok (numbers_eq_ok.2 rfl) _),
      Act.bind_ok (Act.ofPy_ok (numbers_eq_ok.2 rfl) _), Act.bind_ok (Act.ofPy_ok hps _)]
    exact e3

/-- a story that declares states, whose name is new -/
theorem ends_storyWith {cfg : StoryConfig} {q : Population} {d : Dict Val StateGens} (hs : Stage env R P S w)
    (hq : P[cfg.population]? = some q) (hl : q.ids.length = q.size) (hname : cfg.name ∉ S.map Prod.fst)
    (hst : cfg.states = some d) (hdef : defaultState ∉ d.keys)
    (hd : ∀ s ∈ d, GivesNums env w s.2.activity ∧ GivesNums env w s.2.back)
    (hact : GivesNums env w cfg.activity) (htim : GivesTimers env w cfg.timerGen) : Ends (World.createStory env cfg) w := by
  have hn : q.ids.Nodup := (hs.wf q (List.mem_of_getElem? hq)).ids
  have hp : w.pops[cfg.population]? = some q := by rw [hs.pops]; exact hq
  have hfind : w.findStory cfg.name = none := by
    rw [findStory, List.findIdx?_eq_none_iff]
    intro s hm
    refine decide_eq_false fun e => hname ?_
    rw [← hs.stories, List.map_map]
    exact List.mem_map.2 ⟨s, hm, e⟩
  rw [World.createStory]
  refine Ends.bind (a := get) ⟨w, w, rfl⟩ fun w0 w1 h1 => ?_
  cases h1
  rw [hfind]
  dsimp only
  refine (ends_getPop hp).bind fun p' w1 h1 => ?_
  obtain ⟨e, rfl⟩ := getPop_eq_ok.1 h1
  rw [hp] at e
  cases e
  refine Ends.bind ?_ fun s w2 _ => ⟨w2.stories.length, _, rfl⟩
  obtain ⟨states, hm, hkeys, -⟩ := merge2_total env.orders.set
    [(defaultState, (⟨cfg.activity, .constant (.num 1)⟩ : StateGens))] d (fun a _ => a)
  have hmerge : merge_2_dicts env.orders.set (some [(defaultState, (⟨cfg.activity, .constant (.num 1)⟩ : StateGens))])
      cfg.states = .ok states := by
    rw [hst, merge_2_dicts, merge2_disjoint _ _ _ _ (fun a _ => a) (fun k hk => ?_), hm]
    obtain rfl : k = defaultState := by simpa [Dict.keys] using hk
    exact hdef
  rw [World.newStory]
  refine (Ends.ofPy hmerge).bind fun states' w1 h1 => ?_
  obtain ⟨h1, rfl⟩ := Act.ofPy_eq_ok.1 h1
  rw [hmerge] at h1
  cases h1
  obtain ⟨ps, w2, e2, k2⟩ := storyParams_ends (env := env) (w := w) (ids := q.ids) (size := q.size) (states := states)
    (params := q.ids.map fun i => (i, [])) hl fun s hs' => by
      rcases merge_mem hmerge hs' with h | ⟨d', h, hm'⟩
      · obtain rfl : s = (defaultState, ⟨cfg.activity, .constant (.num 1)⟩) := by simpa using h
        exact ⟨hact, .const ⟨1, rfl⟩⟩
      · rw [hst] at h
        cases h
        exact hd s hm'
  refine Ends.bind ⟨ps, w2, e2⟩ fun ps' w2' h2 => ?_
  rw [e2] at h2
  cases h2
  rw [initialReset]
  split
  · refine reset_ends hn ⟨?_, fun i hi => ?_, fun i hi st hst' => ?_⟩ ?_
    · simp [Story.ids, Function.comp_def]
    · show (Story.row? _ i).map (·.state) = _
      rw [initial_row hi _ rfl]
      rfl
    · obtain rfl : st = .str "default" := hst'.resolve_right id
      have hnd : (states.map Prod.fst).Nodup := by
        show states.keys.Nodup
        rw [hkeys]
        exact env.orders.set.nodup _
      obtain ⟨drawn, -, d2, -, d4⟩ := storyParams_draws hn (by simp [Function.comp_def]) hnd e2
      have hmem : defaultState ∈ drawn.map Prod.fst := by
        rw [d2]
        show defaultState ∈ states.keys
        rw [hkeys, env.orders.set.mem]
        simp [Dict.keys]
      obtain ⟨⟨st', acts, backs⟩, hx, e⟩ := List.mem_map.1 hmem
      cases e
      obtain ⟨l1, l2, hget⟩ := d4 _ _ _ hx
      obtain ⟨m, hm'⟩ := List.mem_iff_getElem?.1 hi
      have hlt := (List.getElem?_eq_some_iff.1 hm').1
      have := hget m i _ _ hm' (List.getElem?_eq_getElem (by omega)) (List.getElem?_eq_getElem (by omega))
      rw [paramAt, Option.bind_eq_some_iff] at this
      obtain ⟨d, h1, h2⟩ := this
      exact ⟨d, _, h1, h2⟩
    · rcases htim with h | ⟨a, hb, ha⟩
      · exact .inl h
      · exact .inr ⟨a, k2 _ _ hb, ha⟩
  · exact Ends.pure

/-- a story without other states, whose name is new -/
theorem ends_story {cfg : StoryConfig} {q : Population} (hs : Stage env R P S w)
    (hq : P[cfg.population]? = some q) (hl : q.ids.length = q.size) (hname : cfg.name ∉ S.map Prod.fst)
    (hst : cfg.states = none) (hact : GivesNums env w cfg.activity) (htim : GivesTimers env w cfg.timerGen) :
    Ends (World.createStory env cfg) w := by
  refine ends_createStory (p := q) (by rw [hs.pops]; exact hq) (hs.wf q (List.mem_of_getElem? hq)).ids hl ?_ hst hact htim
  rw [findStory, List.findIdx?_eq_none_iff]
  intro s hm
  refine decide_eq_false fun e => hname ?_
  rw [← hs.stories, List.map_map]
  exact List.mem_map.2 ⟨s, hm, e⟩

/-! ### Relations and attributes -/

theorem ends_add {i : Nat} {f t : List Val} {ws : Weights} {L : List (Val × Val)} (hs : Stage env R P S w)
    (hL : R[i]? = some L) (hl : LengthsOk f t ws) : Ends (addRelations env i f t ws) w := by
  obtain ⟨r, hr, hw⟩ := forall₂_at' hs.rels hL
  obtain ⟨r', h, -⟩ := add_relations_spec env.orders hw.1.gwf hl
  rw [addRelations]
  refine Ends.bind ⟨r, w, getRel_eq_ok.2 ⟨hr, rfl⟩⟩ fun r1 w1 h1 => ?_
  obtain ⟨e, rfl⟩ := getRel_eq_ok.1 h1
  rw [hr] at e
  cases e
  exact (Ends.ofPy h).bind fun _ _ _ => ⟨(), _, setRel_eq_ok.2 rfl⟩

theorem ends_fillStock {pop rel : Nat} {items : List Val} {q : Population} {L : List (Val × Val)} (hs : Stage env R P S w)
    (hq : P[pop]? = some q) (hL : R[rel]? = some L) (hi : q.ids ≠ [] ∨ items = []) : Ends (fillStock env pop rel items) w := by
  have hp : w.pops[pop]? = some q := by rw [hs.pops]; exact hq
  rw [fillStock]
  refine (ends_getPop hp).bind fun q' w1 h1 => ?_
  obtain ⟨e, rfl⟩ := getPop_eq_ok.1 h1
  rw [hp] at e
  cases e
  refine (ends_drawSeed _).bind fun seed w2 h2 => ?_
  obtain ⟨l, hl⟩ := make_random_assign_total env.R seed items q.ids hi
  refine (Ends.ofPy hl).bind fun l' w3 h3 => ?_
  obtain ⟨-, rfl⟩ := Act.ofPy_eq_ok.1 h3
  exact ends_add (stage_drawSeed hs h2) hL (lengthsOk_scalar (by simp))

theorem ends_createConstant {pop : Nat} {name : String} {v : Cell} {q : Population} (hs : Stage env R P S w)
    (hq : P[pop]? = some q) (hl : q.ids.length = q.size) : Ends (createConstant pop name v) w := by
  have hp : w.pops[pop]? = some q := by rw [hs.pops]; exact hq
  rw [createConstant]
  refine (ends_getPop hp).bind fun q' w1 h1 => ?_
  obtain ⟨e, rfl⟩ := getPop_eq_ok.1 h1
  rw [hp] at e
  cases e
  obtain ⟨a, ha⟩ := new_ends (values := List.replicate q.ids.length v) hl fun _ => by simp [hl]
  exact (Ends.ofPy (by rw [Population.createAttribute, ha]; rfl)).bind fun _ _ _ => ⟨(), _, setPop_eq_ok.2 rfl⟩

/-! ### The populations -/

theorem createPopulation_named {name x : String} {init : PopInit} {i : Nat}
    (h : createPopulation env name init c = .ok i c') (hx : x ≠ name) (hn : c.populations.get? x = none) :
    c'.populations.get? x = none := by
  rcases createPopulation_cases (env := env) name init c with ⟨-, e⟩ | ⟨-, ⟨y, w1, -, -, e⟩ | ⟨p, w1, -, -, e⟩⟩
  · rw [e] at h
    cases h
  · rw [e] at h
    cases h
  · rw [e] at h
    cases h
    show (c.populations.set name _).get? x = none
    rw [Dict.get?_set, if_neg (fun e => hx e.symm)]
    exact hn

theorem onWorld_named {α : Type} {a : Act (World σ (AnyGen σ)) α} {y : α} {x : String} (h : onWorld a c = .ok y c')
    (hn : c.populations.get? x = none) : c'.populations.get? x = none := by
  obtain ⟨u, -, rfl⟩ := onWorld_ok h
  exact hn

/-- a generator of sequential ids, then the population: as many ids as asked -/
theorem ends_population (hsem : env.sem = AnyGen.sem env.R) {b : SeqGen} {g : AnyGen σ} {name : String} {n : Nat} {r : GenRef}
    (hg : g = .seq b) (hs : Stage env R P S c.world) (hnone : c.populations.get? name = none)
    (h : onWorld (addGenerator g) c = .ok r c') :
    Stage env R P S c'.world ∧ Ends (createPopulation env name (.generated r n)) c' ∧
      ∀ i c'', createPopulation env name (.generated r n) c' = .ok i c'' → ∃ ids, ids.length = n ∧ i = P.length ∧
        Stage env R (P ++ [⟨ids, n, [], []⟩]) S c''.world := by
  obtain ⟨u1, h1, rfl⟩ := onWorld_ok h
  have s1 := stage_addGenerator hs h1
  obtain ⟨a1, rfl, g1⟩ := Music.later_addGenerator (env := env) h1
  have hgen : u1.gens[c.world.gens.length]? = some (.seq b) := by
    rw [g1, List.getElem?_append_right (le_refl _), Nat.sub_self, hg]
    rfl
  refine ⟨s1, ends_createPopulation (c := { c with world := u1 }) hsem hnone hgen, fun i c'' h2 => ?_⟩
  obtain ⟨q, hq, hl⟩ := createPopulation_sized (c := { c with world := u1 }) hsem hnone hgen h2
  obtain ⟨ids, m, rfl, hm, -, s2⟩ := stage_createPopulation (c := { c with world := u1 }) s1 h2
  obtain ⟨rfl, -⟩ := hm _ _ rfl
  rw [s2.pops, List.getElem?_append_right (le_refl _), Nat.sub_self] at hq
  cases hq
  exact ⟨ids, hl, rfl, s2⟩

theorem at_last {α : Type} {l : List α} {x : α} : (l ++ [x])[l.length]? = some x := by simp

theorem set_last {α : Type} {l : List α} {x y : α} : (l ++ [x]).set l.length y = l ++ [y] := by simp

theorem ends_createDistributors (hsem : env.sem = AnyGen.sem env.R) {p : Params} {g : Parts (AnyGen σ)} (hg : Sound env g)
    (hp : Supplied env p g) (hs : Stage env [] [] [] c.world) (hnone : c.populations.get? "distros" = none) :
    Ends (createDistributors env p g) c := by
  obtain ⟨b, hb⟩ := hp.distributors
  rw [createDistributors]
  refine (Ends.onWorld (ends_addGenerator _ _)).bind fun r c1 h1 => ?_
  obtain ⟨s1, e1, k1⟩ := ends_population (n := p.nDistributors) hsem hb hs hnone h1
  refine e1.bind fun i c2 h2 => ?_
  obtain ⟨ids, hl, rfl, s2⟩ := k1 i c2 h2
  refine Ends.onWorld ((ends_createRelationship (by rw [s2.pops]; rfl)).bind fun rel w3 h3 => ?_)
  obtain ⟨q, hq, rfl, s3⟩ := stage_createRelationship s2 h3
  cases hq
  refine (ends_addGenerator _ _).bind fun sg w4 h4 => ?_
  have s4 := stage_addGenerator s3 h4
  obtain ⟨-, b4⟩ := grows_addGenerator (env := env) (X := []) h4
  obtain ⟨cells, w5, h5, l5, v5⟩ := generate_gives b4 hg.sims p.nSimsDistributor
  refine Ends.bind ⟨_, _, h5⟩ fun cells' w5' h5' => ?_
  rw [h5] at h5'
  cases h5'
  have s5 := stage_generate s4 h5
  obtain ⟨items, h6, l6⟩ := asVals v5
  refine (Ends.ofPy h6).bind fun items' w6 h6' => ?_
  obtain ⟨h7, rfl⟩ := Act.ofPy_eq_ok.1 h6'
  rw [h6] at h7
  cases h7
  refine (ends_fillStock (L := []) s5 rfl rfl ?_).bind fun u w7 h7 => ?_
  · rcases hp.stocked with h | h
    · exact .inr (List.length_eq_zero_iff.1 (by omega))
    · refine .inl fun e => h ?_
      rw [← hl]
      exact List.length_eq_zero_iff.2 e
  · obtain ⟨-, L, L', -, s7⟩ := fillStock_stage (X := []) (by simp) s5 h7
    exact (ends_createConstant s7 rfl hl).bind fun _ _ _ => Ends.pure

theorem createDistributors_sized (hsem : env.sem = AnyGen.sem env.R) {p : Params} {g : Parts (AnyGen σ)} {r : Nat × GenRef}
    (hp : Supplied env p g) (hs : Stage env [] [] [] c.world) (hnone : c.populations.get? "distros" = none)
    (h : createDistributors env p g c = .ok r c') : (∃ q, c'.world.pops[0]? = some q ∧ q.ids.length = p.nDistributors) ∧
      ∀ x, x ≠ "distros" → c.populations.get? x = none → c'.populations.get? x = none := by
  obtain ⟨b, hb⟩ := hp.distributors
  rw [createDistributors] at h
  obtain ⟨r1, c1, h1, h⟩ := Act.bind_eq_ok.1 h
  obtain ⟨s1, -, k1⟩ := ends_population (n := p.nDistributors) hsem hb hs hnone h1
  obtain ⟨i, c2, h2, h⟩ := Act.bind_eq_ok.1 h
  obtain ⟨ids, hl, rfl, s2⟩ := k1 i c2 h2
  refine ⟨?_, fun x hx hn => onWorld_named h (createPopulation_named h2 hx (onWorld_named h1 hn))⟩
  replace h := onWorld_circus h
  obtain ⟨rel, w3, h3, h⟩ := Act.bind_eq_ok.1 h
  obtain ⟨q, hq, rfl, s3⟩ := stage_createRelationship s2 h3
  cases hq
  obtain ⟨sg, w4, h4, h⟩ := Act.bind_eq_ok.1 h
  have s4 := stage_addGenerator s3 h4
  obtain ⟨cells, w5, h5, h⟩ := Act.bind_eq_ok.1 h
  have s5 := stage_generate s4 h5
  obtain ⟨items, w6, h6, h⟩ := Act.bind_eq_ok.1 h
  obtain ⟨-, rfl⟩ := Act.ofPy_eq_ok.1 h6
  obtain ⟨u, w7, h7, h⟩ := Act.bind_eq_ok.1 h
  obtain ⟨-, L, L', -, s7⟩ := fillStock_stage (X := []) (by simp) s5 h7
  obtain ⟨u, w8, h8, h⟩ := Act.bind_eq_ok.1 h
  obtain ⟨-, q, a, e8, -, s8⟩ := createConstant_stage (X := []) s7 h8
  cases e8
  obtain ⟨-, e⟩ := Act.pure_eq_ok.1 h
  rw [← e]
  exact ⟨_, by rw [s8.pops]; rfl, hl⟩

theorem ends_createDealers (hsem : env.sem = AnyGen.sem env.R) {p : Params} {g : Parts (AnyGen σ)}
    (hp : Supplied env p g) (hs : Stage env R P S c.world) (hR : R.length ≠ 3) (hnone : c.populations.get? "dealers" = none) :
    Ends (createDealers env p g) c := by
  obtain ⟨b, hb⟩ := hp.dealers
  rw [createDealers]
  refine (Ends.onWorld (ends_addGenerator _ _)).bind fun r c1 h1 => ?_
  obtain ⟨s1, e1, k1⟩ := ends_population (n := p.nDealers) hsem hb hs hnone h1
  refine e1.bind fun i c2 h2 => ?_
  obtain ⟨ids, hl, rfl, s2⟩ := k1 i c2 h2
  refine Ends.onWorld ((ends_createRelationship (by rw [s2.pops]; exact at_last)).bind fun rel w3 h3 => ?_)
  obtain ⟨q, hq, rfl, s3⟩ := stage_createRelationship s2 h3
  rw [at_last] at hq
  cases hq
  rw [set_last] at s3
  refine (ends_fillStock (L := []) s3 at_last at_last ?_).bind fun u w7 h7 => ?_
  · rcases hp.bought with h | h
    · refine .inr ?_
      rw [h]
      rfl
    · refine .inl fun e => h ?_
      rw [← hl]
      exact List.length_eq_zero_iff.2 e
  · obtain ⟨-, L, L', -, s7⟩ := fillStock_stage (X := []) hR s3 h7
    rw [set_last] at s7
    exact (ends_add s7 at_last (lengthsOk_scalar (by simp))).bind fun _ _ _ => Ends.pure

theorem createDealers_sized (hsem : env.sem = AnyGen.sem env.R) {p : Params} {g : Parts (AnyGen σ)} {r : Nat}
    (hp : Supplied env p g) (hs : Stage env R P S c.world) (hR : R.length ≠ 3) (hnone : c.populations.get? "dealers" = none)
    (h : createDealers env p g c = .ok r c') : (∃ q, c'.world.pops[P.length]? = some q ∧ q.ids.length = p.nDealers) ∧
      ∀ x, x ≠ "dealers" → c.populations.get? x = none → c'.populations.get? x = none := by
  obtain ⟨b, hb⟩ := hp.dealers
  rw [createDealers] at h
  obtain ⟨r1, c1, h1, h⟩ := Act.bind_eq_ok.1 h
  obtain ⟨s1, -, k1⟩ := ends_population (n := p.nDealers) hsem hb hs hnone h1
  obtain ⟨i, c2, h2, h⟩ := Act.bind_eq_ok.1 h
  obtain ⟨ids, hl, rfl, s2⟩ := k1 i c2 h2
  refine ⟨?_, fun x hx hn => onWorld_named h (createPopulation_named h2 hx (onWorld_named h1 hn))⟩
  replace h := onWorld_circus h
  obtain ⟨rel, w3, h3, h⟩ := Act.bind_eq_ok.1 h
  obtain ⟨q, hq, rfl, s3⟩ := stage_createRelationship s2 h3
  rw [at_last] at hq
  cases hq
  rw [set_last] at s3
  obtain ⟨u, w7, h7, h⟩ := Act.bind_eq_ok.1 h
  obtain ⟨-, L, L', -, s7⟩ := fillStock_stage (X := []) hR s3 h7
  obtain ⟨u, w8, h8, h⟩ := Act.bind_eq_ok.1 h
  obtain ⟨L1, L2, -, s8, -⟩ := stage_add s7 h8
  obtain ⟨-, e⟩ := Act.pure_eq_ok.1 h
  rw [← e]
  exact ⟨_, by rw [s8.pops]; exact at_last, hl⟩

theorem ends_createAgents (hsem : env.sem = AnyGen.sem env.R) {p : Params} {g : Parts (AnyGen σ)}
    (hp : Supplied env p g) (hs : Stage env R P S c.world) (hnone : c.populations.get? "agents" = none) :
    Ends (createAgents env p g) c := by
  obtain ⟨b, hb⟩ := hp.agents
  rw [createAgents]
  refine (Ends.onWorld (ends_addGenerator _ _)).bind fun r c1 h1 => ?_
  obtain ⟨s1, e1, k1⟩ := ends_population (n := p.nAgents) hsem hb hs hnone h1
  refine e1.bind fun i c2 h2 => ?_
  obtain ⟨ids, hl, rfl, s2⟩ := k1 i c2 h2
  refine Ends.onWorld ((ends_createRelationship (by rw [s2.pops]; exact at_last)).bind fun rel w3 h3 => ?_)
  obtain ⟨q, hq, rfl, s3⟩ := stage_createRelationship s2 h3
  rw [at_last] at hq
  cases hq
  rw [set_last] at s3
  refine (ends_seeded _ _).bind fun r4 w4 h4 => ?_
  have s4 := stage_seeded s3 h4
  obtain ⟨-, sd, b4⟩ := grows_seeded (X := []) h4
  exact (ends_createDrawn (by rw [s4.pops]; exact at_last) hl b4 (hp.names sd)).bind fun _ _ _ => Ends.pure

theorem createAgents_sized (hsem : env.sem = AnyGen.sem env.R) {p : Params} {g : Parts (AnyGen σ)} {r : Nat}
    (hp : Supplied env p g) (hs : Stage env R P S c.world) (hnone : c.populations.get? "agents" = none)
    (h : createAgents env p g c = .ok r c') : (∃ q, c'.world.pops[P.length]? = some q ∧ q.ids.length = p.nAgents) ∧
      ∀ x, x ≠ "agents" → c.populations.get? x = none → c'.populations.get? x = none := by
  obtain ⟨b, hb⟩ := hp.agents
  rw [createAgents] at h
  obtain ⟨r1, c1, h1, h⟩ := Act.bind_eq_ok.1 h
  obtain ⟨s1, -, k1⟩ := ends_population (n := p.nAgents) hsem hb hs hnone h1
  obtain ⟨i, c2, h2, h⟩ := Act.bind_eq_ok.1 h
  obtain ⟨ids, hl, rfl, s2⟩ := k1 i c2 h2
  refine ⟨?_, fun x hx hn => onWorld_named h (createPopulation_named h2 hx (onWorld_named h1 hn))⟩
  replace h := onWorld_circus h
  obtain ⟨rel, w3, h3, h⟩ := Act.bind_eq_ok.1 h
  obtain ⟨q, hq, rfl, s3⟩ := stage_createRelationship s2 h3
  rw [at_last] at hq
  cases hq
  rw [set_last] at s3
  obtain ⟨r4, w4, h4, h⟩ := Act.bind_eq_ok.1 h
  have s4 := stage_seeded s3 h4
  obtain ⟨u, w5, h5, h⟩ := Act.bind_eq_ok.1 h
  obtain ⟨q, a, vs, e5, -, -, s5⟩ := stage_createDrawn s4 h5
  rw [at_last] at e5
  cases e5
  obtain ⟨-, e⟩ := Act.pure_eq_ok.1 h
  rw [← e]
  exact ⟨_, by rw [s5.pops, set_last]; exact at_last, hl⟩

/-! ### The networks -/

theorem ends_connectAgents {p : Params} {g : Parts (AnyGen σ)} {a d : Nat} {qa qd : Population} (hp : Supplied env p g)
    (hs : Stage env R P S w) (ha : P[a]? = some qa) (hd : P[d]? = some qd) (hla : qa.ids.length = p.nAgents)
    (hld : qd.ids.length = p.nDealers) : Ends (connectAgents env p g a d) w := by
  rw [connectAgents]
  refine (Ends.ofPy (y := p.degree / p.nAgents * p.nDealers) (by rw [degProb, if_neg hp.hired])).bind fun prob w1 h1 => ?_
  obtain ⟨h1, rfl⟩ := Act.ofPy_eq_ok.1 h1
  rw [degProb, if_neg hp.hired] at h1
  cases h1
  refine (ends_addGenerator _ _).bind fun r2 w2 h2 => ?_
  have s2 := stage_addGenerator hs h2
  obtain ⟨-, b2⟩ := grows_addGenerator (env := env) (X := []) h2
  have ha2 : w2.pops[a]? = some qa := by rw [s2.pops]; exact ha
  have hd2 : w2.pops[d]? = some qd := by rw [s2.pops]; exact hd
  refine (ends_getPop ha2).bind fun q w3 h3 => ?_
  obtain ⟨e, rfl⟩ := getPop_eq_ok.1 h3
  rw [ha2] at e
  cases e
  refine (ends_getPop hd2).bind fun q w4 h4 => ?_
  obtain ⟨e, rfl⟩ := getPop_eq_ok.1 h4
  rw [hd2] at e
  cases e
  refine (ends_drawSeed _).bind fun seed w5 h5 => ?_
  have s5 := stage_drawSeed s2 h5
  have k5 : Grows env [] [] _ _ := grows_drawSeed h5
  obtain ⟨edges, hedges⟩ : ∃ edges, make_random_bipartite_data qa.ids qd.ids (p.degree / p.nAgents * p.nDealers)
      (g.graph qa.ids.length qd.ids.length (p.degree / p.nAgents * p.nDealers) seed) = .ok edges := by
    by_cases h0 : p.nDealers = 0
    · exact ⟨[], by rw [make_random_bipartite_data, if_pos (.inr (.inl (by omega)))]⟩
    · by_cases h00 : p.degree = 0
      · exact ⟨[], by rw [make_random_bipartite_data, if_pos (.inr (.inr (by rw [h00]; simp)))]⟩
      · obtain ⟨hb, hne⟩ := hp.linked h0 h00 seed
        rw [← hla, ← hld] at hb hne
        obtain ⟨out, h, -⟩ := C72_bipartite_total qa.ids qd.ids (p.degree / qa.ids.length * qd.ids.length) _ hb hne
          (fun e => hp.hired (by rw [← hla, e]; rfl)) (fun e => h0 (by rw [← hld, e]; rfl)) (by
            have h1 : (qa.ids.length : Rat) ≠ 0 := by rw [hla]; exact_mod_cast hp.hired
            have h2 : (qd.ids.length : Rat) ≠ 0 := by rw [hld]; exact_mod_cast h0
            exact mul_ne_zero (div_ne_zero h00 h1) h2)
        exact ⟨out, by rw [← hla, ← hld]; exact h⟩
  refine (Ends.ofPy hedges).bind fun edges' w6 h6 => ?_
  obtain ⟨h6, rfl⟩ := Act.ofPy_eq_ok.1 h6
  rw [hedges] at h6
  cases h6
  refine (ends_createRelationship (by rw [s5.pops]; exact ha)).bind fun rel w7 h7 => ?_
  obtain ⟨q, hq, rfl, s7⟩ := stage_createRelationship s5 h7
  have k7 : Grows env [] [] _ _ := grows_createRelationship h7
  obtain ⟨cells, w8, h8, l8, v8⟩ := generate_gives (k7.began (k5.began b2)) hp.weights edges.length
  refine Ends.bind ⟨_, _, h8⟩ fun cells' w8' h8' => ?_
  rw [h8] at h8'
  cases h8'
  have s8 := stage_generate s7 h8
  obtain ⟨ws, hws⟩ := mapM_isOk (f := Cell.asNum) (l := cells) fun x hx => by
    obtain ⟨q, rfl⟩ := v8 x hx
    exact ⟨q, rfl⟩
  refine (Ends.ofPy hws).bind fun ws' w9 h9 => ?_
  obtain ⟨h9, rfl⟩ := Act.ofPy_eq_ok.1 h9
  rw [hws] at h9
  cases h9
  have lw : ws.length = edges.length := (mapM_ok_iff.1 hws).length_eq.symm.trans l8
  refine (ends_add s8 at_last ⟨by simp, by simp [Weights.expand, lw]⟩).bind fun u w10 h10 => ?_
  obtain ⟨L1, L2, -, s10, -⟩ := stage_add s8 h10
  rw [set_last] at s10
  exact ends_add s10 at_last (lengthsOk_scalar (by simp))

theorem ends_connectDealers {p : Params} {g : Parts (AnyGen σ)} {d t : Nat} {qd qt : Population} (hp : Supplied env p g)
    (hs : Stage env R P S w) (hd : P[d]? = some qd) (ht : P[t]? = some qt) (hdt : d ≠ t) (hld : qd.ids.length = p.nDealers)
    (hz : qd.size = p.nDealers) (hlt : qt.ids.length = p.nDistributors) : Ends (connectDealers env g d t) w := by
  have hdl := (List.getElem?_eq_some_iff.1 hd).1
  rw [connectDealers]
  refine (ends_createRelationship (by rw [hs.pops]; exact hd)).bind fun rel w1 h1 => ?_
  obtain ⟨q, hq, rfl, s1⟩ := stage_createRelationship hs h1
  rw [hd] at hq
  cases hq
  refine (ends_drawSeed _).bind fun seed w2 h2 => ?_
  have s2 := stage_drawSeed s1 h2
  have ht2 : w2.pops[t]? = some qt := by rw [s2.pops, List.getElem?_set_ne hdt]; exact ht
  have hd2 : w2.pops[d]? = some { qd with relationships := qd.relationships.set "DISTRIBUTOR" R.length } := by
    rw [s2.pops]; exact List.getElem?_set_self hdl
  refine (ends_getPop ht2).bind fun q w3 h3 => ?_
  obtain ⟨e, rfl⟩ := getPop_eq_ok.1 h3
  rw [ht2] at e
  cases e
  refine (ends_getPop hd2).bind fun q w4 h4 => ?_
  obtain ⟨e, rfl⟩ := getPop_eq_ok.1 h4
  rw [hd2] at e
  cases e
  have hok : ∃ x, env.R.choice (env.R.seed seed) qt.ids.length qd.size = .ok x := by
    rw [Rng.choice, if_neg (by have := hp.sold; omega)]
    exact ⟨_, rfl⟩
  obtain ⟨⟨idx, st⟩, hch⟩ := hok
  have hlen : idx.length = qd.size := by
    rw [Rng.choice, if_neg (by have := hp.sold; omega)] at hch
    have := env.R.randint_length (env.R.seed seed) qt.ids.length qd.size
    rw [Except.ok.inj hch] at this
    exact this
  have hrange : ∀ i ∈ idx, i < qt.ids.length := by
    rcases hp.sold with h | h
    · have he : idx = [] := List.length_eq_zero_iff.1 (by omega)
      rw [he]
      simp
    · rw [Rng.choice, if_neg (by omega)] at hch
      have := env.R.randint_range (env.R.seed seed) qt.ids.length qd.size
      rw [Except.ok.inj hch] at this
      exact this (by omega)
  refine (Ends.ofPy hch).bind fun x w5 h5 => ?_
  obtain ⟨h5, rfl⟩ := Act.ofPy_eq_ok.1 h5
  rw [hch] at h5
  cases h5
  dsimp only
  obtain ⟨asg, hasg⟩ := mapM_isOk (f := nth qt.ids) (l := idx) fun i hi =>
    ⟨qt.ids[i]'(hrange i hi), by rw [nth, List.getElem?_eq_getElem (hrange i hi)]⟩
  have lasg : asg.length = idx.length := (mapM_ok_iff.1 hasg).length_eq.symm
  refine (Ends.ofPy hasg).bind fun asg' w6 h6 => ?_
  obtain ⟨h6, rfl⟩ := Act.ofPy_eq_ok.1 h6
  rw [hasg] at h6
  cases h6
  refine (ends_add s2 at_last (lengthsOk_scalar (by omega))).bind fun u w7 h7 => ?_
  obtain ⟨L1, L2, -, s7, -⟩ := stage_add s2 h7
  refine (ends_seeded _ _).bind fun r8 w8 h8 => ?_
  have s8 := stage_seeded s7 h8
  obtain ⟨-, sd, b8⟩ := grows_seeded (X := []) h8
  exact ends_createDrawn (p := { qd with relationships := qd.relationships.set "DISTRIBUTOR" R.length })
    (by rw [s8.pops]; exact List.getElem?_set_self hdl) (hld.trans hz.symm) b8 (hp.sizes sd)

/-! ### The stories -/

theorem ends_addRestock {fmt : Int → Cell} {d i : Nat} {sg : GenRef} {q : Population} (hs : Stage env R P S w)
    (hq : P[d]? = some q) (hl : q.ids.length = q.size) (hi : q.relationships.get? "SIM" = some i)
    (hS : "distributor_restock" ∉ S.map Prod.fst) : Ends (addRestock env fmt d sg) w := by
  rw [addRestock]
  refine (ends_story (cfg := restockStory d) hs hq hl hS rfl (.const ⟨1, rfl⟩) (.inl ⟨_, rfl⟩)).bind fun n w1 h1 => ?_
  obtain ⟨-, s1⟩ := stage_createStory hs h1
  exact (ends_relNamed (by rw [s1.pops]; exact hq) hi).bind fun _ _ _ => Ends.pure

theorem ends_addPurchases {p : Params} {g : Parts (AnyGen σ)} {fmt : Int → Cell} {a d i j k : Nat} {qa qd : Population}
    (ht : TimersOk env g) (hp : Supplied env p g) (hs : Stage env R P S w) (hqa : P[a]? = some qa)
    (hqd : P[d]? = some qd) (hl : qa.ids.length = qa.size) (hi : qa.relationships.get? "DEALERS" = some i)
    (hj : qd.relationships.get? "SIM" = some j) (hk : qa.relationships.get? "SIM" = some k)
    (hS : "purchases" ∉ S.map Prod.fst) : Ends (addPurchases env g fmt a d) w := by
  rw [addPurchases]
  refine (ends_seeded _ _).bind fun tg w1 h1 => ?_
  have s1 := stage_seeded hs h1
  obtain ⟨-, sd, b1⟩ := grows_seeded (X := []) h1
  refine (ends_seeded _ _).bind fun ag w2 h2 => ?_
  have s2 := stage_seeded s1 h2
  obtain ⟨k2, sd2, b2⟩ := grows_seeded (X := []) h2
  refine (ends_storyWith (cfg := purchaseStory a tg ag) s2 hqa hl hS rfl (by simp [Dict.keys, defaultState]) (fun s hs => by
    obtain rfl : s = (.str "on_holiday", ⟨.constant (.num 0), .constant (.num 0)⟩) := by simpa using hs
    exact ⟨.const ⟨0, rfl⟩, .const ⟨0, rfl⟩⟩) (.ref b2 (hp.activity sd2)) (.inr ⟨_, k2.began b1, ht sd⟩)).bind
    fun n w3 h3 => ?_
  obtain ⟨-, s3⟩ := stage_createStory s2 h3
  refine (ends_relNamed (by rw [s3.pops]; exact hqa) hi).bind fun _ w4 h4 => ?_
  obtain ⟨rfl, -⟩ := stage_relNamed s3 h4
  refine (ends_relNamed (by rw [s3.pops]; exact hqd) hj).bind fun _ w4 h4 => ?_
  obtain ⟨rfl, -⟩ := stage_relNamed s3 h4
  exact (ends_relNamed (by rw [s3.pops]; exact hqa) hk).bind fun _ _ _ => Ends.pure

theorem ends_addBulk {g : Parts (AnyGen σ)} {fmt : Int → Cell} {d t i j k : Nat} {qd qt : Population}
    (ht : TimersOk env g) (hs : Stage env R P S w) (hqd : P[d]? = some qd)
    (hqt : P[t]? = some qt) (hl : qd.ids.length = qd.size) (hi : qd.relationships.get? "DISTRIBUTOR" = some i)
    (hj : qt.relationships.get? "SIM" = some j) (hk : qd.relationships.get? "SIM" = some k)
    (hr : "distributor_restock" ∈ S.map Prod.fst) (hS : "bulk_purchases" ∉ S.map Prod.fst) :
    Ends (addBulk env g fmt d t) w := by
  rw [addBulk]
  refine (ends_seeded _ _).bind fun tg w1 h1 => ?_
  have s1 := stage_seeded hs h1
  obtain ⟨-, sd, b1⟩ := grows_seeded (X := []) h1
  refine (ends_story (cfg := bulkStory d tg) s1 hqd hl hS rfl (.const ⟨_, rfl⟩) (.inr ⟨_, b1, ht sd⟩)).bind fun n w3 h3 => ?_
  obtain ⟨-, s3⟩ := stage_createStory s1 h3
  refine (ends_relNamed (by rw [s3.pops]; exact hqd) hi).bind fun _ w4 h4 => ?_
  obtain ⟨rfl, -⟩ := stage_relNamed s3 h4
  refine (ends_relNamed (by rw [s3.pops]; exact hqt) hj).bind fun _ w4 h4 => ?_
  obtain ⟨rfl, -⟩ := stage_relNamed s3 h4
  refine (ends_relNamed (by rw [s3.pops]; exact hqd) hk).bind fun _ w4 h4 => ?_
  obtain ⟨rfl, -⟩ := stage_relNamed s3 h4
  exact (ends_storyNamed s3 (by rw [List.map_append]; exact List.mem_append_left _ hr)).bind fun _ _ _ => Ends.pure

theorem ends_addHolidays {p : Params} {g : Parts (AnyGen σ)} {fmt : Int → Cell} {a : Nat} {q : Population}
    (ht : TimersOk env g) (hp : Supplied env p g) (hs : Stage env R P S w) (hq : P[a]? = some q)
    (hl : q.ids.length = q.size) (hr : "purchases" ∈ S.map Prod.fst) (h1 : "agent_start_holidays" ∉ S.map Prod.fst)
    (h2 : "agent_stops_holidays" ∉ S.map Prod.fst) : Ends (addHolidays env g fmt a) w := by
  rw [addHolidays]
  refine (ends_seeded _ _).bind fun tg w1 k1 => ?_
  have s1 := stage_seeded hs k1
  obtain ⟨-, sd, b1⟩ := grows_seeded (X := []) k1
  refine (ends_seeded _ _).bind fun g1 w2 k2 => ?_
  have s2 := stage_seeded s1 k2
  obtain ⟨m2, sd2, b2⟩ := grows_seeded (X := []) k2
  refine (ends_seeded _ _).bind fun g2 w3 k3 => ?_
  have s3 := stage_seeded s2 k3
  obtain ⟨m3, sd3, b3⟩ := grows_seeded (X := []) k3
  refine (ends_story (cfg := leaveStory a tg g1) s3 hq hl h1 rfl (.ref (m3.began b2) (hp.leave sd2))
    (.inr ⟨_, m3.began (m2.began b1), ht sd⟩)).bind fun n w4 k4 => ?_
  have m4 := grows_createStory (X := []) (cfg := leaveStory a tg g1) (others := fun _ => False) s3 hq (fun _ h => h.elim)
    (.inr ⟨_, m3.began (m2.began b1), ht sd⟩) k4
  obtain ⟨-, s4⟩ := stage_createStory s3 k4
  refine (ends_story (cfg := returnStory a tg g2) s4 hq hl (by
    rw [List.map_append, List.mem_append, not_or]
    exact ⟨h2, by simp [leaveStory, returnStory]⟩) rfl (.ref (m4.began b3) (hp.back sd3))
    (.inr ⟨_, m4.began (m3.began (m2.began b1)), ht sd⟩)).bind fun n w5 k5 => ?_
  obtain ⟨-, s5⟩ := stage_createStory s4 k5
  refine (ends_storyNamed s5 ?_).bind fun _ _ _ => Ends.pure
  rw [List.map_append, List.map_append]
  exact List.mem_append_left _ (List.mem_append_left _ hr)

theorem ends_addReviews {p : Params} {g : Parts (AnyGen σ)} {fmt : Int → Cell} {a : Nat} {q : Population}
    (ht : TimersOk env g) (hp : Supplied env p g) (hs : Stage env R P S c.world) (hq : P[a]? = some q)
    (hl : q.ids.length = q.size) (hnone : c.populations.get? "rev" = none) (hS : "agent_reviews" ∉ S.map Prod.fst) :
    Ends (addReviews env g fmt a) c := by
  rw [addReviews]
  refine (Ends.onWorld (ends_seeded _ _)).bind fun tg c1 k1 => ?_
  have n1 := onWorld_named k1 hnone
  have s1 := stage_seeded hs (onWorld_circus k1)
  obtain ⟨-, sd, b1⟩ := grows_seeded (X := []) (onWorld_circus k1)
  refine (Ends.onWorld (ends_seeded _ _)).bind fun g1 c2 k2 => ?_
  have n2 := onWorld_named k2 n1
  have s2 := stage_seeded s1 (onWorld_circus k2)
  obtain ⟨m2, sd2, b2⟩ := grows_seeded (X := []) (onWorld_circus k2)
  have hpop : Ends (createPopulation env "rev" (.generated tg 0)) c2 := by
    rcases createPopulation_cases (env := env) "rev" (.generated tg 0) c2 with ⟨h, -⟩ | ⟨-, ⟨e, w, h, -⟩ | ⟨p, w, -, -, h⟩⟩
    · rw [Dict.contains, n2] at h
      cases h
    · rw [newPopulation, if_pos rfl] at h
      cases h
    · exact ⟨_, _, h⟩
  refine hpop.bind fun i c3 k3 => ?_
  obtain ⟨ids, n, rfl, hn, -, s3⟩ := stage_createPopulation s2 k3
  obtain ⟨rfl, h0⟩ := hn _ _ rfl
  obtain rfl := h0 rfl
  have m3 : Grows env [] [] _ _ := grows_createPopulation k3
  have hlt := (List.getElem?_eq_some_iff.1 hq).1
  refine Ends.onWorld ((ends_createConstant s3 at_last rfl).bind fun u w4 k4 => ?_)
  obtain ⟨m4, q4, a4, e4, -, s4⟩ := createConstant_stage (X := []) s3 k4
  rw [at_last] at e4; cases e4
  rw [set_last] at s4
  refine (ends_createConstant s4 at_last rfl).bind fun u w5 k5 => ?_
  obtain ⟨m5, q5, a5, e5, -, s5⟩ := createConstant_stage (X := []) s4 k5
  rw [at_last] at e5; cases e5
  rw [set_last] at s5
  refine (ends_createConstant s5 at_last rfl).bind fun u w6 k6 => ?_
  obtain ⟨m6, q6, a6, e6, -, s6⟩ := createConstant_stage (X := []) s5 k6
  rw [at_last] at e6; cases e6
  rw [set_last] at s6
  refine (ends_createConstant s6 at_last rfl).bind fun u w7 k7 => ?_
  obtain ⟨m7, q7, a7, e7, -, s7⟩ := createConstant_stage (X := []) s6 k7
  have m := m3.trans ((m4.trans m5).trans (m6.trans m7))
  refine (ends_story (cfg := reviewStory a tg g1) (q := q) s7 ?_ hl hS rfl (.ref (m.began b2) (hp.activity sd2))
    (.inr ⟨_, m.began (m2.began b1), ht sd⟩)).bind fun n w8 k8 => ?_
  · show (_ : List Population)[a]? = _
    rw [set_last, List.getElem?_append_left hlt]
    exact hq
  · exact (ends_addGenerator _ _).bind fun _ _ _ => (ends_seeded _ _).bind fun _ _ _ => Ends.pure

end Snd
end Trumania
