import Verif.Proofs.ShopTrigger
import Verif.Proofs.CdrBuild
import Verif.Proofs.HashCreate
import Verif.Props.Periodic
import Verif.Proofs.Kinds

/-! Helper lemmas: what steps 4 and 5 of examples/tutorial/example2.py build. -/

namespace Trumania
namespace Shop
open Spec World Circus Cdr
variable {σ : Type} {env : Env σ (AnyGen σ)} {w w' w1 w2 : World σ (AnyGen σ)} {c c' : Circus σ (AnyGen σ)}
  {R : List (List (Val × Val))} {P : List Population} {S : List (String × String)} {n m : Nat}

/-- what happens to the generators and to the stories when something is added -/
structure After (env : Env σ (AnyGen σ)) (n : Nat) (w w' : World σ (AnyGen σ)) : Prop where
  len : w'.gens.length = w.gens.length + n
  began : ∀ {r g}, Began env w r g → Began env w' r g
  kept : w.gens.length ≤ 4 ∨ w'.gens[4]? = w.gens[4]?
  stories : ∃ l, w'.stories = w.stories ++ l ∧ ∀ s ∈ l, 4 ∉ refs s.timerGen
  clock : w'.clock.current = w.clock.current ∧ w'.clock.step = w.clock.step
  rels : ∃ l, w'.rels = w.rels ++ l ∧ ∀ r ∈ l, ∀ o, r.get_relations o = []

/-- a story of these members was added last, with a timer generator that satisfies `T` -/
def Anew (w w' : World σ (AnyGen σ)) (ids : List Val) (T : GenRef → Prop) : Prop :=
  ∃ s, w'.stories = w.stories ++ [s] ∧ (Begins s ids fun _ => False) ∧ T s.timerGen

theorem After.trans (h1 : After env n w w1) (h2 : After env m w1 w2) : After env (n + m) w w2 := by
  obtain ⟨l1, e1, k1⟩ := h1.stories
  obtain ⟨l2, e2, k2⟩ := h2.stories
  obtain ⟨m1, r1, z1⟩ := h1.rels
  obtain ⟨m2, r2, z2⟩ := h2.rels
  refine ⟨by rw [h2.len, h1.len, Nat.add_assoc], fun h => h2.began (h1.began h), ?_, ⟨l1 ++ l2,
    by rw [e2, e1, List.append_assoc], ?_⟩, ⟨h2.clock.1.trans h1.clock.1, h2.clock.2.trans h1.clock.2⟩,
    m1 ++ m2, by rw [r2, r1, List.append_assoc], fun r hr => (List.mem_append.1 hr).elim (z1 r) (z2 r)⟩
  · rcases h1.kept with h | h
    · exact .inl h
    · rcases h2.kept with h' | h'
      · have := h1.len
        exact .inl (by omega)
      · exact .inr (h'.trans h)
  · intro s hs
    exact (List.mem_append.1 hs).elim (k1 s) (k2 s)

theorem After.same (h : w'.gens = w.gens) (hs : w'.stories = w.stories)
    (hc : w'.clock.current = w.clock.current ∧ w'.clock.step = w.clock.step := by exact ⟨rfl, rfl⟩)
    (hr : w'.rels = w.rels := by rfl) :
    After env 0 w w' := by
  refine ⟨by rw [h]; rfl, fun hb => ?_, .inr (by rw [h]), ⟨[], by simpa using hs, by simp⟩, hc,
    [], by simpa using hr, by simp⟩
  obtain ⟨j, hj, hb⟩ := began_iff.1 hb
  exact began_iff.2 ⟨j, hj, h ▸ hb⟩

theorem after_addGenerator {g : AnyGen σ} {r : GenRef} (h : Snd.addGenerator g w = .ok r w') :
    After env 1 w w' ∧ r = .ref w.gens.length ∧ w'.gens = w.gens ++ [g] := by
  rw [Snd.addGenerator] at h
  cases h
  refine ⟨⟨?_, fun {r' g'} hb => ?_, ?_, ⟨[], ?_, by simp⟩, ⟨rfl, rfl⟩, [], by simp, by simp⟩, rfl, rfl⟩
  · show (w.gens ++ [g]).length = _
    simp
  · obtain ⟨j, hj, hb⟩ := began_iff.1 hb
    exact began_iff.2 ⟨j, hj, beganAt_append [g] hb⟩
  · by_cases h4 : w.gens.length ≤ 4
    · exact .inl h4
    · exact .inr (List.getElem?_append_left (l₁ := w.gens) (Nat.lt_of_not_le h4))
  · simp

theorem after_seeded {mk : Int → AnyGen σ} {r : GenRef} (h : Snd.seeded env mk w = .ok r w') :
    After env 1 w w' ∧ r = .ref w.gens.length ∧ ∃ seed, Began env w' r (mk seed) := by
  have hb := (seeded_began h).1
  rw [Snd.seeded] at h
  obtain ⟨x, w1, h1, h2⟩ := Act.bind_eq_ok.1 h
  obtain ⟨s, -, rfl⟩ := drawSeed_eq_ok h1
  obtain ⟨h3, h4, -⟩ := after_addGenerator (env := env) h2
  exact ⟨⟨h3.len, h3.began, h3.kept, h3.stories, h3.clock, h3.rels⟩, h4, hb⟩

theorem call_length {g : GenRef} {q : Request} {cells : List Cell} (h : World.call env g q w = .ok cells w') :
    w'.gens.length = w.gens.length := by
  obtain ⟨l, rfl, hl, -⟩ := local_call (env := env) g q w cells w' h
  exact hl

theorem after_generate {g : GenRef} {k : Rat} {cells : List Cell} (hg : w.gens.length ≤ 4 ∨ 4 ∉ refs g)
    (h : World.generate env g k w = .ok cells w') : After env 0 w w' :=
  ⟨call_length h, generate_began h, hg.imp_right fun hg => call_gens_other hg h, ⟨[], by
    simpa using (call_sameRest h).1, by simp⟩, ⟨(call_sameRest h).2.date, (call_sameRest h).2.step⟩, [],
    by simpa using (call_sameRest h).2.rels, by simp⟩

theorem after_createDrawn {pop : Nat} {name : String} {g : GenRef} {u : Unit} (hg : w.gens.length ≤ 4 ∨ 4 ∉ refs g)
    (h : Snd.createDrawn env pop name g w = .ok u w') : After env 0 w w' := by
  rw [Snd.createDrawn] at h
  obtain ⟨p, w1, h1, h⟩ := Act.bind_eq_ok.1 h
  obtain ⟨-, rfl⟩ := getPop_eq_ok.1 h1
  obtain ⟨vs, w2, hv, h⟩ : ∃ (vs : List Cell) (w2 : World σ (AnyGen σ)), After env 0 w w2 ∧
      (do let p ← Act.ofPy (p.createAttribute name vs); setPop pop p : Act (World σ (AnyGen σ)) Unit) w2 = .ok u w' := by
    split at h
    · exact ⟨_, w, .same rfl rfl, h⟩
    · obtain ⟨vs, w2, h2, h⟩ := Act.bind_eq_ok.1 h
      exact ⟨vs, w2, after_generate hg h2, h⟩
  obtain ⟨p', w3, h3, h⟩ := Act.bind_eq_ok.1 h
  obtain ⟨-, rfl⟩ := Act.ofPy_eq_ok.1 h3
  rw [setPop_eq_ok] at h
  subst h
  exact hv.trans (m := 0) (.same rfl rfl)

theorem after_createRelationship {pop i : Nat} {name : String} (h : createRelationship env pop name none w = .ok i w') :
    After env 0 w w' := by
  obtain ⟨p, x, s, -, -, -, rfl⟩ := createRelationship_eq_ok h
  have h0 : After env 0 w { w with rels := w.rels } := .same rfl rfl
  refine ⟨h0.len, h0.began, h0.kept, h0.stories, h0.clock, [Relationship.new env.R x], rfl, fun r hr o => ?_⟩
  rw [List.mem_singleton.1 hr]
  simpa using (Snd.filled_new (env := env) x).2 o

theorem storyParams_length {ids : List Val} {size : Nat} {states : List (Val × StateGens)}
    {params params' : Dict Val (Dict Val StateParams)}
    (h : storyParams env ids size states params w = .ok params' w') : w'.gens.length = w.gens.length := by
  induction states generalizing params w with
  | nil =>
    rw [storyParams, Act.pure_eq_ok] at h
    rw [h.2]
  | cons st rest ih =>
    obtain ⟨st, g⟩ := st
    rw [storyParams] at h
    simp only [Act.bind_eq_ok, Act.ofPy_eq_ok] at h
    obtain ⟨c1, w1, h1, c2, w2, h2, a, _, ⟨h3, rfl⟩, b, _, ⟨h4, rfl⟩, ps, _, ⟨h5, rfl⟩, h6⟩ := h
    rw [ih h6, call_length h2, call_length h1]

theorem storyParams_clock {ids : List Val} {size : Nat} {states : List (Val × StateGens)}
    {params params' : Dict Val (Dict Val StateParams)}
    (h : storyParams env ids size states params w = .ok params' w') :
    w'.clock.current = w.clock.current ∧ w'.clock.step = w.clock.step := by
  induction states generalizing params w with
  | nil =>
    rw [storyParams, Act.pure_eq_ok] at h
    rw [h.2]
    exact ⟨rfl, rfl⟩
  | cons st rest ih =>
    obtain ⟨st, g⟩ := st
    rw [storyParams] at h
    simp only [Act.bind_eq_ok, Act.ofPy_eq_ok] at h
    obtain ⟨c1, w1, h1, c2, w2, h2, a, _, ⟨h3, rfl⟩, b, _, ⟨h4, rfl⟩, ps, _, ⟨h5, rfl⟩, h6⟩ := h
    have k1 := (call_sameRest h1).2
    have k2 := (call_sameRest h2).2
    obtain ⟨k3, k4⟩ := ih h6
    exact ⟨k3.trans (k2.date.trans k1.date), k4.trans (k2.step.trans k1.step)⟩

theorem after_createStory {cfg : StoryConfig} {i : Nat} (hst : cfg.states = none) (h1 : 4 ∉ refs cfg.activity)
    (h2 : 4 ∉ refs cfg.timerGen) (h : World.createStory env cfg w = .ok i w') : After env 0 w w' ∧
      ∃ s, w'.stories = w.stories ++ [s] ∧ s.timerGen = cfg.timerGen ∧
        (cfg.timerGen = .constant (.num (-1)) → ∀ id, ¬Scheduled s id) := by
  obtain ⟨hb, s, hs, ht, hsch⟩ := createStory_began h
  obtain ⟨-, p, s', u, -, hnew, rfl, rfl⟩ := createStory_ok h
  have h0 : u.rels = w.rels := by
    obtain ⟨_, _, _, -, -, -, -, k2, -⟩ := newStory_ok hnew
    exact k2.rels
  have key : u.gens.length = w.gens.length ∧ u.gens[4]? = w.gens[4]? ∧
      u.clock.current = w.clock.current ∧ u.clock.step = w.clock.step := by
    clear h0
    rw [newStory] at hnew
    simp only [Act.bind_eq_ok, Act.ofPy_eq_ok] at hnew
    obtain ⟨states, _, ⟨k1, rfl⟩, params, w1, k2, k3⟩ := hnew
    have e1 : w1.gens[4]? = w.gens[4]? := by
      refine Snd.storyParams_gens (fun st hst' => ?_) k2
      rcases Snd.merge_mem k1 hst' with hm | ⟨d, hd, hm⟩
      · rw [List.mem_singleton] at hm
        subst hm
        exact ⟨h1, by simp [refs]⟩
      · rw [hst] at hd
        cases hd
    have e2 := storyParams_length k2
    have e3 := storyParams_clock k2
    rw [initialReset] at k3
    split at k3
    · obtain ⟨-, h3, -, -, -, -, h4⟩ := resetStory_ok k3
      refine ⟨?_, ?_, h3.date.trans e3.1, h3.step.trans e3.2⟩
      · rcases h4 with ⟨-, -, rfl⟩ | ⟨ps, cells, ts, -, -, -, h5, -⟩
        · exact e2
        · exact (call_length h5).trans e2
      · rcases h4 with ⟨-, -, rfl⟩ | ⟨ps, cells, ts, -, -, -, h5, -⟩
        · exact e1
        · exact (call_gens_other h2 h5).trans e1
    · obtain ⟨-, rfl⟩ := Act.pure_eq_ok.1 k3
      exact ⟨e2, e1, e3⟩
  refine ⟨⟨key.1, hb, .inr key.2.1, ⟨[s], hs, ?_⟩, key.2.2, [], by simpa using h0, by simp⟩, s, hs, ht, hsch⟩
  intro x hx
  rw [List.mem_singleton] at hx
  rw [hx, ht]
  exact h2

theorem anew_createStory {cfg : StoryConfig} {i : Nat} {p : Population} (hst : cfg.states = none)
    (hp : w.pops[cfg.population]? = some p) (hn : p.ids.Nodup) (h : World.createStory env cfg w = .ok i w') :
    Anew w w' p.ids (· = cfg.timerGen) := by
  obtain ⟨-, s, hs, ht, -⟩ := createStory_began h
  obtain ⟨s', h1, h2⟩ := createStory_begins hp hn h
  obtain ⟨-, _, _, u, -, hnew, hi, e⟩ := createStory_ok h
  obtain ⟨_, _, _, -, -, -, k1, -⟩ := newStory_ok hnew
  have : s' = s := by
    rw [hs, hi, k1] at h1
    simpa using h1.symm
  subst this
  refine ⟨s', hs, ⟨h2.members, h2.default, fun j hj st h => h2.params j hj st (h.imp_right fun h => h.elim)⟩, ht⟩

theorem Anew.after {ids : List Val} {T T' : GenRef → Prop} (h : Anew w w1 ids T) (hs : w2.stories = w1.stories)
    (hT : ∀ r, T r → T' r) : Anew w w2 ids T' := by
  obtain ⟨s, h1, h2, h3⟩ := h
  exact ⟨s, hs.trans h1, h2, hT _ h3⟩

theorem Anew.before {ids : List Val} {T : GenRef → Prop} (h : Anew w1 w2 ids T) (hs : w1.stories = w.stories) :
    Anew w w2 ids T := by
  obtain ⟨s, h1, h2, h3⟩ := h
  exact ⟨s, by rw [h1, hs], h2, h3⟩

/-! ### Circuses -/

theorem onWorld_ok {α : Type} {a : Act (World σ (AnyGen σ)) α} {r : α} (h : onWorld a c = .ok r c') :
    ∃ u, a c.world = .ok r u ∧ c' = { c with world := u } := by
  rw [onWorld] at h
  cases he : a c.world with
  | ok x u => rw [he] at h; cases h; exact ⟨u, rfl, rfl⟩
  | error e u => rw [he] at h; cases h

/-- what the circus has -/
structure Site (env : Env σ (AnyGen σ)) (R : List (List (Val × Val))) (P : List Population) (S : List (String × String))
    (pops gens : Dict String Nat) (c : Circus σ (AnyGen σ)) : Prop where
  stage : Stage env R P S c.world
  pops : c.populations = pops
  gens : c.generators = gens

variable {D G : Dict String Nat}

theorem site_createPopulation {name : String} {g : GenRef} {k i : Nat} (hs : Site env R P S D G c)
    (hg : c.world.gens.length ≤ 4 ∨ 4 ∉ refs g)
    (h : createPopulation env name (.generated g k) c = .ok i c') : ∃ ids, i = P.length ∧
      (k = 0 ∧ ids = [] ∨ ∃ cells u, World.generate env g (k : Rat) c.world = .ok cells u ∧ cells.mapM Cell.asVal = .ok ids) ∧
      Site env R (P ++ [⟨ids, k, [], []⟩]) S (D.set name P.length) G c' ∧ After env 0 c.world c'.world := by
  obtain ⟨ids, k', e1, e2, -, hst⟩ := stage_createPopulation hs.stage h
  obtain ⟨rfl, e3⟩ := e2 _ _ rfl
  rcases createPopulation_cases (env := env) name (.generated g k') c with ⟨-, he⟩ | ⟨-, ⟨e, w, -, -, he⟩ |
    ⟨p, w, h1, h2, he⟩⟩
  · rw [he] at h; cases h
  · rw [he] at h; cases h
  · rw [he] at h
    cases h
    have hp : p = ⟨ids, k', [], []⟩ := by
      have h3 := hst.pops
      simp only [World.objects, Prod.mk.injEq] at h2
      change w.pops ++ [p] = _ at h3
      rw [h2.2.1, hs.stage.pops] at h3
      exact List.cons.inj (List.append_cancel_left h3) |>.1
    refine ⟨ids, e1, ?_, ⟨hst, by rw [← hs.pops, ← e1], hs.gens⟩, ?_⟩
    · simp only [newPopulation] at h1
      split at h1
      · exact .inl ⟨‹_›, e3 ‹_›⟩
      · obtain ⟨cells, w1, h4, h1⟩ := Act.bind_eq_ok.1 h1
        obtain ⟨ids', w2, h5, h1⟩ := Act.bind_eq_ok.1 h1
        obtain ⟨h5', rfl⟩ := Act.ofPy_eq_ok.1 h5
        obtain ⟨h6, rfl⟩ := Act.ofPy_eq_ok.1 h1
        simp only [Population.new, if_neg ‹¬ k' = 0›, Population.ofIds] at h6
        split at h6
        · rw [hp] at h6
          cases h6
          exact .inr ⟨cells, _, h4, h5'⟩
        · cases h6
    · have hw : After env 0 c.world w := by
        simp only [newPopulation] at h1
        split at h1
        · obtain ⟨-, rfl⟩ := Act.ofPy_eq_ok.1 h1
          exact .same rfl rfl
        · obtain ⟨cells, w1, h4, h1⟩ := Act.bind_eq_ok.1 h1
          obtain ⟨ids', w2, h5, h1⟩ := Act.bind_eq_ok.1 h1
          obtain ⟨-, rfl⟩ := Act.ofPy_eq_ok.1 h5
          obtain ⟨-, rfl⟩ := Act.ofPy_eq_ok.1 h1
          exact after_generate hg h4
      exact hw.trans (m := 0) (.same rfl rfl)

theorem popNamed_ok {name : String} {i : Nat} (h : popNamed name c = .ok i c') :
    c' = c ∧ c.populations.get name = .ok i := by
  rw [popNamed, Act.bind_ok (FS.get_ok c)] at h
  obtain ⟨h1, rfl⟩ := Act.ofPy_eq_ok.1 h
  exact ⟨rfl, h1⟩

theorem genNamed_ok {name : String} {r : GenRef} (h : genNamed name c = .ok r c') :
    c' = c ∧ ∃ i, r = .ref i ∧ c.generators.get name = .ok i := by
  rw [genNamed, Act.bind_ok (FS.get_ok c)] at h
  obtain ⟨i, c1, h1, h⟩ := Act.bind_eq_ok.1 h
  obtain ⟨h2, rfl⟩ := Act.ofPy_eq_ok.1 h1
  obtain ⟨rfl, rfl⟩ := Act.pure_eq_ok.1 h
  exact ⟨rfl, i, rfl, h2⟩

theorem attachGenerator_ok {name : String} {i : Nat} {u : Unit} (h : attachGenerator name i c = .ok u c') :
    c' = { c with generators := c.generators.set name i } := by
  rw [attachGenerator, Act.bind_ok (FS.get_ok c)] at h
  split at h
  · cases h
  · cases h
    rfl

/-! ### The functions of the example -/

theorem createPos_site {p : Params} {g : Parts (AnyGen σ)} {u : Unit} (hs : Site env [] [] [] [] [] c)
    (hl : c.world.gens.length = 0) (h : createPos env p g c = .ok u c') : ∃ ids a1 a2 a3,
      (p.nPos = 0 ∧ ids = [] ∨ ∃ cells x, env.sem.generate g.posIds (p.nPos : Rat) = .ok (cells, x) ∧
        cells.mapM Cell.asVal = .ok ids) ∧
      Site env [[]] [⟨ids, p.nPos, [("NAME", a1), ("CITY", a2), ("COMPANY", a3)], [("items", 0)]⟩] []
        [("point_of_sale", 0)] [] c' ∧ After env 4 c.world c'.world ∧ ∀ x ∈ [a1, a2, a3], ∀ i ∈ ids, Knows x i := by
  rw [createPos] at h
  obtain ⟨r1, c1, h1, h⟩ := Act.bind_eq_ok.1 h
  obtain ⟨u1, h1', rfl⟩ := onWorld_ok h1
  have s1 := stage_addGenerator hs.stage h1'
  obtain ⟨a1, rfl, g1⟩ := after_addGenerator (env := env) h1'
  obtain ⟨pos, c2, h2, h⟩ := Act.bind_eq_ok.1 h
  have l1 : u1.gens.length = 1 := by rw [a1.len, hl]
  obtain ⟨ids, rfl, hids, s2, a2⟩ := site_createPopulation (c := { c with world := u1 }) ⟨s1, hs.pops, hs.gens⟩
    (.inl (by show u1.gens.length ≤ 4; omega)) h2
  have hz : p.nPos = 0 → ids = [] := by
    obtain ⟨ids', k', -, e2, -, hst⟩ := stage_createPopulation s1 h2
    obtain ⟨rfl, e3⟩ := e2 _ _ rfl
    have e4 := hst.pops.symm.trans s2.stage.pops
    simp only [List.nil_append, List.cons.injEq, Population.mk.injEq, and_true] at e4
    rw [← e4]
    exact e3
  obtain ⟨u3, hw, rfl⟩ := onWorld_ok h
  clear h
  have h := hw
  have l2 : c2.world.gens.length = 1 := by rw [a2.len]; exact l1
  obtain ⟨r2, v1, k1, h⟩ := Act.bind_eq_ok.1 h
  have t1 := stage_seeded s2.stage k1
  obtain ⟨b1, rfl, -⟩ := after_seeded k1
  have n1 := b1.len
  obtain ⟨x1, v2, k2, h⟩ := Act.bind_eq_ok.1 h
  obtain ⟨q1, at1, vs1, e1, -, z1, t2⟩ := stage_createDrawn t1 k2
  cases e1
  have b2 := after_createDrawn (.inl (by omega)) k2
  have n2 := b2.len
  obtain ⟨r3, v3, k3, h⟩ := Act.bind_eq_ok.1 h
  have t3 := stage_seeded t2 k3
  obtain ⟨b3, rfl, -⟩ := after_seeded k3
  have n3 := b3.len
  obtain ⟨x2, v4, k4, h⟩ := Act.bind_eq_ok.1 h
  obtain ⟨q2, at2, vs2, e2, -, z2, t4⟩ := stage_createDrawn t3 k4
  cases e2
  have b4 := after_createDrawn (.inl (by omega)) k4
  have n4 := b4.len
  obtain ⟨r4, v5, k5, h⟩ := Act.bind_eq_ok.1 h
  have t5 := stage_seeded t4 k5
  obtain ⟨b5, rfl, -⟩ := after_seeded k5
  have n5 := b5.len
  obtain ⟨x3, v6, k6, h⟩ := Act.bind_eq_ok.1 h
  obtain ⟨q3, at3, vs3, e3, -, z3, t6⟩ := stage_createDrawn t5 k6
  cases e3
  have b6 := after_createDrawn (.inl (by omega)) k6
  obtain ⟨r5, v7, k7, h⟩ := Act.bind_eq_ok.1 h
  obtain ⟨q4, e4, rfl, t7⟩ := stage_createRelationship t6 k7
  cases e4
  have b7 := after_createRelationship k7
  obtain ⟨-, rfl⟩ := Act.pure_eq_ok.1 h
  refine ⟨ids, at1, at2, at3, ?_, ⟨t7, s2.pops, s2.gens⟩,
    ((((((((a1.trans a2).trans b1).trans b2).trans b3).trans b4).trans b5).trans b6).trans b7), ?_⟩
  swap
  · intro x hx
    simp only [List.mem_cons, List.not_mem_nil, or_false] at hx
    rcases hx with rfl | rfl | rfl
    · exact (new_holds z1 hz).1
    · exact (new_holds z2 hz).1
    · exact (new_holds z3 hz).1
  refine hids.imp_right ?_
  rintro ⟨cells, y, hg, hv⟩
  obtain ⟨gg, gg', e5, e6, -⟩ := generate_ref_ok.1 hg
  change u1.gens[c.world.gens.length]? = _ at e5
  rw [g1, List.getElem?_append_right (le_refl _), Nat.sub_self] at e5
  cases e5
  exact ⟨cells, gg', e6, hv⟩

/-- the pairs added by `add_grouped_relations` -/
theorem filled_grouped {r r' : Relationship σ} {L : List (Val × Val)} {f : List Val} {t : List (List Val)}
    (hr : Snd.Filled env r L) (h : r.add_grouped_relations env.orders f t = .ok r') :
    Snd.Filled env r' (L ++ (f.zip t).flatMap fun x => x.2.map fun y => (x.1, y)) := by
  have h : AddCall.exec r (.grouped f t, env.orders) = .ok r' := h
  refine ⟨reachable_addCall env.R hr.1 h, fun o => ?_⟩
  have := (C16_step env.R hr.1 h o o).map fun x => (x.1, x.2.1)
  rw [List.map_append] at this
  refine this.trans ((hr.2 o).append (.of_eq ?_))
  simp [Spec.added, List.map_flatMap, Function.comp_def]

theorem itemArrays_ok (hsem : env.sem = AnyGen.sem env.R) {k j : Nat} {a : SeqGen} {l : List Val}
    {arrays : List (List Val)} (hg : w.gens[j]? = some (.seq a)) (hs : Stage env R P S w)
    (h : itemArrays env (.ref j) k l w = .ok arrays w') : arrays.map List.length = l.map (fun _ => k) ∧
      arrays.flatten = idsFrom a (l.length * k) ∧
      w'.gens[j]? = some (.seq { a with counter := a.counter + (l.length * k : Nat) }) ∧
      w'.gens.length = w.gens.length ∧ w'.stories = w.stories ∧ Stage env R P S w' ∧
      w'.clock.current = w.clock.current ∧ w'.clock.step = w.clock.step := by
  induction l generalizing w a arrays with
  | nil =>
    rw [itemArrays, Act.pure_eq_ok] at h
    obtain ⟨rfl, rfl⟩ := h
    exact ⟨rfl, by simp [idsFrom], by simpa using hg, rfl, rfl, hs, rfl, rfl⟩
  | cons x l ih =>
    rw [itemArrays] at h
    obtain ⟨cells, w1, h1, h⟩ := Act.bind_eq_ok.1 h
    obtain ⟨items, w2, h2, h⟩ := Act.bind_eq_ok.1 h
    obtain ⟨hv, rfl⟩ := Act.ofPy_eq_ok.1 h2
    obtain ⟨rest, w3, h3, h⟩ := Act.bind_eq_ok.1 h
    obtain ⟨rfl, rfl⟩ := Act.pure_eq_ok.1 h
    have hs1 := stage_generate hs h1
    obtain ⟨g, g', hg', e, rfl⟩ := generate_ref_ok.1 h1
    rw [hg] at hg'
    cases hg'
    obtain ⟨rfl, rfl⟩ := Snd.seq_drawn hsem e hv
    have hlt := (List.getElem?_eq_some_iff.1 hg).1
    obtain ⟨k1, k2, k3, k4, k5, k6, k7⟩ := ih (a := { a with counter := a.counter + k })
      (by rw [World.gens]; exact List.getElem?_set_self hlt) hs1 h3
    refine ⟨?_, ?_, ?_, ?_, k5, k6, k7⟩
    · rw [List.map_cons, List.map_cons, k1]
      simp [idsFrom]
    · rw [List.flatten_cons, k2, ← idsFrom_append, List.length_cons]
      congr 1
      ring
    · rw [k3, List.length_cons]
      congr 3
      push_cast
      ring
    · rw [k4]
      simp [World.gens]

/-- the stocks in the beginning: `k` items each -/
theorem zip_items {l : List Val} {arrays : List (List Val)} {k : Nat}
    (h : arrays.map List.length = l.map (fun _ => k)) :
    ((l.zip arrays).flatMap fun x => x.2.map fun y => (x.1, y)).map Prod.snd = arrays.flatten ∧
    (l.Nodup → ∀ pos ∈ l, countFor pos ((l.zip arrays).flatMap fun x => x.2.map fun y => (x.1, y)) = k) ∧
    (∀ pos, pos ∉ l → countFor pos ((l.zip arrays).flatMap fun x => x.2.map fun y => (x.1, y)) = 0) := by
  induction l generalizing arrays with
  | nil =>
    cases arrays with
    | nil => exact ⟨rfl, by simp, fun _ _ => rfl⟩
    | cons x arrays => simp at h
  | cons x l ih =>
    cases arrays with
    | nil => simp at h
    | cons y arrays =>
      rw [List.map_cons, List.map_cons] at h
      obtain ⟨h1, h2⟩ := List.cons.inj h
      obtain ⟨k1, k2, k3⟩ := ih h2
      rw [List.zip_cons_cons, List.flatMap_cons]
      have hc : ∀ pos, countFor pos (y.map fun z => (x, z)) = if pos = x then k else 0 := by
        intro pos
        rw [countFor, List.countP_map]
        split
        · rename_i e
          subst e
          rw [← h1]
          simp [Function.comp_def]
        · rename_i e
          simp [Function.comp_def, Ne.symm e]
      have ha : ∀ pos (b : List (Val × Val)), countFor pos (y.map (fun z => (x, z)) ++ b) =
          (if pos = x then k else 0) + countFor pos b := by
        intro pos b
        rw [← hc pos, countFor, List.countP_append]
        rfl
      refine ⟨?_, fun hn pos hp => ?_, fun pos hp => ?_⟩
      · rw [List.map_append, k1, List.flatten_cons, List.map_map]
        simp [Function.comp_def]
      · rw [List.nodup_cons] at hn
        rw [ha]
        rcases List.mem_cons.1 hp with rfl | hp2
        · rw [if_pos rfl, k3 _ hn.1]
          rfl
        · have hne : pos ≠ x := by
            rintro rfl
            exact hn.1 hp2
          rw [if_neg hne, k2 hn.2 pos hp2, Nat.zero_add]
      · rw [List.mem_cons, not_or] at hp
        rw [ha, if_neg hp.1, k3 pos hp.2]

theorem addItems_site (hsem : env.sem = AnyGen.sem env.R) {p : Params} {g : Parts (AnyGen σ)} {a : SeqGen} {u : Unit}
    {q : Population} (hq : q.relationships = [("items", 0)]) (hs : Site env [[]] [q] [] [("point_of_sale", 0)] [] c)
    (hl : c.world.gens.length = 4) (ha : g.items = .seq a) (h : addItems env p g c = .ok u c') : ∃ arrays,
      arrays.map List.length = q.ids.map (fun _ => p.nItems) ∧ arrays.flatten = idsFrom a (q.ids.length * p.nItems) ∧
      Site env [(q.ids.zip arrays).flatMap fun x => x.2.map fun y => (x.1, y)] [q] []
        [("point_of_sale", 0)] [("items_gen", 4)] c' ∧
      c'.world.gens.length = 5 ∧ c'.world.stories = c.world.stories ∧
      c'.world.gens[4]? = some (.seq { a with counter := a.counter + (q.ids.length * p.nItems : Nat) }) ∧
      (∀ r ∈ c'.world.rels, ∀ o, ∀ x ∈ r.get_relations o, x.2.2 = 1) ∧
      c'.world.clock.current = c.world.clock.current ∧ c'.world.clock.step = c.world.clock.step := by
  rw [addItems] at h
  obtain ⟨pos, c1, h1, h⟩ := Act.bind_eq_ok.1 h
  obtain ⟨rfl, e1⟩ := popNamed_ok h1
  rw [hs.pops] at e1
  cases e1
  rw [Act.bind_ok (FS.get_ok _)] at h
  obtain ⟨r1, c2, h2, h⟩ := Act.bind_eq_ok.1 h
  obtain ⟨u1, h2', rfl⟩ := onWorld_ok h2
  have s1 := stage_addGenerator hs.stage h2'
  have st1 : u1.stories = c1.world.stories := by
    rw [Snd.addGenerator] at h2'
    cases h2'
    rfl
  obtain ⟨a1, rfl, g1⟩ := after_addGenerator (env := env) h2'
  obtain ⟨x1, c3, h3, h⟩ := Act.bind_eq_ok.1 h
  have h3 := attachGenerator_ok h3
  rw [hs.gens, hl] at h3
  subst h3
  obtain ⟨u4, hw, rfl⟩ := onWorld_ok h
  clear h
  have h := hw
  obtain ⟨q', v1, k1, h⟩ := Act.bind_eq_ok.1 h
  obtain ⟨hq1, rfl⟩ := getPop_eq_ok.1 k1
  rw [s1.pops] at hq1
  cases hq1
  obtain ⟨arrays, v2, k2, h⟩ := Act.bind_eq_ok.1 h
  rw [hl] at k2
  have hg4 : u1.gens[4]? = some (.seq a) := by
    rw [g1, List.getElem?_append_right (by omega), hl, ← ha]
    rfl
  obtain ⟨j1, j2, j3, j4, j5, j6, j7⟩ := itemArrays_ok hsem hg4 s1 k2
  obtain ⟨r2, v3, k3, h⟩ := Act.bind_eq_ok.1 h
  obtain ⟨rfl, q', e3, e4⟩ := stage_relNamed j6 k3
  cases e3
  rw [hq] at e4
  cases e4
  have hset : ∃ r r', v3.rels[0]? = some r ∧ r.add_grouped_relations env.orders q.ids arrays = .ok r' ∧
      u4 = { v3 with rels := v3.rels.set 0 r' } := by
    rw [addGroupedRelations] at h
    obtain ⟨r, v4, m1, h⟩ := Act.bind_eq_ok.1 h
    obtain ⟨hr, rfl⟩ := getRel_eq_ok.1 m1
    obtain ⟨r', v5, m2, h⟩ := Act.bind_eq_ok.1 h
    obtain ⟨hr', rfl⟩ := Act.ofPy_eq_ok.1 m2
    rw [setRel_eq_ok] at h
    exact ⟨r, r', hr, hr', h⟩
  obtain ⟨r, r', hr, hr', rfl⟩ := hset
  obtain ⟨L, hL, hf⟩ := forall₂_at j6.rels hr
  cases hL
  have hst : Stage env [(q.ids.zip arrays).flatMap fun x => x.2.map fun y => (x.1, y)] [q] []
      { v3 with rels := v3.rels.set 0 r' } :=
    ⟨Cdr.forall₂_set (i := 0) j6.rels (filled_grouped hf hr'), j6.pops, j6.stories, j6.wf, j6.ids⟩
  refine ⟨arrays, j1, j2, ⟨hst, hs.pops, rfl⟩, ?_, j5.trans st1, j3, ?_, j7.1.trans a1.clock.1, j7.2.trans a1.clock.2⟩
  · show v3.gens.length = 5
    rw [j4, a1.len, hl]
  · intro r1 hr1 o x hx
    have e0 : v3.rels = [r] := by
      have h1 : v3.rels.length = 1 := j6.rels.length_eq
      obtain ⟨y, hy⟩ := List.length_eq_one_iff.1 h1
      rw [hy] at hr ⊢
      cases hr
      rfl
    have hr1 : r1 ∈ v3.rels.set 0 r' := hr1
    rw [e0] at hr1
    obtain rfl : r1 = r' := by simpa using hr1
    have h1 := C16_step env.R hf.1 (c := .grouped q.ids arrays) hr' o o
    have h2 : r.get_relations o = [] := by simpa using hf.2 o
    rw [h2, List.nil_append] at h1
    have h3 := h1.mem_iff.1 hx
    simp only [Spec.added, List.mem_flatMap, List.mem_map] at h3
    obtain ⟨_, -, _, -, rfl⟩ := h3
    rfl

variable {L : List (Val × Val)} {q q1 : Population}

theorem addInactive_site {g : Parts (AnyGen σ)} {time : Int → Cell} {ops : List (Op (World σ (AnyGen σ)))}
    (hq : q.relationships = [("items", 0)]) (hs : Site env [L] [q] [] [("point_of_sale", 0)] [("items_gen", 4)] c)
    (hl : c.world.gens.length = 5) (h : addInactive env g time c = .ok ops c') :
    ops = restockOps env time 0 0 0 (.ref 5) (.ref 4) ∧
      Site env [L] [q] [("restock", "POS_ID")] [("point_of_sale", 0)] [("items_gen", 4)] c' ∧
      After env 1 c.world c'.world ∧ Anew c.world c'.world q.ids (· = .constant (.num (-1))) ∧
      (∃ seed, Began env c'.world (.ref 5) (g.volumes seed)) ∧
      ∃ s, c'.world.stories[0]? = some s ∧ s.timerGen = .constant (.num (-1)) ∧ ∀ id, ¬Scheduled s id := by
  rw [addInactive] at h
  obtain ⟨pos, c1, h1, h⟩ := Act.bind_eq_ok.1 h
  obtain ⟨rfl, e1⟩ := popNamed_ok h1
  rw [hs.pops] at e1
  cases e1
  obtain ⟨own, c2, h2, h⟩ := Act.bind_eq_ok.1 h
  obtain ⟨u2, h2', rfl⟩ := onWorld_ok h2
  obtain ⟨rfl, t2⟩ := stage_createStory hs.stage h2'
  obtain ⟨a2, s, k1, k2, k3⟩ := after_createStory (cfg := restockStory 0) rfl (by simp [restockStory, refs])
    (by simp [restockStory, refs]) h2'
  have n2 := anew_createStory (p := q) rfl (by rw [hs.stage.pops]; rfl) (hs.stage.wf q (by simp)).ids h2'
  have hl2 := a2.len
  obtain ⟨r3, c3, h3, h⟩ := Act.bind_eq_ok.1 h
  obtain ⟨u3, h3', rfl⟩ := onWorld_ok h3
  have t3 := stage_seeded t2 h3'
  have st3 := (seeded_began h3').2.2
  obtain ⟨a3, rfl, b3⟩ := after_seeded h3'
  obtain ⟨r4, c4, h4, h⟩ := Act.bind_eq_ok.1 h
  obtain ⟨rfl, i, rfl, e4⟩ := genNamed_ok h4
  rw [hs.gens] at e4
  cases e4
  obtain ⟨r5, c5, h5, h⟩ := Act.bind_eq_ok.1 h
  obtain ⟨u5, h5', rfl⟩ := onWorld_ok h5
  obtain ⟨rfl, q', e5, e6⟩ := stage_relNamed t3 h5'
  cases e5
  rw [hq] at e6
  cases e6
  obtain ⟨rfl, rfl⟩ := Act.pure_eq_ok.1 h
  have hlen : u2.gens.length = 5 := by rw [hl2, hl]
  have hn : c1.world.stories = [] := List.map_eq_nil_iff.1 hs.stage.stories
  refine ⟨?_, ⟨t3, hs.pops, hs.gens⟩, a2.trans a3, n2.after st3 fun _ h => h, ?_, s, ?_, k2, k3 rfl⟩
  · show restockOps env time 0 0 0 (.ref u2.gens.length) (.ref 4) = _
    rw [hlen]
  · have b3' : ∃ seed, Began env u5 (.ref u2.gens.length) (g.volumes seed) := b3
    rwa [hlen] at b3'
  · show u5.stories[0]? = _
    have : u5.stories = u2.stories := st3
    rw [this, k1, hn]
    rfl

theorem addPeriodic_site {g : Parts (AnyGen σ)} {day : Int → Cell} {ops : List (Op (World σ (AnyGen σ)))}
    (hq : q.relationships = [("items", 0)]) (hs : Site env [L] [q] [] [("point_of_sale", 0)] [("items_gen", 4)] c)
    (hl : c.world.gens.length = 5) (h : addPeriodic env g day c = .ok ops c') :
    ops = periodicOps env day 0 0 0 (.ref 6) (.ref 4) ∧
      Site env [L] [q] [("restock", "POS_ID")] [("point_of_sale", 0)] [("items_gen", 4)] c' ∧
      After env 2 c.world c'.world ∧
      Anew c.world c'.world q.ids (fun r => ∃ seed, Began env c'.world r (g.restockTimer seed)) ∧
      ∃ seed, Began env c'.world (.ref 6) (g.volumes seed) := by
  rw [addPeriodic] at h
  obtain ⟨pos, c1, h1, h⟩ := Act.bind_eq_ok.1 h
  obtain ⟨rfl, e1⟩ := popNamed_ok h1
  rw [hs.pops] at e1
  cases e1
  obtain ⟨r0, c0, h0, h⟩ := Act.bind_eq_ok.1 h
  obtain ⟨u0, h0', rfl⟩ := onWorld_ok h0
  have t0 := stage_seeded hs.stage h0'
  have st0 := (seeded_began h0').2.2
  obtain ⟨a0, rfl, sd0, b0⟩ := after_seeded h0'
  have l0 := a0.len
  obtain ⟨own, c2, h2, h⟩ := Act.bind_eq_ok.1 h
  obtain ⟨u2, h2', rfl⟩ := onWorld_ok h2
  obtain ⟨rfl, t2⟩ := stage_createStory t0 h2'
  obtain ⟨a2, -⟩ := after_createStory (cfg := periodicStory 0 (.ref c1.world.gens.length) g.restockActivity) rfl
    (by simp [periodicStory, refs]) (by simp [periodicStory, refs, hl]) h2'
  have n2 := anew_createStory (p := q) rfl (by rw [t0.pops]; rfl) (t0.wf q (by simp)).ids h2'
  have l2 : u2.gens.length = u0.gens.length := a2.len
  obtain ⟨r3, c3, h3, h⟩ := Act.bind_eq_ok.1 h
  obtain ⟨u3, h3', rfl⟩ := onWorld_ok h3
  have t3 := stage_seeded t2 h3'
  have st3 := (seeded_began h3').2.2
  obtain ⟨a3, rfl, b3⟩ := after_seeded h3'
  obtain ⟨r4, c4, h4, h⟩ := Act.bind_eq_ok.1 h
  obtain ⟨rfl, i, rfl, e4⟩ := genNamed_ok h4
  rw [hs.gens] at e4
  cases e4
  obtain ⟨r5, c5, h5, h⟩ := Act.bind_eq_ok.1 h
  obtain ⟨u5, h5', rfl⟩ := onWorld_ok h5
  obtain ⟨rfl, q', e5, e6⟩ := stage_relNamed t3 h5'
  cases e5
  rw [hq] at e6
  cases e6
  obtain ⟨rfl, rfl⟩ := Act.pure_eq_ok.1 h
  have hlen : u2.gens.length = 6 := by rw [l2, l0, hl]
  refine ⟨?_, ⟨t3, hs.pops, hs.gens⟩, (a0.trans a2).trans a3, ?_, ?_⟩
  · show periodicOps env day 0 0 0 (.ref u2.gens.length) (.ref 4) = _
    rw [hlen]
  · exact (n2.before st0).after st3 fun r hr => ⟨sd0, by rw [hr]; exact a3.began (a2.began b0)⟩
  · have b3' : ∃ seed, Began env u5 (.ref u2.gens.length) (g.volumes seed) := b3
    rwa [hlen] at b3'

theorem addReport_site {day : Int → Cell} {ops : List (Op (World σ (AnyGen σ)))}
    (hq : q.relationships = [("items", 0)]) (hs : Site env [L] [q] S [("point_of_sale", 0)] G c)
    (h : addReport env day c = .ok ops c') : ops = reportOps env day S.length 0 ∧
      Site env [L] [q] (S ++ [("report", "POS_ID")]) [("point_of_sale", 0)] G c' ∧ After env 0 c.world c'.world ∧
      Anew c.world c'.world q.ids (fun r => ∃ x, r = .constant (.num x)) ∧
      ∃ n, c.world.clock.nIterations oneDay = .ok n ∧ ∀ k : Nat, n = k + 1 →
        Beats c'.world S.length k q.ids ∧ AllWait c'.world S.length k := by
  rw [addReport] at h
  obtain ⟨pos, c1, h1, h⟩ := Act.bind_eq_ok.1 h
  obtain ⟨rfl, e1⟩ := popNamed_ok h1
  rw [hs.pops] at e1
  cases e1
  rw [Act.bind_ok (FS.get_ok _)] at h
  obtain ⟨n, c2, h2, h⟩ := Act.bind_eq_ok.1 h
  obtain ⟨hn, rfl⟩ := Act.ofPy_eq_ok.1 h2
  obtain ⟨own, c3, h3, h⟩ := Act.bind_eq_ok.1 h
  obtain ⟨u3, h3', rfl⟩ := onWorld_ok h3
  obtain ⟨rfl, t3⟩ := stage_createStory hs.stage h3'
  obtain ⟨a3, -⟩ := after_createStory (cfg := reportStory 0 n) rfl (by simp [reportStory, refs])
    (by simp [reportStory, refs]) h3'
  obtain ⟨r5, c5, h5, h⟩ := Act.bind_eq_ok.1 h
  obtain ⟨u5, h5', rfl⟩ := onWorld_ok h5
  obtain ⟨rfl, q', e5, e6⟩ := stage_relNamed t3 h5'
  cases e5
  rw [hq] at e6
  cases e6
  obtain ⟨rfl, rfl⟩ := Act.pure_eq_ok.1 h
  have n3 := anew_createStory (p := q) rfl (by rw [hs.stage.pops]; rfl) (hs.stage.wf q (by simp)).ids h3'
  refine ⟨rfl, ⟨t3, hs.pops, hs.gens⟩, a3, n3.after rfl fun r hr => ⟨_, hr⟩, n, hn, fun k hk => ?_⟩
  refine (C124_created (c := k) (a := 1) h3' (p := q) ?_ (hs.stage.wf q (by simp)).ids rfl rfl ?_ rfl (by simp)).2
  · rw [hs.stage.pops]
    rfl
  · simp [reportStory, hk]

theorem createCustomers_site {p : Params} {g : Parts (AnyGen σ)} {u : Unit}
    (hs : Site env [L] [q] S [("point_of_sale", 0)] [("items_gen", 4)] c) (hl : 5 ≤ c.world.gens.length)
    (h : createCustomers env p g c = .ok u c') : ∃ ids a1 a2,
      Site env [L, []] [q, ⟨ids, p.nCustomers, [("FIRST_NAME", a1), ("LAST_NAME", a2)], [("my_items", 1)]⟩] S
        [("point_of_sale", 0), ("customer", 1)] [("items_gen", 4)] c' ∧ After env 3 c.world c'.world ∧
      ∀ x ∈ [a1, a2], ∀ i ∈ ids, Knows x i := by
  rw [createCustomers] at h
  obtain ⟨r1, c1, h1, h⟩ := Act.bind_eq_ok.1 h
  obtain ⟨u1, h1', rfl⟩ := onWorld_ok h1
  have s1 := stage_addGenerator hs.stage h1'
  obtain ⟨a1, rfl, g1⟩ := after_addGenerator (env := env) h1'
  obtain ⟨pos, c2, h2, h⟩ := Act.bind_eq_ok.1 h
  obtain ⟨ids, rfl, -, s2, a2⟩ := site_createPopulation (c := { c with world := u1 }) ⟨s1, hs.pops, hs.gens⟩
    (.inr (by simp only [refs, List.mem_singleton]; omega)) h2
  have hz : p.nCustomers = 0 → ids = [] := by
    obtain ⟨ids', k', -, e2, -, hst⟩ := stage_createPopulation s1 h2
    obtain ⟨rfl, e3⟩ := e2 _ _ rfl
    have e4 := hst.pops.symm.trans s2.stage.pops
    simp only [List.append_cancel_left_eq, List.cons.injEq, Population.mk.injEq, and_true] at e4
    rw [← e4]
    exact e3
  obtain ⟨u3, hw, rfl⟩ := onWorld_ok h
  clear h
  have h := hw
  have l1 := a1.len
  have l2 : c2.world.gens.length = u1.gens.length := a2.len
  obtain ⟨r2, v1, k1, h⟩ := Act.bind_eq_ok.1 h
  have t1 := stage_seeded s2.stage k1
  obtain ⟨b1, rfl, -⟩ := after_seeded k1
  have n1 := b1.len
  obtain ⟨x1, v2, k2, h⟩ := Act.bind_eq_ok.1 h
  obtain ⟨q1, at1, vs1, e1, -, z1, t2⟩ := stage_createDrawn t1 k2
  cases e1
  have b2 := after_createDrawn (.inr (by simp only [refs, List.mem_singleton]; omega)) k2
  have n2 := b2.len
  obtain ⟨r3, v3, k3, h⟩ := Act.bind_eq_ok.1 h
  have t3 := stage_seeded t2 k3
  obtain ⟨b3, rfl, -⟩ := after_seeded k3
  have n3 := b3.len
  obtain ⟨x2, v4, k4, h⟩ := Act.bind_eq_ok.1 h
  obtain ⟨q2, at2, vs2, e2, -, z2, t4⟩ := stage_createDrawn t3 k4
  cases e2
  have b4 := after_createDrawn (.inr (by simp only [refs, List.mem_singleton]; omega)) k4
  obtain ⟨r5, v7, k7, h⟩ := Act.bind_eq_ok.1 h
  obtain ⟨q4, e4, rfl, t7⟩ := stage_createRelationship t4 k7
  cases e4
  have b7 := after_createRelationship k7
  obtain ⟨-, rfl⟩ := Act.pure_eq_ok.1 h
  refine ⟨ids, at1, at2, ⟨t7, s2.pops, s2.gens⟩,
    (((((a1.trans a2).trans b1).trans b2).trans b3).trans b4).trans b7, fun x hx => ?_⟩
  simp only [List.mem_cons, List.not_mem_nil, or_false] at hx
  rcases hx with rfl | rfl
  · exact (new_holds z1 hz).1
  · exact (new_holds z2 hz).1

theorem addPurchases_site {g : Parts (AnyGen σ)} {ops : List (Op (World σ (AnyGen σ)))} {x y : String × String}
    (hq : q.relationships = [("items", 0)]) (hq1 : q1.relationships = [("my_items", 1)])
    (hs : Site env [L, []] [q, q1] [x, y] [("point_of_sale", 0), ("customer", 1)] [("items_gen", 4)] c)
    (hl : 5 ≤ c.world.gens.length) (h : addPurchases env g c = .ok ops c') :
    ops = purchaseOps env 2 1 0 0 1 (.ref (c.world.gens.length + 2)) ∧
      Site env [L, []] [q, q1] [x, y, ("purchase", "CUST_ID")] [("point_of_sale", 0), ("customer", 1)]
        [("items_gen", 4)] c' ∧
      After env 3 c.world c'.world ∧
      Anew c.world c'.world q1.ids (fun r => ∃ seed, Began env c'.world r (g.purchaseTimer seed)) ∧
      ∃ seed, Began env c'.world (.ref (c.world.gens.length + 2)) (g.choice q.ids none seed) := by
  rw [addPurchases] at h
  obtain ⟨r0, c0, h0, h⟩ := Act.bind_eq_ok.1 h
  obtain ⟨u0, h0', rfl⟩ := onWorld_ok h0
  have t0 := stage_seeded hs.stage h0'
  have st0 := (seeded_began h0').2.2
  obtain ⟨a0, rfl, sd0, b0⟩ := after_seeded h0'
  have l0 := a0.len
  obtain ⟨cust, c1, h1, h⟩ := Act.bind_eq_ok.1 h
  obtain ⟨rfl, e1⟩ := popNamed_ok h1
  rw [show (Circus.populations { c with world := u0 }) = c.populations from rfl, hs.pops] at e1
  cases e1
  obtain ⟨r2, c2, h2, h⟩ := Act.bind_eq_ok.1 h
  obtain ⟨u2, h2', rfl⟩ := onWorld_ok h2
  have t2 := stage_seeded t0 h2'
  have st2 := (seeded_began h2').2.2
  obtain ⟨a2, rfl, -⟩ := after_seeded h2'
  have l2 : u2.gens.length = u0.gens.length + 1 := a2.len
  obtain ⟨own, c3, h3, h⟩ := Act.bind_eq_ok.1 h
  obtain ⟨u3, h3', rfl⟩ := onWorld_ok h3
  obtain ⟨rfl, t3⟩ := stage_createStory t2 h3'
  obtain ⟨a3, -⟩ := after_createStory (cfg := purchaseStory 1 (.ref c.world.gens.length) (.ref u0.gens.length)) rfl
    (by simp only [purchaseStory, refs, List.mem_singleton]; omega)
    (by simp only [purchaseStory, refs, List.mem_singleton]; omega) h3'
  have n3 := anew_createStory (p := q1) rfl (by rw [t2.pops]; rfl) (t2.wf q1 (by simp)).ids h3'
  have l3 : u3.gens.length = u2.gens.length := a3.len
  obtain ⟨r5, c5, h5, h⟩ := Act.bind_eq_ok.1 h
  obtain ⟨u5, h5', rfl⟩ := onWorld_ok h5
  obtain ⟨rfl, q', e5, e6⟩ := stage_relNamed t3 h5'
  cases e5
  rw [hq1] at e6
  cases e6
  obtain ⟨pos, c6, h6, h⟩ := Act.bind_eq_ok.1 h
  obtain ⟨rfl, e7⟩ := popNamed_ok h6
  rw [show (Circus.populations { c with world := u5 }) = c.populations from rfl, hs.pops] at e7
  cases e7
  obtain ⟨r8, c8, h8, h⟩ := Act.bind_eq_ok.1 h
  obtain ⟨u8, h8', rfl⟩ := onWorld_ok h8
  obtain ⟨rfl, q'', e8, e9⟩ := stage_relNamed t3 h8'
  cases e8
  rw [hq] at e9
  cases e9
  obtain ⟨u9, hw, rfl⟩ := onWorld_ok h
  clear h
  have h := hw
  obtain ⟨p, v1, k1, h⟩ := Act.bind_eq_ok.1 h
  obtain ⟨hp, rfl⟩ := getPop_eq_ok.1 k1
  rw [t3.pops] at hp
  cases hp
  obtain ⟨⟨al, pl⟩, v2, k2, h⟩ := Act.bind_eq_ok.1 h
  obtain ⟨k3, rfl⟩ := Act.ofPy_eq_ok.1 k2
  cases k3
  obtain ⟨r9, v3, k4, h⟩ := Act.bind_eq_ok.1 h
  have t9 := stage_seeded t3 k4
  have st9 := (seeded_began k4).2.2
  obtain ⟨a9, rfl, b9⟩ := after_seeded k4
  obtain ⟨rfl, rfl⟩ := Act.pure_eq_ok.1 h
  have hlen : u8.gens.length = c.world.gens.length + 2 := by omega
  rw [hlen] at b9
  refine ⟨?_, ⟨t9, hs.pops, hs.gens⟩, ((a0.trans a2).trans a3).trans a9, ((n3.before st2).before st0).after st9 fun r hr =>
    ⟨sd0, by rw [hr]; exact a9.began (a3.began (a2.began b0))⟩, b9⟩
  show purchaseOps env 2 1 0 0 1 (.ref u8.gens.length) = _
  rw [hlen]

theorem updatePurchases_site {g : Parts (AnyGen σ)} {ops ops' : List (Op (World σ (AnyGen σ)))} {S : List (String × String)}
    (hq : q.relationships = [("items", 0)])
    (hs : Site env [L, []] [q, q1] (("restock", "POS_ID") :: S) [("point_of_sale", 0), ("customer", 1)]
      [("items_gen", 4)] c)
    (h : updatePurchases env g ops c = .ok ops' c') :
    ops' = appendOperations ops (triggerOps env 0 0 (.ref c.world.gens.length)) ∧
      Site env [L, []] [q, q1] (("restock", "POS_ID") :: S) [("point_of_sale", 0), ("customer", 1)]
        [("items_gen", 4)] c' ∧
      After env 1 c.world c'.world ∧
      ∃ seed, Began env c'.world (.ref c.world.gens.length) (g.restockTrigger seed) := by
  rw [updatePurchases] at h
  obtain ⟨r0, c0, h0, h⟩ := Act.bind_eq_ok.1 h
  obtain ⟨u0, h0', rfl⟩ := onWorld_ok h0
  obtain ⟨rfl, -⟩ := stage_storyNamed hs.stage h0'
  obtain ⟨pos, c1, h1, h⟩ := Act.bind_eq_ok.1 h
  obtain ⟨rfl, e1⟩ := popNamed_ok h1
  rw [show (Circus.populations { c with world := c.world }) = c.populations from rfl, hs.pops] at e1
  cases e1
  obtain ⟨u9, hw, rfl⟩ := onWorld_ok h
  clear h
  have h := hw
  obtain ⟨r2, v1, k1, h⟩ := Act.bind_eq_ok.1 h
  have t1 := stage_seeded hs.stage k1
  obtain ⟨a1, rfl, b1⟩ := after_seeded k1
  obtain ⟨r3, v2, k2, h⟩ := Act.bind_eq_ok.1 h
  obtain ⟨rfl, q', e2, e3⟩ := stage_relNamed t1 k2
  cases e2
  rw [hq] at e3
  cases e3
  obtain ⟨r4, v3, k3, h⟩ := Act.bind_eq_ok.1 h
  obtain ⟨rfl, e4⟩ := stage_storyNamed t1 k3
  rw [List.findIdx?_cons, if_pos (by decide)] at e4
  cases e4
  obtain ⟨rfl, rfl⟩ := Act.pure_eq_ok.1 h
  exact ⟨rfl, ⟨t1, hs.pops, hs.gens⟩, a1, b1⟩

end Shop
end Trumania
