import Verif.Proofs.MusicRun
import Verif.Proofs.ShopBuild

/-! Helper lemmas: what the steps of examples/tutorial/example3.py build. -/

namespace Trumania
namespace Music
open Spec World Circus Cdr
open Shop (Site popNamed_ok onWorld_ok)
variable {σ : Type} {env : Env σ (AnyGen σ)} {w w' w1 w2 : World σ (AnyGen σ)} {c c' : Circus σ (AnyGen σ)}
  {R : List (List (Val × Val))} {P : List Population} {S : List (String × String)} {n m : Nat} {D G : Dict String Nat}

/-- all relations have the weight 1 -/
def Ones (w : World σ (AnyGen σ)) : Prop := ∀ r ∈ w.rels, ∀ o, ∀ x ∈ r.get_relations o, x.2.2 = 1

/-- `n` more generators; the others are the same objects -/
structure Later (env : Env σ (AnyGen σ)) (n : Nat) (w w' : World σ (AnyGen σ)) : Prop where
  len : w'.gens.length = w.gens.length + n
  began : ∀ {r g}, Began env w r g → Began env w' r g
  step : w'.clock.step = w.clock.step
  ones : Ones w → Ones w'

theorem Later.trans (h1 : Later env n w w1) (h2 : Later env m w1 w2) : Later env (n + m) w w2 :=
  ⟨by rw [h2.len, h1.len, Nat.add_assoc], fun h => h2.began (h1.began h), h2.step.trans h1.step,
    fun h => h2.ones (h1.ones h)⟩

theorem Later.same (h : w'.gens = w.gens) (hc : w'.clock.step = w.clock.step := by rfl)
    (hr : w'.rels = w.rels := by rfl) : Later env 0 w w' :=
  ⟨by rw [h]; rfl, Began.of_gens h, hc, fun h => by rw [Ones, hr]; exact h⟩

theorem later_after (h : Shop.After env n w w') : Later env n w w' := by
  refine ⟨h.len, h.began, h.clock.2, fun ho r hr o x hx => ?_⟩
  obtain ⟨l, e, hl⟩ := h.rels
  rw [e] at hr
  rcases List.mem_append.1 hr with hr | hr
  · exact ho r hr o x hx
  · rw [hl r hr o] at hx
    cases hx

theorem later_addGenerator {g : AnyGen σ} {r : GenRef} (h : Snd.addGenerator g w = .ok r w') :
    Later env 1 w w' ∧ r = .ref w.gens.length ∧ w'.gens = w.gens ++ [g] := by
  obtain ⟨h1, h2, h3⟩ := Shop.after_addGenerator (env := env) h
  exact ⟨later_after h1, h2, h3⟩

theorem later_seeded {mk : Int → AnyGen σ} {r : GenRef} (h : Snd.seeded env mk w = .ok r w') :
    Later env 1 w w' ∧ r = .ref w.gens.length ∧ ∃ seed, Began env w' r (mk seed) := by
  obtain ⟨h1, h2, h3⟩ := Shop.after_seeded (env := env) h
  exact ⟨later_after h1, h2, h3⟩

theorem later_generate {g : GenRef} {k : Rat} {cells : List Cell} (h : World.generate env g k w = .ok cells w') :
    Later env 0 w w' :=
  ⟨Shop.call_length h, generate_began h, (call_sameRest h).2.step, fun ho => by
    rw [Ones, (call_sameRest h).2.rels]; exact ho⟩

theorem later_createDrawn {pop : Nat} {name : String} {g : GenRef} {u : Unit}
    (h : Snd.createDrawn env pop name g w = .ok u w') : Later env 0 w w' := by
  rw [Snd.createDrawn] at h
  obtain ⟨p, w1, h1, h⟩ := Act.bind_eq_ok.1 h
  obtain ⟨-, rfl⟩ := getPop_eq_ok.1 h1
  obtain ⟨vs, w2, hv, h⟩ : ∃ (vs : List Cell) (w2 : World σ (AnyGen σ)), Later env 0 w w2 ∧
      (do let p ← Act.ofPy (p.createAttribute name vs); setPop pop p : Act (World σ (AnyGen σ)) Unit) w2 = .ok u w' := by
    split at h
    · exact ⟨_, w, .same rfl, h⟩
    · obtain ⟨vs, w2, h2, h⟩ := Act.bind_eq_ok.1 h
      exact ⟨vs, w2, later_generate h2, h⟩
  obtain ⟨p', w3, h3, h⟩ := Act.bind_eq_ok.1 h
  obtain ⟨-, rfl⟩ := Act.ofPy_eq_ok.1 h3
  rw [setPop_eq_ok] at h
  subst h
  exact hv.trans (m := 0) (.same rfl)

theorem later_createStory {cfg : StoryConfig} {i : Nat} (h : World.createStory env cfg w = .ok i w') : Later env 0 w w' := by
  have hb := fun {r g} => (createStory_began (env := env) h).1 (r := r) (g := g)
  obtain ⟨-, p, s', u, -, hnew, rfl, rfl⟩ := createStory_ok h
  obtain ⟨_, _, _, -, -, -, -, hk, -⟩ := newStory_ok hnew
  refine ⟨?_, hb, hk.step, fun ho => by rw [Ones]; show ∀ r ∈ u.rels, _; rw [hk.rels]; exact ho⟩
  change u.gens.length = _
  rw [newStory] at hnew
  simp only [Act.bind_eq_ok, Act.ofPy_eq_ok] at hnew
  obtain ⟨states, _, ⟨k1, rfl⟩, params, w1, k2, k3⟩ := hnew
  have e2 := Shop.storyParams_length k2
  rw [initialReset] at k3
  split at k3
  · obtain ⟨-, h3, -, -, -, -, h4⟩ := resetStory_ok k3
    rcases h4 with ⟨-, -, rfl⟩ | ⟨ps, cells, ts, -, -, -, h5, -⟩
    · exact e2
    · exact (Shop.call_length h5).trans e2
  · obtain ⟨-, rfl⟩ := Act.pure_eq_ok.1 k3
    exact e2

/-! ### The stories -/

/-- all the stories are those of the users, and have the timers of the example -/
def Playing (env : Env σ (AnyGen σ)) (g : Parts (AnyGen σ)) (ids : List Val) (w : World σ (AnyGen σ)) : Prop :=
  ∀ s ∈ w.stories, (Begins s ids fun _ => False) ∧ ∃ seed, Began env w s.timerGen (g.timer seed)

theorem Playing.later {g : Parts (AnyGen σ)} {ids : List Val} (h : Playing env g ids w) (hl : Later env n w w')
    (hs : w'.stories = w.stories) : Playing env g ids w' := by
  intro s hm
  rw [hs] at hm
  obtain ⟨h1, sd, h2⟩ := h s hm
  exact ⟨h1, sd, hl.began h2⟩

theorem Playing.create {g : Parts (AnyGen σ)} {cfg : StoryConfig} {i : Nat} {q : Population}
    (h : Playing env g q.ids w) (hst : cfg.states = none) (hp : w.pops[cfg.population]? = some q) (hn : q.ids.Nodup)
    (ht : ∃ seed, Began env w cfg.timerGen (g.timer seed)) (hc : World.createStory env cfg w = .ok i w') :
    Playing env g q.ids w' := by
  have hl := later_createStory hc
  obtain ⟨s, e, h1, h2⟩ := Shop.anew_createStory hst hp hn hc
  intro x hx
  rw [e] at hx
  rcases List.mem_append.1 hx with hx | hx
  · obtain ⟨h1, sd, h2⟩ := h x hx
    exact ⟨h1, sd, hl.began h2⟩
  · rw [List.mem_singleton] at hx
    subst hx
    obtain ⟨sd, ht⟩ := ht
    exact ⟨h1, sd, h2 ▸ hl.began ht⟩

theorem stories_seeded {mk : Int → AnyGen σ} {r : GenRef} (h : Snd.seeded env mk w = .ok r w') : w'.stories = w.stories := by
  rw [Snd.seeded] at h
  obtain ⟨x, w1, h1, h2⟩ := Act.bind_eq_ok.1 h
  obtain ⟨s, -, rfl⟩ := drawSeed_eq_ok h1
  cases h2
  rfl

/-! ### The functions of the example -/

/-- the genres and their names -/
theorem addRepo_site {p : Params} {g : Parts (AnyGen σ)} {u : Unit} (hs : Site env [] [] [] [] [] c)
    (hl : c.world.gens.length = 0) (h : addRepo env p g c = .ok u c') : ∃ ids a,
      (p.nGenres = 0 ∧ ids = [] ∨ ∃ cells x, env.sem.generate g.genreIds (p.nGenres : Rat) = .ok (cells, x) ∧
        cells.mapM Cell.asVal = .ok ids) ∧
      Attribute.new p.nGenres ids (p.genreNames.map Cell.str) = .ok a ∧
      Site env [[]] [⟨ids, p.nGenres, [("genre_name", a)], [("songs", 0)]⟩] [] [("music_repository", 0)] [] c' ∧
      Later env 1 c.world c'.world := by
  rw [addRepo] at h
  obtain ⟨r1, c1, h1, h⟩ := Act.bind_eq_ok.1 h
  obtain ⟨u1, h1', rfl⟩ := onWorld_ok h1
  have s1 := stage_addGenerator hs.stage h1'
  obtain ⟨a1, rfl, g1⟩ := later_addGenerator (env := env) h1'
  obtain ⟨pos, c2, h2, h⟩ := Act.bind_eq_ok.1 h
  have l1 : u1.gens.length = 1 := by rw [a1.len, hl]
  obtain ⟨ids, rfl, hids, s2, a2⟩ := Shop.site_createPopulation (c := { c with world := u1 }) ⟨s1, hs.pops, hs.gens⟩
    (.inl (by show u1.gens.length ≤ 4; omega)) h2
  obtain ⟨u3, hw, rfl⟩ := onWorld_ok h
  clear h
  have h := hw
  obtain ⟨q, v1, k1, h⟩ := Act.bind_eq_ok.1 h
  obtain ⟨hq, rfl⟩ := getPop_eq_ok.1 k1
  rw [s2.stage.pops] at hq
  cases hq
  obtain ⟨q', v2, k2, h⟩ := Act.bind_eq_ok.1 h
  obtain ⟨k3, rfl⟩ := Act.ofPy_eq_ok.1 k2
  rw [Population.createAttribute] at k3
  obtain ⟨a, k4, k3⟩ := bind_eq_ok.1 k3
  cases k3
  obtain ⟨x, v3, k5, h⟩ := Act.bind_eq_ok.1 h
  rw [setPop_eq_ok] at k5
  subst k5
  have t1 := stage_setPop (w' := { c2.world with pops := c2.world.pops.set 0 _ }) s2.stage
    (new_wf (name := "genre_name") (s2.stage.wf _ (by simp)) k4) rfl rfl rfl
  obtain ⟨r5, v7, k7, h⟩ := Act.bind_eq_ok.1 h
  obtain ⟨q4, e4, rfl, t7⟩ := stage_createRelationship t1 k7
  cases e4
  obtain ⟨-, rfl⟩ := Act.pure_eq_ok.1 h
  have b7 := Shop.after_createRelationship k7
  refine ⟨ids, a, ?_, k4, ⟨t7, s2.pops, s2.gens⟩, ?_⟩
  · refine hids.imp_right ?_
    rintro ⟨cells, y, hg, hv⟩
    obtain ⟨gg, gg', e5, e6, -⟩ := generate_ref_ok.1 hg
    change u1.gens[c.world.gens.length]? = _ at e5
    rw [g1, List.getElem?_append_right (le_refl _), Nat.sub_self] at e5
    cases e5
    exact ⟨cells, gg', e6, hv⟩
  · have a2' : Later env 0 u1 c2.world := later_after a2
    have b7' := later_after b7
    refine (a1.trans a2').trans (m := 0) (Later.trans (n := 0) (m := 0) ?_ b7')
    exact .same rfl

/-- what `add_grouped_relations` does to the stage -/
theorem stage_grouped {L : List (Val × Val)} {f : List Val} {t : List (List Val)} {u : Unit} (hs : Stage env [L] P S w)
    (h : addGroupedRelations env 0 f t w = .ok u w') :
    Stage env [L ++ (f.zip t).flatMap fun x => x.2.map fun y => (x.1, y)] P S w' ∧ w'.gens = w.gens ∧ Later env 0 w w' := by
  rw [addGroupedRelations] at h
  obtain ⟨r, v4, m1, h⟩ := Act.bind_eq_ok.1 h
  obtain ⟨hr, rfl⟩ := getRel_eq_ok.1 m1
  obtain ⟨r', v5, m2, h⟩ := Act.bind_eq_ok.1 h
  obtain ⟨hr', rfl⟩ := Act.ofPy_eq_ok.1 m2
  rw [setRel_eq_ok] at h
  subst h
  obtain ⟨L', hL, hf⟩ := forall₂_at hs.rels hr
  cases hL
  refine ⟨⟨Cdr.forall₂_set (i := 0) hs.rels (Shop.filled_grouped hf hr'), hs.pops, hs.stories, hs.wf, hs.ids⟩, rfl,
    rfl, Began.of_gens (w := w) rfl, rfl, fun ho r1 hr1 o x hx => ?_⟩
  rcases List.mem_or_eq_of_mem_set hr1 with hr1 | rfl
  · exact ho r1 hr1 o x hx
  · have h1 := C16_step env.R hf.1 (c := .grouped f t) hr' o o
    rcases List.mem_append.1 (h1.mem_iff.1 hx) with h3 | h3
    · exact ho r (List.mem_of_getElem? hr) o x h3
    · simp only [Spec.added, List.mem_flatMap, List.mem_map] at h3
      obtain ⟨_, -, _, -, rfl⟩ := h3
      rfl

theorem later_itemArrays {r : GenRef} {k : Nat} {l : List Val} {arrays : List (List Val)}
    (h : Shop.itemArrays env r k l w = .ok arrays w') : Later env 0 w w' := by
  induction l generalizing w arrays with
  | nil =>
    rw [Shop.itemArrays, Act.pure_eq_ok] at h
    obtain ⟨-, rfl⟩ := h
    exact .same rfl
  | cons x l ih =>
    rw [Shop.itemArrays] at h
    obtain ⟨cells, w1, h1, h⟩ := Act.bind_eq_ok.1 h
    obtain ⟨vs, w2, h2, h⟩ := Act.bind_eq_ok.1 h
    obtain ⟨-, rfl⟩ := Act.ofPy_eq_ok.1 h2
    obtain ⟨rest, w3, h3, h⟩ := Act.bind_eq_ok.1 h
    obtain ⟨-, rfl⟩ := Act.pure_eq_ok.1 h
    exact (later_generate h1).trans (ih h3)

/-- the songs of each genre, in steps 1 to 3 -/
theorem addSongIds_site (hsem : env.sem = AnyGen.sem env.R) {p : Params} {g : Parts (AnyGen σ)} {a : SeqGen} {u : Unit}
    {q : Population} (hq : q.relationships = [("songs", 0)]) (hs : Site env [[]] [q] [] [("music_repository", 0)] [] c)
    (ha : g.songIds = .seq a) (h : addSongIds env p g c = .ok u c') : ∃ arrays,
      arrays.map List.length = q.ids.map (fun _ => p.nSongs) ∧ arrays.flatten = idsFrom a (q.ids.length * p.nSongs) ∧
      Site env [(q.ids.zip arrays).flatMap fun x => x.2.map fun y => (x.1, y)] [q] []
        [("music_repository", 0)] [] c' ∧ Later env 1 c.world c'.world := by
  rw [addSongIds] at h
  obtain ⟨pos, c1, h1, h⟩ := Act.bind_eq_ok.1 h
  obtain ⟨rfl, e1⟩ := popNamed_ok h1
  rw [hs.pops] at e1
  cases e1
  obtain ⟨u4, hw, rfl⟩ := onWorld_ok h
  clear h
  have h := hw
  obtain ⟨r1, u1, h2, h⟩ := Act.bind_eq_ok.1 h
  have s1 := stage_addGenerator hs.stage h2
  obtain ⟨a1, rfl, g1⟩ := later_addGenerator (env := env) h2
  obtain ⟨q', v1, k1, h⟩ := Act.bind_eq_ok.1 h
  obtain ⟨hq1, rfl⟩ := getPop_eq_ok.1 k1
  rw [s1.pops] at hq1
  cases hq1
  obtain ⟨arrays, v2, k2, h⟩ := Act.bind_eq_ok.1 h
  have hg4 : u1.gens[c1.world.gens.length]? = some (.seq a) := by
    rw [g1, List.getElem?_append_right (le_refl _), Nat.sub_self, ← ha]
    rfl
  obtain ⟨j1, j2, j3, j4, j5, j6, j7⟩ := Shop.itemArrays_ok hsem hg4 s1 k2
  obtain ⟨r2, v3, k3, h⟩ := Act.bind_eq_ok.1 h
  obtain ⟨rfl, q', e3, e4⟩ := stage_relNamed j6 k3
  cases e3
  rw [hq] at e4
  cases e4
  obtain ⟨t1, -, t2⟩ := stage_grouped j6 h
  exact ⟨arrays, j1, j2, ⟨t1, hs.pops, hs.gens⟩, (a1.trans (later_itemArrays k2)).trans t2⟩

/-- the users -/
theorem addListener_site {p : Params} {g : Parts (AnyGen σ)} {u : Unit} (hs : Site env R P S D G c)
    (hl : c.world.gens.length ≠ 4) (h : addListener env p g c = .ok u c') : ∃ ids a1 a2,
      (p.nUsers = 0 ∧ ids = [] ∨ ∃ cells x, env.sem.generate g.userIds (p.nUsers : Rat) = .ok (cells, x) ∧
        cells.mapM Cell.asVal = .ok ids) ∧
      Site env R (P ++ [⟨ids, p.nUsers, [("FIRST_NAME", a1), ("LAST_NAME", a2)], []⟩]) S (D.set "user" P.length) G c' ∧
      Later env 3 c.world c'.world ∧ ∀ x ∈ [a1, a2], ∀ i ∈ ids, Knows x i := by
  rw [addListener] at h
  obtain ⟨r1, c1, h1, h⟩ := Act.bind_eq_ok.1 h
  obtain ⟨u1, h1', rfl⟩ := onWorld_ok h1
  have s1 := stage_addGenerator hs.stage h1'
  obtain ⟨a1, rfl, g1⟩ := later_addGenerator (env := env) h1'
  obtain ⟨pos, c2, h2, h⟩ := Act.bind_eq_ok.1 h
  obtain ⟨ids, rfl, hids, s2, a2⟩ := Shop.site_createPopulation (c := { c with world := u1 }) ⟨s1, hs.pops, hs.gens⟩
    (.inr (by simp only [refs, List.mem_singleton]; omega)) h2
  obtain ⟨u3, hw, rfl⟩ := onWorld_ok h
  clear h
  have h := hw
  obtain ⟨r2, v1, k1, h⟩ := Act.bind_eq_ok.1 h
  have t1 := stage_seeded s2.stage k1
  obtain ⟨b1, rfl, -⟩ := later_seeded k1
  obtain ⟨x1, v2, k2, h⟩ := Act.bind_eq_ok.1 h
  obtain ⟨q1, at1, vs1, e1, -, f1, t2⟩ := stage_createDrawn t1 k2
  rw [last_at] at e1
  cases e1
  rw [last_set] at t2
  have b2 := later_createDrawn k2
  obtain ⟨r3, v3, k3, h⟩ := Act.bind_eq_ok.1 h
  have t3 := stage_seeded t2 k3
  obtain ⟨b3, rfl, -⟩ := later_seeded k3
  obtain ⟨q2, at2, vs2, e2, -, f2, t4⟩ := stage_createDrawn t3 h
  rw [last_at] at e2
  cases e2
  rw [last_set] at t4
  have b4 := later_createDrawn h
  have a2' : Later env 0 u1 c2.world := later_after a2
  have hz : p.nUsers = 0 → ids = [] := by
    obtain ⟨ids', k', -, e2, -, hst⟩ := stage_createPopulation s1 h2
    obtain ⟨rfl, e3⟩ := e2 _ _ rfl
    have e4 := hst.pops.symm.trans s2.stage.pops
    simp only [List.append_cancel_left_eq, List.cons.injEq, Population.mk.injEq, and_true] at e4
    rw [← e4]
    exact e3
  refine ⟨ids, at1, at2, ?_, ⟨t4, s2.pops, s2.gens⟩, ((((a1.trans a2').trans b1).trans b2).trans b3).trans b4,
    fun x hx => ?_⟩
  rotate_left
  · simp only [List.mem_cons, List.not_mem_nil, or_false] at hx
    rcases hx with rfl | rfl
    · exact (new_holds f1 hz).1
    · exact (new_holds f2 hz).1
  refine hids.imp_right ?_
  rintro ⟨cells, y, hg, hv⟩
  obtain ⟨gg, gg', e5, e6, -⟩ := generate_ref_ok.1 hg
  change u1.gens[c.world.gens.length]? = _ at e5
  rw [g1, List.getElem?_append_right (le_refl _), Nat.sub_self] at e5
  cases e5
  exact ⟨cells, gg', e6, hv⟩

/-- a generator that chooses among the members of a population -/
theorem choiceIn_stage {g : Parts (AnyGen σ)} {pop : Nat} {r : GenRef} (hs : Stage env R P S w)
    (h : choiceIn env g pop w = .ok r w') : ∃ q seed, P[pop]? = some q ∧ Stage env R P S w' ∧ Later env 1 w w' ∧
      r = .ref w.gens.length ∧ Began env w' r (g.choice q.ids none seed) ∧ w'.stories = w.stories := by
  rw [choiceIn] at h
  obtain ⟨q, w1, h1, h⟩ := Act.bind_eq_ok.1 h
  obtain ⟨hq, rfl⟩ := getPop_eq_ok.1 h1
  obtain ⟨⟨al, pl⟩, v2, k2, h⟩ := Act.bind_eq_ok.1 h
  obtain ⟨k3, rfl⟩ := Act.ofPy_eq_ok.1 k2
  cases k3
  obtain ⟨b1, b2, seed, b3⟩ := later_seeded h
  exact ⟨q, seed, hs.pops ▸ hq, stage_seeded hs h, b1, b2, b3, stories_seeded h⟩

theorem moderate_seeded {mk : Int → AnyGen σ} {r : GenRef} (hm : Moderate w) (h : Snd.seeded env mk w = .ok r w') :
    Moderate w' := by
  rw [Snd.seeded] at h
  obtain ⟨x, w1, h1, h2⟩ := Act.bind_eq_ok.1 h
  obtain ⟨s, -, rfl⟩ := drawSeed_eq_ok h1
  cases h2
  exact hm

theorem moderate_choiceIn {g : Parts (AnyGen σ)} {pop : Nat} {r : GenRef} (hm : Moderate w)
    (h : choiceIn env g pop w = .ok r w') : Moderate w' := by
  rw [choiceIn] at h
  obtain ⟨q, w1, h1, h⟩ := Act.bind_eq_ok.1 h
  obtain ⟨-, rfl⟩ := getPop_eq_ok.1 h1
  obtain ⟨⟨al, pl⟩, v2, k2, h⟩ := Act.bind_eq_ok.1 h
  obtain ⟨-, rfl⟩ := Act.ofPy_eq_ok.1 k2
  exact moderate_seeded hm h

theorem bounded_numbers {vs cells : List Cell} {l : List Rat} (h1 : vs.mapM boundedActivity = .ok cells)
    (h2 : numbers cells = .ok l) : ∀ x ∈ l, 10 ≤ x ∧ x ≤ 30 := by
  have f1 := mapM_ok_iff.1 h1
  have f2 := mapM_ok_iff.1 h2
  clear h1 h2
  induction f2 generalizing vs with
  | nil => simp
  | @cons a x cs l hx _ ih =>
    cases f1 with
    | cons hy f1 =>
      intro z hz
      rcases List.mem_cons.1 hz with rfl | hz
      · rw [boundedActivity] at hy
        obtain ⟨y, -, hy⟩ := bind_eq_ok.1 hy
        cases hy
        cases hx
        simp [bound_value]
        norm_num
      · exact ih f1 z hz

theorem moderate_createStory {cfg : StoryConfig} {i : Nat} {r : GenRef} (hm : Moderate w)
    (ha : cfg.activity = .mapped r boundedActivity) (hst : cfg.states = none)
    (h : World.createStory env cfg w = .ok i w') : Moderate w' := by
  obtain ⟨-, p, s', u, -, hnew, rfl, rfl⟩ := createStory_ok h
  intro s hs
  have hstories : u.stories = w.stories := by
    obtain ⟨-, -, -, -, -, -, k, -⟩ := newStory_ok hnew
    exact k
  rcases List.mem_append.1 hs with hs | hs
  · exact hm s (hstories ▸ hs)
  obtain rfl := List.mem_singleton.1 hs
  rw [newStory, hst] at hnew
  simp only [Act.bind_eq_ok, Act.ofPy_eq_ok] at hnew
  obtain ⟨states, _, ⟨k1, rfl⟩, params, w1, k2, k3⟩ := hnew
  cases k1
  have hp : s.params = params := by
    rw [initialReset] at k3
    split at k3
    · obtain ⟨-, -, e, -⟩ := resetStory_ok k3
      rw [e]
    · obtain ⟨rfl, -⟩ := Act.pure_eq_ok.1 k3
      rfl
  rw [hp]
  rw [storyParams] at k2
  obtain ⟨a1, v1, j1, k2⟩ := Act.bind_eq_ok.1 k2
  obtain ⟨a2, v2, j2, k2⟩ := Act.bind_eq_ok.1 k2
  obtain ⟨l1, v3, j3, k2⟩ := Act.bind_eq_ok.1 k2
  obtain ⟨m3, rfl⟩ := Act.ofPy_eq_ok.1 j3
  obtain ⟨l2, v4, j4, k2⟩ := Act.bind_eq_ok.1 k2
  obtain ⟨-, rfl⟩ := Act.ofPy_eq_ok.1 j4
  obtain ⟨ps, v5, j8, k2⟩ := Act.bind_eq_ok.1 k2
  obtain ⟨j5, rfl⟩ := Act.ofPy_eq_ok.1 j8
  rw [storyParams] at k2
  obtain ⟨rfl, rfl⟩ := Act.pure_eq_ok.1 k2
  rw [ha] at j1
  obtain ⟨vs, v6, j6, j7⟩ := Act.bind_eq_ok.1 j1
  obtain ⟨m7, -⟩ := Act.ofPy_eq_ok.1 j7
  have hb := bounded_numbers m7 m3
  rw [Story.addState] at j5
  split at j5
  · cases j5
  cases j5
  intro x hx y hy
  rw [List.zipWith_map_left] at hx
  obtain ⟨k, hk⟩ := List.getElem?_of_mem hx
  rw [List.getElem?_zipWith] at hk
  cases e1 : p.ids[k]? with
  | none => simp [e1] at hk
  | some id =>
    cases e2 : (l1.zip l2)[k]? with
    | none => simp [e1, e2] at hk
    | some ab =>
      rw [e1, e2] at hk
      cases hk
      have hy : y = (defaultState, ⟨ab.1, ab.2⟩) := by simpa [Dict.set] using hy
      rw [hy]
      exact hb _ (List.of_mem_zip (List.mem_of_getElem? e2)).1

/-- the story of step 2 -/
theorem addListen_site {g : Parts (AnyGen σ)} {ops : List (Op (World σ (AnyGen σ)))} {L : List (Val × Val)}
    {q q1 : Population} (hq : q.relationships = [("songs", 0)])
    (hs : Site env [L] [q, q1] [] [("music_repository", 0), ("user", 1)] G c) (h : addListen env g c = .ok ops c') :
    ∃ x seed, ops = listenOps env 0 1 0 (.ref x) ∧ Began env c'.world (.ref x) (g.choice q.ids none seed) ∧
      Moderate c'.world ∧ Site env [L] [q, q1] [("listen_events", "UID")] [("music_repository", 0), ("user", 1)] G c' ∧
      Later env 3 c.world c'.world ∧ (q1.ids.Nodup → Playing env g q1.ids c'.world) := by
  rw [addListen] at h
  obtain ⟨users, c1, h1, h⟩ := Act.bind_eq_ok.1 h
  obtain ⟨rfl, e1⟩ := popNamed_ok h1
  rw [hs.pops] at e1
  cases e1
  obtain ⟨r0, c0, h0, h⟩ := Act.bind_eq_ok.1 h
  obtain ⟨u0, h0', rfl⟩ := onWorld_ok h0
  have t0 := stage_seeded hs.stage h0'
  obtain ⟨r2, c2, h2, h⟩ := Act.bind_eq_ok.1 h
  obtain ⟨u2, h2', rfl⟩ := onWorld_ok h2
  have t2 := stage_seeded t0 h2'
  obtain ⟨a0, -, sd0, b0⟩ := later_seeded h0'
  obtain ⟨a2, -, -⟩ := later_seeded h2'
  have hm0 : Moderate c1.world := by
    have : c1.world.stories = [] := List.map_eq_nil_iff.1 hs.stage.stories
    simp [Moderate, this]
  have hm2 := moderate_seeded (moderate_seeded hm0 h0') h2'
  obtain ⟨own, c3, h3, h⟩ := Act.bind_eq_ok.1 h
  obtain ⟨u3, h3', rfl⟩ := onWorld_ok h3
  have hm3 := moderate_createStory hm2 rfl rfl h3'
  have a3 := later_createStory h3'
  have hplay : q1.ids.Nodup → Playing env g q1.ids u3 := fun hn => by
    refine Playing.create (q := q1) (w := u2) ?_ rfl (by rw [t2.pops]; rfl) hn ⟨sd0, a2.began b0⟩ h3'
    have e : u2.stories = [] := List.map_eq_nil_iff.1 t2.stories
    intro s hm
    rw [e] at hm
    cases hm
  obtain ⟨rfl, t3⟩ := stage_createStory t2 h3'
  obtain ⟨repo, c6, h6, h⟩ := Act.bind_eq_ok.1 h
  obtain ⟨rfl, e7⟩ := popNamed_ok h6
  rw [show (Circus.populations { c1 with world := u3 }) = c1.populations from rfl, hs.pops] at e7
  cases e7
  obtain ⟨u9, hw, rfl⟩ := onWorld_ok h
  clear h
  have h := hw
  obtain ⟨r4, v1, k1, h⟩ := Act.bind_eq_ok.1 h
  obtain ⟨q', seed, e8, t4, a4, rfl, b4, st4⟩ := choiceIn_stage t3 k1
  cases e8
  obtain ⟨r5, v5, k5, h⟩ := Act.bind_eq_ok.1 h
  obtain ⟨rfl, q'', e8, e9⟩ := stage_relNamed t4 k5
  cases e8
  rw [hq] at e9
  cases e9
  obtain ⟨rfl, rfl⟩ := Act.pure_eq_ok.1 h
  exact ⟨_, seed, rfl, b4, moderate_choiceIn hm3 k1, ⟨t4, hs.pops, hs.gens⟩, ((a0.trans a2).trans a3).trans a4,
    fun hn => (hplay hn).later a4 st4⟩

/-- the two stories of steps 3 and 4, before their operations -/
theorem addStories_site {g : Parts (AnyGen σ)} {k : Nat} {r : Nat × Nat × Nat} (hD : D.get "user" = .ok k)
    (hs : Site env R P [] D G c) (h : addStories env g c = .ok r c') : r = (k, 0, 1) ∧ Moderate c'.world ∧
      Site env R P [("listen_events", "UID"), ("share_events", "UID")] D G c' ∧ Later env 2 c.world c'.world ∧
      ∀ q, P[k]? = some q → q.ids.Nodup → Playing env g q.ids c'.world := by
  rw [addStories] at h
  obtain ⟨users, c1, h1, h⟩ := Act.bind_eq_ok.1 h
  obtain ⟨rfl, e1⟩ := popNamed_ok h1
  rw [hs.pops, hD] at e1
  cases e1
  obtain ⟨r0, c0, h0, h⟩ := Act.bind_eq_ok.1 h
  obtain ⟨u0, h0', rfl⟩ := onWorld_ok h0
  have t0 := stage_seeded hs.stage h0'
  obtain ⟨r2, c2, h2, h⟩ := Act.bind_eq_ok.1 h
  obtain ⟨u2, h2', rfl⟩ := onWorld_ok h2
  have t2 := stage_seeded t0 h2'
  obtain ⟨a0, -, sd0, b0⟩ := later_seeded h0'
  obtain ⟨a2, -, -⟩ := later_seeded h2'
  have hm0 : Moderate c1.world := by
    have : c1.world.stories = [] := List.map_eq_nil_iff.1 hs.stage.stories
    simp [Moderate, this]
  have hm2 := moderate_seeded (moderate_seeded hm0 h0') h2'
  obtain ⟨own, c3, h3, h⟩ := Act.bind_eq_ok.1 h
  obtain ⟨u3, h3', rfl⟩ := onWorld_ok h3
  have hm3 := moderate_createStory hm2 rfl rfl h3'
  have a3 := later_createStory h3'
  obtain ⟨rfl, t3⟩ := stage_createStory t2 h3'
  obtain ⟨own, c4, h4, h⟩ := Act.bind_eq_ok.1 h
  obtain ⟨u4, h4', rfl⟩ := onWorld_ok h4
  have a4 := later_createStory h4'
  have hm4 := moderate_createStory hm3 rfl rfl h4'
  obtain ⟨rfl, t4⟩ := stage_createStory t3 h4'
  obtain ⟨rfl, rfl⟩ := Act.pure_eq_ok.1 h
  refine ⟨rfl, hm4, ⟨t4, hs.pops, hs.gens⟩, ((a0.trans a2).trans a3).trans a4, fun q hq hn => ?_⟩
  have play : Playing env g q.ids u2 := by
    have e : u2.stories = [] := List.map_eq_nil_iff.1 t2.stories
    intro s hm
    rw [e] at hm
    cases hm
  have play3 := Playing.create play rfl (by rw [t2.pops]; exact hq) hn ⟨sd0, a2.began b0⟩ h3'
  exact Playing.create play3 rfl (by rw [t3.pops]; exact hq) hn ⟨sd0, a3.began (a2.began b0)⟩ h4'

/-- the stories of step 3 -/
theorem addListenAndShare_site {g : Parts (AnyGen σ)} {chains : List (List (Op (World σ (AnyGen σ))))} {L : List (Val × Val)}
    {q q1 : Population} (hq : q.relationships = [("songs", 0)])
    (hs : Site env [L] [q, q1] [] [("music_repository", 0), ("user", 1)] G c)
    (h : addListenAndShare env g c = .ok chains c') :
    ∃ x y seed seed', chains = Scene.chains env ⟨.both, 1, x, y, 0, 0, 1⟩ ∧ Began env c'.world (.ref x) (g.choice q.ids none seed) ∧
      Began env c'.world (.ref y) (g.choice q1.ids none seed') ∧ Moderate c'.world ∧
      Site env [L] [q, q1] [("listen_events", "UID"), ("share_events", "UID")]
        [("music_repository", 0), ("user", 1)] G c' ∧ Later env 4 c.world c'.world ∧
      (q1.ids.Nodup → Playing env g q1.ids c'.world) := by
  rw [addListenAndShare] at h
  obtain ⟨r, c1, h1, h⟩ := Act.bind_eq_ok.1 h
  obtain ⟨rfl, hm, s1, a1, play⟩ := addStories_site (k := 1) rfl hs h1
  obtain ⟨repo, c6, h6, h⟩ := Act.bind_eq_ok.1 h
  obtain ⟨rfl, e7⟩ := popNamed_ok h6
  rw [s1.pops] at e7
  cases e7
  obtain ⟨u9, hw, rfl⟩ := onWorld_ok h
  clear h
  have h := hw
  obtain ⟨r4, v1, k1, h⟩ := Act.bind_eq_ok.1 h
  obtain ⟨q', seed, e8, t4, l4, rfl, b4, st4⟩ := choiceIn_stage s1.stage k1
  cases e8
  obtain ⟨r5, v5, k5, h⟩ := Act.bind_eq_ok.1 h
  have hm1 := moderate_choiceIn hm k1
  obtain ⟨rfl, q'', e8, e9⟩ := stage_relNamed t4 k5
  cases e8
  rw [hq] at e9
  cases e9
  obtain ⟨r6, v6, k6, h⟩ := Act.bind_eq_ok.1 h
  obtain ⟨q', seed', e8, t6, l6, rfl, b6, st6⟩ := choiceIn_stage t4 k6
  cases e8
  obtain ⟨rfl, rfl⟩ := Act.pure_eq_ok.1 h
  exact ⟨_, _, seed, seed', rfl, l6.began b4, b6, moderate_choiceIn hm1 k6, ⟨t6, s1.pops, s1.gens⟩,
    (a1.trans l4).trans l6, fun hn => ((play _ rfl hn).later l4 st4).later l6 st6⟩

/-- the stories of step 4 -/
theorem addDetailed_site {g : Parts (AnyGen σ)} {chains : List (List (Op (World σ (AnyGen σ))))} {name : String}
    {kr ks ku rel : Nat} {q qu : Population} (hq : Dict.get? q.relationships "songs" = some rel)
    (hr : D.get "music_repository" = .ok kr) (hr' : P[kr]? = some q) (hk : D.get name = .ok ks)
    (hu : D.get "user" = .ok ku) (hu' : P[ku]? = some qu) (hs : Site env R P [] D G c)
    (h : addDetailed env name g c = .ok chains c') :
    ∃ x y seed seed', chains = Scene.chains env ⟨.detailed, ku, x, y, kr, rel, ks⟩ ∧
      Began env c'.world (.ref x) (g.choice q.ids none seed) ∧
      Began env c'.world (.ref y) (g.choice qu.ids none seed') ∧ Moderate c'.world ∧
      Site env R P [("listen_events", "UID"), ("share_events", "UID")] D G c' ∧ Later env 4 c.world c'.world ∧
      (qu.ids.Nodup → Playing env g qu.ids c'.world) := by
  rw [addDetailed] at h
  obtain ⟨r, c1, h1, h⟩ := Act.bind_eq_ok.1 h
  obtain ⟨rfl, hm, s1, a1, play⟩ := addStories_site (k := ku) hu hs h1
  obtain ⟨repo, c6, h6, h⟩ := Act.bind_eq_ok.1 h
  obtain ⟨rfl, e7⟩ := popNamed_ok h6
  rw [s1.pops, hr] at e7
  cases e7
  obtain ⟨song, c7, h7, h⟩ := Act.bind_eq_ok.1 h
  obtain ⟨rfl, e7⟩ := popNamed_ok h7
  rw [s1.pops, hk] at e7
  cases e7
  obtain ⟨u9, hw, rfl⟩ := onWorld_ok h
  clear h
  have h := hw
  obtain ⟨r4, v1, k1, h⟩ := Act.bind_eq_ok.1 h
  obtain ⟨q', seed, e8, t4, l4, rfl, b4, st4⟩ := choiceIn_stage s1.stage k1
  rw [hr'] at e8
  cases e8
  obtain ⟨r5, v5, k5, h⟩ := Act.bind_eq_ok.1 h
  have hm1 := moderate_choiceIn hm k1
  obtain ⟨rfl, q'', e8, e9⟩ := stage_relNamed t4 k5
  rw [hr'] at e8
  cases e8
  rw [hq] at e9
  cases e9
  obtain ⟨r6, v6, k6, h⟩ := Act.bind_eq_ok.1 h
  obtain ⟨q', seed', e8, t6, l6, rfl, b6, st6⟩ := choiceIn_stage t4 k6
  rw [hu'] at e8
  cases e8
  obtain ⟨rfl, rfl⟩ := Act.pure_eq_ok.1 h
  exact ⟨_, _, seed, seed', rfl, l6.began b4, b6, moderate_choiceIn hm1 k6, ⟨t6, s1.pops, s1.gens⟩,
    (a1.trans l4).trans l6, fun hn => ((play _ hu' hn).later l4 st4).later l6 st6⟩

/-! ### The songs as a population -/

/-- one more generated field -/
theorem generated_field {r : GenRef} {name : String} {data out : Frame} {l : Logs} (hr : Rect data) (hn : data.index.Nodup)
    (hnew : name ∉ data.cols) (h : Ops.randomValues env r name none data w = .ok (out, l) w') :
    Grows [name] data out ∧ out.index = data.index ∧ (w'.rels = w.rels ∧ w'.pops = w.pops ∧ w'.stories = w.stories) ∧
      Later env 0 w w' ∧ (∀ i, i ∉ refs r → w'.gens[i]? = w.gens[i]?) ∧
      (∀ c, r = .constant c → ∀ i ∈ out.index, valueAt out i name = c) := by
  obtain ⟨-, g1, i1⟩ := grows_adder (env := env) (.randomValues _ _) hr hn hnew h
  obtain ⟨-, values, ad, e⟩ := C91_random_values hn hr hnew h
  refine ⟨g1, i1, ⟨(call_sameRest e).2.rels, (call_sameRest e).2.pops, (call_sameRest e).1⟩, later_generate e,
    fun i hi => call_gens_other hi e, ?_⟩
  rintro c rfl i hi
  obtain ⟨rfl, -⟩ := Act.pure_eq_ok.1 e
  have := Shop.listIn_added hn ad
  have hm : valueAt out i name ∈ out.index.map (fun i => valueAt out i name) := List.mem_map_of_mem hi
  rw [this] at hm
  exact List.eq_of_mem_replicate hm

theorem init_runs {s : SongGens} {genre : Cell} {data out : Frame} {ls : List Logs} (hr : Rect data)
    (hn : data.index.Nodup) (hc : data.cols = ["SONG_ID"]) (h : Runs (initOps env s genre) data w out ls w') :
    Rect out ∧ out.index = data.index ∧
      out.cols = ["SONG_ID", "artist_name", "title", "recording_year", "duration_seconds", "song_genre"] ∧
      (∀ i ∈ out.index, valueAt out i "song_genre" = genre) ∧
      (w'.rels = w.rels ∧ w'.pops = w.pops ∧ w'.stories = w.stories) ∧ Later env 0 w w' ∧
      (∀ i, i ∉ refs s.artists → i ∉ refs s.titles → i ∉ refs s.years → i ∉ refs s.durations →
        w'.gens[i]? = w.gens[i]?) := by
  rw [initOps] at h
  obtain ⟨d1, w1, l1, ls1, h1, hk1, rfl⟩ := Snd.cons_runs h
  obtain ⟨d2, w2, l2, ls2, h2, hk2, rfl⟩ := Snd.cons_runs hk1
  obtain ⟨d3, w3, l3, ls3, h3, hk3, rfl⟩ := Snd.cons_runs hk2
  obtain ⟨d4, w4, l4, ls4, h4, hk4, rfl⟩ := Snd.cons_runs hk3
  obtain ⟨d5, w5, l5, ls5, h5, hk5, rfl⟩ := Snd.cons_runs hk4
  cases hk5
  obtain ⟨g1, i1, ⟨a1, b1, c1⟩, m1, n1, -⟩ := generated_field hr hn (by rw [hc]; decide) h1
  have e1 : d1.cols = ["SONG_ID", "artist_name"] := by rw [g1.cols, hc]; rfl
  obtain ⟨g2, i2, ⟨a2, b2, c2⟩, m2, n2, -⟩ := generated_field g1.rect g1.nodup (by rw [e1]; decide) h2
  have e2 : d2.cols = ["SONG_ID", "artist_name", "title"] := by rw [g2.cols, e1]; rfl
  obtain ⟨g3, i3, ⟨a3, b3, c3⟩, m3, n3, -⟩ := generated_field g2.rect g2.nodup (by rw [e2]; decide) h3
  have e3 : d3.cols = ["SONG_ID", "artist_name", "title", "recording_year"] := by rw [g3.cols, e2]; rfl
  obtain ⟨g4, i4, ⟨a4, b4, c4⟩, m4, n4, -⟩ := generated_field g3.rect g3.nodup (by rw [e3]; decide) h4
  have e4 : d4.cols = ["SONG_ID", "artist_name", "title", "recording_year", "duration_seconds"] := by
    rw [g4.cols, e3]; rfl
  obtain ⟨g5, i5, ⟨a5, b5, c5⟩, m5, n5, v5⟩ := generated_field g4.rect g4.nodup (by rw [e4]; decide) h5
  refine ⟨g5.rect, by rw [i5, i4, i3, i2, i1], by rw [g5.cols, e4]; rfl, v5 _ rfl,
    ⟨by rw [a5, a4, a3, a2, a1], by rw [b5, b4, b3, b2, b1], by rw [c5, c4, c3, c2, c1]⟩,
    (((m1.trans m2).trans m3).trans m4).trans m5, fun i x1 x2 x3 x4 => ?_⟩
  rw [n5 i (by simp [refs]), n4 i x4, n3 i x3, n2 i x2, n1 i x1]

theorem lastRow_iff {f : Frame} (hn : f.index.Nodup) {i : Val} {r : Row} : LastRow f i r ↔ r ∈ f.rows ∧ r.idx = i := by
  constructor
  · rintro ⟨pre, post, e, hi, -⟩
    exact ⟨by rw [e]; simp, hi⟩
  · rintro ⟨hr, rfl⟩
    obtain ⟨pre, post, e⟩ := List.append_of_mem hr
    refine ⟨pre, post, e, rfl, fun x hx hxi => ?_⟩
    rw [Frame.index, e, List.map_append, List.map_cons, List.nodup_append] at hn
    exact (List.nodup_cons.1 hn.2.1).1 (hxi ▸ List.mem_map_of_mem hx)

/-- what an insertion of new members does -/
theorem update_songs {q q' : Population} {f : Frame} (hq : Population.WF q) (hr : Rect f) (hn : f.index.Nodup)
    (hc : f.cols.Nodup) (h : q.update f = .ok q') : Population.WF q' ∧
      q'.attributes.map Prod.fst = q.attributes.map Prod.fst ∧ (∀ i, i ∈ q'.ids ↔ i ∈ q.ids ∨ i ∈ f.index) ∧
      ∀ name b, attributeOf q name b → ∃ b', attributeOf q' name b' ∧ ∀ i c, Holds b' i c ↔
        (∃ r ∈ f.rows, r.idx = i ∧ c = cell f r name) ∨ (i ∉ f.index ∧ Holds b i c) := by
  obtain ⟨k1, -⟩ := Population.update_eq_ok h
  obtain ⟨q1, e1, e2, e3, e4⟩ := C55_update hq hr hc k1
  rw [h] at e1
  cases e1
  refine ⟨Population.popCall_wf (R := Rng.counter) (.update f h) hq, e2, C51_update h, fun name b hb => ?_⟩
  obtain ⟨b', h1, h2⟩ := e4 name b hb
  refine ⟨b', h1, fun i c => (h2 i c).trans ?_⟩
  simp only [lastRow_iff hn, and_assoc]

/-- the songs of one genre -/
theorem addSongsOf_step (hsem : env.sem = AnyGen.sem env.R) {n j : Nat} {a : SeqGen} {s : SongGens} {genre : Val × Cell}
    {done : List (Val × Cell)} {L : List (Val × Val)} {q songs : Population} {u : Unit}
    (hids : s.ids = .ref j) (h1 : j ∉ refs s.artists) (h2 : j ∉ refs s.titles) (h3 : j ∉ refs s.years)
    (h4 : j ∉ refs s.durations) (hg : w.gens[j]? = some (.seq { a with counter := a.counter + (done.length * n : Nat) }))
    (hkeys : songs.attributes.map Prod.fst = songAttributes) (hnew : genre.1 ∉ done.map Prod.fst)
    (hs : Stage env [L] [q, songs] S w) (hcat : Catalogue n a done L songs)
    (h : addSongsOf env n 0 1 s genre w = .ok u w') :
    ∃ (L' : List (Val × Val)) (songs' : Population), Stage env [L'] [q, songs'] S w' ∧
      Catalogue n a (done ++ [genre]) L' songs' ∧
      songs'.attributes.map Prod.fst = songAttributes ∧ Later env 0 w w' ∧
      w'.gens[j]? = some (.seq { a with counter := a.counter + ((done ++ [genre]).length * n : Nat) }) := by
  rw [addSongsOf] at h
  obtain ⟨cells, v1, k1, h⟩ := Act.bind_eq_ok.1 h
  obtain ⟨ids, v2, k2, h⟩ := Act.bind_eq_ok.1 h
  obtain ⟨hv, rfl⟩ := Act.ofPy_eq_ok.1 k2
  obtain ⟨x3, v3, k3, h⟩ := Act.bind_eq_ok.1 h
  obtain ⟨⟨f, l⟩, v4, k4, h⟩ := Act.bind_eq_ok.1 h
  obtain ⟨f', v5, k5, h⟩ := Act.bind_eq_ok.1 h
  obtain ⟨hf, rfl⟩ := Act.ofPy_eq_ok.1 k5
  obtain ⟨q0, v6, k6, h⟩ := Act.bind_eq_ok.1 h
  obtain ⟨hq0, rfl⟩ := getPop_eq_ok.1 k6
  obtain ⟨q1, v7, k7, h⟩ := Act.bind_eq_ok.1 h
  obtain ⟨hup, rfl⟩ := Act.ofPy_eq_ok.1 k7
  rw [setPop_eq_ok] at h
  subst h
  rw [hids] at k1
  have s1 := stage_generate hs k1
  have m1 := later_generate k1
  obtain ⟨g, g', hg', e, rfl⟩ := generate_ref_ok.1 k1
  rw [hg] at hg'
  cases hg'
  obtain ⟨rfl, rfl⟩ := Snd.seq_drawn hsem e hv
  have hlt := (List.getElem?_eq_some_iff.1 hg).1
  obtain ⟨s3, g3, m3⟩ := stage_grouped s1 k3
  obtain ⟨ls, hrun, -⟩ := nested_ok k4
  have hidx : (Story.initStoryData "SONG_ID" (idsFrom { a with counter := a.counter + (done.length * n : Nat) } n)).index =
      idsFrom { a with counter := a.counter + (done.length * n : Nat) } n := by
    simp [Story.initStoryData, Frame.index, Function.comp_def]
  have hnd := idsFrom_nodup { a with counter := a.counter + (done.length * n : Nat) } n
  obtain ⟨r4, i4, c4, f4, ⟨a4, b4, d4⟩, m4, n4⟩ := init_runs
    (by intro r hr; simp [Story.initStoryData] at hr ⊢; obtain ⟨x, -, rfl⟩ := hr; rfl) (by rw [hidx]; exact hnd) rfl hrun
  have s4 := s3.same a4 b4 d4
  rw [s4.pops] at hq0
  cases hq0
  rw [hidx] at i4
  obtain ⟨c5, rows5⟩ := Frame.select_ok hf
  have i5 := Frame.select_index hf
  rw [i4] at i5
  have hcols : f'.cols = ["artist_name", "title", "recording_year", "duration_seconds", "song_genre"] := by
    rw [c5, c4]; decide
  obtain ⟨w1, w2, w3, w4⟩ := update_songs (s4.wf songs (by simp)) (Frame.select_rect hf) (by rw [i5]; exact hnd)
    (by rw [hcols]; decide) hup
  have hgenre : ∀ r ∈ f'.rows, cell f' r "song_genre" = genre.2 := by
    intro r hr
    rw [rows5] at hr
    obtain ⟨x, hx, rfl⟩ := List.mem_map.1 hr
    have hxi : x.idx ∈ f.index := mem_index.2 ⟨x, hx, rfl⟩
    rw [← f4 _ hxi, valueAt_row (by rw [i4]; exact hnd) hx, ← c5, cell, hcols]
    rfl
  have hsplit := idsFrom_append a (done.length * n) n
  have hall := idsFrom_nodup a (done.length * n + n)
  rw [hsplit, List.nodup_append] at hall
  obtain ⟨-, -, hdis⟩ := hall
  generalize hI : idsFrom { a with counter := a.counter + (done.length * n : Nat) } n = ids at *
  have hL : (L ++ ([genre.1].zip [ids]).flatMap fun x => x.2.map fun y => (x.1, y)) =
      L ++ ids.map fun y => (genre.1, y) := by simp
  rw [hL] at s4
  have hlen : (done ++ [genre]).length * n = done.length * n + n := by
    rw [List.length_append, List.length_singleton, Nat.add_mul, Nat.one_mul]
  have hnone : ∀ y ∈ L, y.1 ≠ genre.1 := by
    rintro y hy e
    obtain ⟨cc, hm, -⟩ := hcat.genre y hy
    exact hnew (e ▸ List.mem_map_of_mem (f := Prod.fst) hm)
  have hlenI : ids.length = n := by rw [← hI]; simp [idsFrom]
  refine ⟨_, q1, stage_setPop (pop := 1) s4 w1 rfl rfl rfl, ⟨?_, ?_, ?_, ?_, ?_⟩, w2.trans hkeys, ?_, ?_⟩
  · rw [List.map_append, hcat.ids, hlen, hsplit, List.map_map]
    simp [Function.comp_def]
  · intro g hg
    rw [List.countP_append, List.countP_map]
    rw [List.map_append, List.mem_append] at hg
    rcases hg with hg | hg
    · have hne : g ≠ genre.1 := fun e => hnew (e ▸ hg)
      rw [hcat.count g hg]
      simp [Function.comp_def, Ne.symm hne]
    · simp only [List.map_cons, List.map_nil, List.mem_singleton] at hg
      subst hg
      rw [List.countP_eq_zero.2 (fun y hy => by simpa using hnone y hy)]
      simp [Function.comp_def, hlenI]
  · intro x hx
    obtain ⟨b, hb⟩ : ∃ b, attributeOf songs "song_genre" b := by
      obtain ⟨b, hb, -⟩ := hcat.known "song_genre" (by decide)
      exact ⟨b, hb⟩
    obtain ⟨b', hb', hold⟩ := w4 _ b hb
    rcases List.mem_append.1 hx with hx | hx
    · obtain ⟨cc, hm, b2, hb2, hh⟩ := hcat.genre x hx
      have : b2 = b := by
        have hw := (s4.wf songs (by simp)).names
        exact Option.some.inj ((Dict.get?_of_mem hw hb2).symm.trans (Dict.get?_of_mem hw hb))
      subst this
      refine ⟨cc, List.mem_append_left _ hm, b', hb', (hold _ _).2 (.inr ⟨fun hi => ?_, hh⟩)⟩
      rw [i5] at hi
      exact hdis x.2 (hcat.ids ▸ List.mem_map_of_mem hx) _ hi rfl
    · obtain ⟨y, hy, rfl⟩ := List.mem_map.1 hx
      rw [← i5] at hy
      obtain ⟨r, hr, hri⟩ := mem_index.1 hy
      exact ⟨genre.2, by simp, b', hb', (hold _ _).2 (.inl ⟨r, hr, hri, (hgenre r hr).symm⟩)⟩
  · intro i
    rw [w3, hcat.members, i5]
    simp [Function.comp_def]
  · intro name hname
    obtain ⟨b, hb, hk⟩ := hcat.known name hname
    obtain ⟨b', hb', hold⟩ := w4 _ b hb
    refine ⟨b', hb', fun i hi => ?_⟩
    by_cases hm : i ∈ f'.index
    · obtain ⟨r, hr, hri⟩ := mem_index.1 hm
      exact ⟨_, (hold _ _).2 (.inl ⟨r, hr, hri, rfl⟩)⟩
    · obtain ⟨cc, hc⟩ := hk i (((w3 i).1 hi).resolve_right hm)
      exact ⟨cc, (hold _ _).2 (.inr ⟨hm, hc⟩)⟩
  · exact ((m1.trans m3).trans m4).trans (m := 0) (.same rfl)
  · show v4.gens[j]? = _
    rw [n4 j h1 h2 h3 h4, g3, hlen, World.gens]
    refine (List.getElem?_set_self hlt).trans ?_
    congr 3
    push_cast
    ring

theorem seeded_other {mk : Int → AnyGen σ} {r : GenRef} {i : Nat} (h : Snd.seeded env mk w = .ok r w')
    (hi : i < w.gens.length) : w'.gens[i]? = w.gens[i]? := by
  rw [Snd.seeded] at h
  obtain ⟨x, w1, h1, h2⟩ := Act.bind_eq_ok.1 h
  obtain ⟨s, -, rfl⟩ := drawSeed_eq_ok h1
  obtain ⟨-, -, h4⟩ := later_addGenerator (env := env) h2
  rw [h4]
  exact List.getElem?_append_left hi

/-- the songs of all genres -/
theorem addSongsOf_all (hsem : env.sem = AnyGen.sem env.R) {n j : Nat} {a : SeqGen} {s : SongGens} {q : Population}
    (hids : s.ids = .ref j) (h1 : j ∉ refs s.artists) (h2 : j ∉ refs s.titles) (h3 : j ∉ refs s.years)
    (h4 : j ∉ refs s.durations) {l done : List (Val × Cell)} {L : List (Val × Val)} {songs : Population} {u : Unit}
    (hg : w.gens[j]? = some (.seq { a with counter := a.counter + (done.length * n : Nat) }))
    (hkeys : songs.attributes.map Prod.fst = songAttributes) (hnew : ((done ++ l).map Prod.fst).Nodup)
    (hs : Stage env [L] [q, songs] S w) (hcat : Catalogue n a done L songs)
    (h : Act.forEach (addSongsOf env n 0 1 s) l w = .ok u w') :
    ∃ (L' : List (Val × Val)) (songs' : Population), Stage env [L'] [q, songs'] S w' ∧
      Catalogue n a (done ++ l) L' songs' ∧ songs'.attributes.map Prod.fst = songAttributes ∧ Later env 0 w w' := by
  induction l generalizing w done L songs with
  | nil =>
    cases h
    exact ⟨L, songs, hs, by rw [List.append_nil]; exact hcat, hkeys, .same rfl⟩
  | cons x l ih =>
    rw [forEach_cons] at h
    obtain ⟨u1, w1, k1, k2⟩ := Act.bind_eq_ok.1 h
    have hx : x.1 ∉ done.map Prod.fst := by
      rw [List.map_append, List.nodup_append] at hnew
      exact fun hm => hnew.2.2 _ hm x.1 (by simp) rfl
    obtain ⟨L1, q1, a1, a2, a3, a4, a5⟩ := addSongsOf_step hsem hids h1 h2 h3 h4 hg hkeys hx hs hcat k1
    obtain ⟨L2, q2, b1, b2, b3, b4⟩ := ih a5 a3 (by simpa using hnew) a1 a2 k2
    exact ⟨L2, q2, b1, by simpa using b2, b3, a4.trans b4⟩

/-- `createEmpty` -/
theorem createEmpty_stage {pop : Nat} {name : String} {u : Unit} (hs : Stage env R P S w)
    (h : createEmpty pop name w = .ok u w') : ∃ p, P[pop]? = some p ∧
      Stage env R (P.set pop { p with attributes := p.attributes.set name ⟨[]⟩ }) S w' ∧ Later env 0 w w' := by
  rw [createEmpty] at h
  obtain ⟨p, w1, h1, h⟩ := Act.bind_eq_ok.1 h
  obtain ⟨hp, rfl⟩ := getPop_eq_ok.1 h1
  split at h
  · rename_i hz
    obtain ⟨p', w2, h2, h⟩ := Act.bind_eq_ok.1 h
    obtain ⟨h3, rfl⟩ := Act.ofPy_eq_ok.1 h2
    rw [setPop_eq_ok] at h
    subst h
    rw [Population.createAttribute] at h3
    obtain ⟨a, h4, h3⟩ := bind_eq_ok.1 h3
    cases h3
    rw [hs.pops] at hp
    have ha : a = ⟨[]⟩ := by
      rw [Attribute.new, if_pos hz] at h4
      cases h4
      rfl
    subst ha
    exact ⟨p, hp, stage_setPop hs (new_wf (hs.wf p (List.mem_of_getElem? hp)) h4) rfl rfl rfl, .same rfl⟩
  · cases h

theorem toInt_whole {c v : Cell} (h : toInt c = .ok v) : ∃ n : Int, v = .num (n : Rat) := by
  unfold toInt at h
  split at h
  · cases h
    exact ⟨_, rfl⟩
  · cases h

/-- `makeInt` -/
theorem makeInt_stage {n : Nat} {a : SeqGen} {genres : List (Val × Cell)} {L : List (Val × Val)} {q songs : Population}
    {name : String} {u : Unit} (hname : name ≠ "song_genre") (hs : Stage env R [q, songs] S w)
    (hcat : Catalogue n a genres L songs) (h : makeInt 1 name w = .ok u w') : ∃ songs',
      Stage env R [q, songs'] S w' ∧ Catalogue n a genres L songs' ∧ Whole songs' name ∧
      (∀ m, Whole songs m → Whole songs' m) ∧ Later env 0 w w' := by
  rw [makeInt] at h
  obtain ⟨p, w1, h1, h⟩ := Act.bind_eq_ok.1 h
  obtain ⟨hp, rfl⟩ := getPop_eq_ok.1 h1
  rw [hs.pops] at hp
  cases hp
  obtain ⟨b, w2, h2, h⟩ := Act.bind_eq_ok.1 h
  obtain ⟨h3, rfl⟩ := Act.ofPy_eq_ok.1 h2
  obtain ⟨table, w3, h4, h⟩ := Act.bind_eq_ok.1 h
  obtain ⟨h5, rfl⟩ := Act.ofPy_eq_ok.1 h4
  rw [setPop_eq_ok] at h
  subst h
  have hw := hs.wf songs (by simp)
  have hb : attributeOf songs name b := Dict.get?_mem (Population.get_eq_ok.1 h3)
  have hf : List.Forall₂ (fun x y => y.1 = x.1) b.table table := by
    refine (mapM_ok_iff.1 h5).imp fun x y hxy => ?_
    obtain ⟨c, -, hc⟩ := bind_eq_ok.1 hxy
    cases hc
    rfl
  have hids : table.map Prod.fst = b.table.map Prod.fst := by
    have : ∀ {l l' : List (Val × Cell)}, List.Forall₂ (fun x y => y.1 = x.1) l l' → l'.map Prod.fst = l.map Prod.fst := by
      intro l l' h
      induction h with
      | nil => rfl
      | cons h _ ih => rw [List.map_cons, List.map_cons, h, ih]
    exact this hf
  have hone : OneValueEach ⟨table⟩ := by
    have := hw.values _ hb
    show (table.map Prod.fst).Nodup
    rw [hids]
    exact this
  have hset : ∀ m c, attributeOf { songs with attributes := songs.attributes.set name ⟨table⟩ } m c ↔
      if name = m then c = ⟨table⟩ else attributeOf songs m c := by
    intro m c
    have hw' := (Population.wf_set hw (name := name) hone).names
    unfold attributeOf
    rw [← Dict.get?_eq_some_iff hw', Dict.get?_set]
    split
    · simp [eq_comm]
    · exact Dict.get?_eq_some_iff hw.names
  have hwhole : Whole { songs with attributes := songs.attributes.set name ⟨table⟩ } name := by
    intro c hc i v hv
    rw [hset, if_pos rfl] at hc
    subst hc
    obtain ⟨x, -, hx⟩ := forall₂_exists_left (mapM_ok_iff.1 h5) hv
    obtain ⟨d, hd, hx⟩ := bind_eq_ok.1 hx
    cases hx
    exact toInt_whole hd
  refine ⟨_, stage_setPop (pop := 1) hs (Population.wf_set hw (name := name) hone) rfl rfl rfl,
    ⟨hcat.ids, hcat.count, fun x hx => ?_, hcat.members, fun m hm => ?_⟩, hwhole, fun m hm => ?_, .same rfl⟩
  · obtain ⟨c, h1, d, h2, h3⟩ := hcat.genre x hx
    exact ⟨c, h1, d, (hset _ _).2 (by rw [if_neg hname]; exact h2), h3⟩
  · obtain ⟨d, h1, h2⟩ := hcat.known m hm
    by_cases e : name = m
    · subst e
      refine ⟨⟨table⟩, (hset _ _).2 (by rw [if_pos rfl]), fun i hi => ?_⟩
      obtain ⟨c, hc⟩ := h2 i hi
      have : d = b := Option.some.inj ((Dict.get?_of_mem hw.names h1).symm.trans (Dict.get?_of_mem hw.names hb))
      subst this
      have hm : i ∈ table.map Prod.fst := by
        rw [hids]
        exact List.mem_map.2 ⟨_, hc, rfl⟩
      obtain ⟨y, hy, rfl⟩ := List.mem_map.1 hm
      exact ⟨y.2, hy⟩
    · exact ⟨d, (hset _ _).2 (by rw [if_neg e]; exact h1), h2⟩
  · by_cases e : name = m
    · rw [← e]
      exact hwhole
    · intro c hc
      rw [hset, if_neg e] at hc
      exact hm c hc

/-- the songs of all genres, when their generators are there -/
theorem addSongs_fill (hsem : env.sem = AnyGen.sem env.R) {n : Nat} {a : SeqGen} {s : SongGens} {u : Unit}
    {q songs : Population} {b : Attribute} (hq : q.relationships = [("songs", 0)])
    (hb : q.attributes = [("genre_name", b)]) (hids : s.ids = .ref 2) (h1 : 2 ∉ refs s.artists) (h2 : 2 ∉ refs s.titles)
    (h3 : 2 ∉ refs s.years) (h4 : 2 ∉ refs s.durations) (hg : w.gens[2]? = some (.seq a))
    (hkeys : songs.attributes.map Prod.fst = songAttributes) (hs : Stage env [[]] [q, songs] S w)
    (hcat : Catalogue n a [] [] songs)
    (h : (do
      let q ← World.getPop 0
      let names ← Act.ofPy (q.getAttribute "genre_name")
      let rel ← Snd.relNamed 0 "songs"
      Act.forEach (addSongsOf env n rel 1 s) names.table
      makeInt 1 "recording_year"
      makeInt 1 "duration_seconds" : Act (World σ (AnyGen σ)) Unit) w = .ok u w') :
    ∃ (L : List (Val × Val)) (songs' : Population), Catalogue n a b.table L songs' ∧
      (Whole songs' "recording_year" ∧ Whole songs' "duration_seconds") ∧ Stage env [L] [q, songs'] S w' ∧
      Later env 0 w w' := by
  obtain ⟨q', w8, j1, h⟩ := Act.bind_eq_ok.1 h
  obtain ⟨hq', rfl⟩ := getPop_eq_ok.1 j1
  rw [hs.pops] at hq'
  cases hq'
  obtain ⟨b', w9, j2, h⟩ := Act.bind_eq_ok.1 h
  obtain ⟨hb', rfl⟩ := Act.ofPy_eq_ok.1 j2
  rw [Population.getAttribute, hb] at hb'
  cases hb'
  obtain ⟨rel, w10, j3, h⟩ := Act.bind_eq_ok.1 h
  obtain ⟨rfl, q'', e12, e13⟩ := stage_relNamed hs j3
  cases e12
  rw [hq] at e13
  cases e13
  have hnodup : (([] ++ b.table : List (Val × Cell)).map Prod.fst).Nodup :=
    (hs.wf q (by simp)).values ("genre_name", b) (by rw [hb]; simp)
  obtain ⟨y13, w13, j4, h⟩ := Act.bind_eq_ok.1 h
  obtain ⟨L, songs, t13, q1, q2, q3⟩ := addSongsOf_all (j := 2) (a := a) (done := []) (L := [])
    (n := n) hsem hids h1 h2 h3 h4 (by rw [hg]; simp) hkeys hnodup hs hcat j4
  obtain ⟨y14, w14, j5, h⟩ := Act.bind_eq_ok.1 h
  obtain ⟨songs1, t14, q4, i1, -, q5⟩ := makeInt_stage (by decide) t13 q1 j5
  obtain ⟨songs2, t15, q6, i2, i3, q7⟩ := makeInt_stage (by decide) t14 q4 h
  exact ⟨L, songs2, q6, ⟨i3 _ i1, i2⟩, t15, (q3.trans q5).trans q7⟩

/-- the songs of step 4 -/
theorem addSongs_site (hsem : env.sem = AnyGen.sem env.R) {p : Params} {g : Parts (AnyGen σ)} {a : SeqGen} {u : Unit}
    {q : Population} {b : Attribute} (hq : q.relationships = [("songs", 0)]) (hb : q.attributes = [("genre_name", b)])
    (hs : Site env [[]] [q] [] [("music_repository", 0)] [] c) (hl : c.world.gens.length = 1)
    (ha : g.songIds = .seq a) (h : addSongs env p g c = .ok u c') : ∃ (L : List (Val × Val)) (songs : Population),
      Catalogue p.nSongs a b.table L songs ∧ (Whole songs "recording_year" ∧ Whole songs "duration_seconds") ∧
      Site env [L] [q, songs] [] [("music_repository", 0), ("song", 1)] [] c' ∧ Later env 7 c.world c'.world := by
  rw [addSongs] at h
  obtain ⟨r1, c1, h1, h⟩ := Act.bind_eq_ok.1 h
  obtain ⟨u1, h1', rfl⟩ := onWorld_ok h1
  have s1 := stage_addGenerator hs.stage h1'
  obtain ⟨a1, rfl, g1⟩ := later_addGenerator (env := env) h1'
  have l1 := a1.len
  rw [hl] at l1
  obtain ⟨pos, c2, h2, h⟩ := Act.bind_eq_ok.1 h
  obtain ⟨ids0, k0, -, e0, -, hst0⟩ := stage_createPopulation (c := { c with world := u1 }) s1 h2
  obtain ⟨e0', e0⟩ := e0 _ _ rfl
  obtain ⟨ids, rfl, -, s2, a2⟩ := Shop.site_createPopulation (c := { c with world := u1 }) ⟨s1, hs.pops, hs.gens⟩
    (.inl (by show u1.gens.length ≤ 4; omega)) h2
  have hids : ids = [] := by
    have h3 := hst0.pops
    rw [s2.stage.pops, e0 (by omega), ← e0'] at h3
    cases h3
    rfl
  subst hids
  have l2 : c2.world.gens.length = 2 := by
    have := a2.len
    change c2.world.gens.length = u1.gens.length + 0 at this
    omega
  obtain ⟨x3, c3, h3, h⟩ := Act.bind_eq_ok.1 h
  obtain ⟨u3, h3', rfl⟩ := onWorld_ok h3
  obtain ⟨y1, v1, k1, h3'⟩ := Act.bind_eq_ok.1 h3'
  obtain ⟨p1, e1, t1, m1⟩ := createEmpty_stage s2.stage k1
  cases e1
  obtain ⟨y2, v2, k2, h3'⟩ := Act.bind_eq_ok.1 h3'
  obtain ⟨p2, e2, t2, m2⟩ := createEmpty_stage t1 k2
  cases e2
  obtain ⟨y3, v3, k3, h3'⟩ := Act.bind_eq_ok.1 h3'
  obtain ⟨p3, e3, t3, m3⟩ := createEmpty_stage t2 k3
  cases e3
  obtain ⟨y4, v4, k4, h3'⟩ := Act.bind_eq_ok.1 h3'
  obtain ⟨p4, e4, t4, m4⟩ := createEmpty_stage t3 k4
  cases e4
  obtain ⟨p5, e5, t5, m5⟩ := createEmpty_stage t4 h3'
  cases e5
  have m15 := (((m1.trans m2).trans m3).trans m4).trans m5
  have l3 : u3.gens.length = 2 := by rw [m15.len, l2]
  obtain ⟨songs0, t0, d1, d2⟩ : ∃ songs0, Stage env [[]] [q, songs0] [] u3 ∧
      songs0.attributes.map Prod.fst = songAttributes ∧ Catalogue p.nSongs a [] [] songs0 :=
    ⟨_, t5, rfl, by simp [idsFrom], by simp, by simp, by simp, fun m hm => ⟨⟨[]⟩, by
      simp only [songAttributes, List.mem_cons, List.not_mem_nil, or_false] at hm
      rcases hm with rfl | rfl | rfl | rfl | rfl <;> simp [attributeOf, Dict.set], by simp⟩⟩
  clear t5 t4 t3 t2 t1 h3
  obtain ⟨r4, c4, h4, h⟩ := Act.bind_eq_ok.1 h
  obtain ⟨u4, h4', rfl⟩ := onWorld_ok h4
  replace h4' : Snd.addGenerator g.songIds u3 = .ok _ u4 := h4'
  clear h4
  have t6 := stage_addGenerator t0 h4'
  obtain ⟨a4, rfl, g4⟩ := later_addGenerator (env := env) h4'
  have l4 := a4.len
  rw [l3] at l4
  have n4 : u4.gens[2]? = some (.seq a) := by
    rw [g4, List.getElem?_append_right (by omega), l3, ha]
    rfl
  obtain ⟨r5, c5, h5, h⟩ := Act.bind_eq_ok.1 h
  obtain ⟨u5, h5', rfl⟩ := onWorld_ok h5
  replace h5' : Snd.seeded env g.names u4 = .ok _ u5 := h5'
  clear h5
  have t7 := stage_seeded t6 h5'
  have n5 := (seeded_other h5' (i := 2) (by omega)).trans n4
  obtain ⟨a5, rfl, -⟩ := later_seeded h5'
  have l5 := a5.len
  obtain ⟨r6, c6, h6, h⟩ := Act.bind_eq_ok.1 h
  obtain ⟨u6, h6', rfl⟩ := onWorld_ok h6
  clear h6
  obtain ⟨cells, w6, k6, h6'⟩ := Act.bind_eq_ok.1 h6'
  replace k6 : World.generate env (.ref u4.gens.length) (p.nArtists : Rat) u5 = .ok cells w6 := k6
  have t8 := stage_generate t7 k6
  have a6 := later_generate k6
  have l6 := a6.len
  have n6 := (call_gens_other (i := 2) (by simp only [refs, List.mem_singleton]; omega) k6).trans n5
  obtain ⟨vals, w7, k7, h6'⟩ := Act.bind_eq_ok.1 h6'
  obtain ⟨-, rfl⟩ := Act.ofPy_eq_ok.1 k7
  have t9 := stage_seeded t8 h6'
  have n7 := (seeded_other h6' (i := 2) (by omega)).trans n6
  obtain ⟨a7, rfl, -⟩ := later_seeded h6'
  have l7 := a7.len
  obtain ⟨r8, c8, h8, h⟩ := Act.bind_eq_ok.1 h
  obtain ⟨u8, h8', rfl⟩ := onWorld_ok h8
  replace h8' : Snd.seeded env g.titles u6 = .ok _ u8 := h8'
  clear h8
  have t10 := stage_seeded t9 h8'
  have n8 := (seeded_other h8' (i := 2) (by omega)).trans n7
  obtain ⟨a8, rfl, -⟩ := later_seeded h8'
  have l8 := a8.len
  obtain ⟨r9, c9, h9, h⟩ := Act.bind_eq_ok.1 h
  obtain ⟨u9, h9', rfl⟩ := onWorld_ok h9
  replace h9' : Snd.seeded env g.dates u8 = .ok _ u9 := h9'
  clear h9
  have t11 := stage_seeded t10 h9'
  have n9 := (seeded_other h9' (i := 2) (by omega)).trans n8
  obtain ⟨a9, rfl, -⟩ := later_seeded h9'
  have l9 := a9.len
  obtain ⟨r10, c10, h10, h⟩ := Act.bind_eq_ok.1 h
  obtain ⟨u10, h10', rfl⟩ := onWorld_ok h10
  replace h10' : Snd.seeded env g.durations u9 = .ok _ u10 := h10'
  clear h10
  have t12 := stage_seeded t11 h10'
  have n10 := (seeded_other h10' (i := 2) (by omega)).trans n9
  obtain ⟨a10, rfl, -⟩ := later_seeded h10'
  have l10 := a10.len
  obtain ⟨repo, c11, h11, h⟩ := Act.bind_eq_ok.1 h
  obtain ⟨rfl, e11⟩ := popNamed_ok h11
  change c2.populations.get _ = _ at e11
  rw [s2.pops] at e11
  cases e11
  obtain ⟨u12, h12, rfl⟩ := onWorld_ok h
  obtain ⟨L, songs, q1, q1', q2, q3⟩ := addSongs_fill (w := u10) hsem hq hb (by show GenRef.ref _ = _; rw [l3])
    (by simp only [refs, List.mem_singleton]; omega) (by simp only [refs, List.mem_singleton]; omega)
    (by simp only [refs, List.mem_singleton]; omega) (by simp only [refs, List.mem_singleton]; omega) n10 d1 t12 d2 h12
  have m2 : Later env 0 u1 c2.world := later_after a2
  exact ⟨L, songs, q1, q1', ⟨q2, s2.pops, s2.gens⟩, (((((((((a1.trans m2).trans m15).trans a4).trans a5).trans
    a6).trans a7).trans a8).trans a9).trans a10).trans q3⟩

end Music
end Trumania
