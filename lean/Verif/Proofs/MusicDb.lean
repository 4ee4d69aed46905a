import Verif.Props.MusicRuns
import Verif.Props.DbPopulation
import Verif.Props.Namespace

/-!
# What the populations of examples/tutorial/example4.py are, before and after the files
-/

namespace Trumania
namespace Music
open Spec World Circus Cdr Shop
variable {σ : Type} {env : Env σ (AnyGen σ)} {w w' : World σ (AnyGen σ)} {c c' : Circus σ (AnyGen σ)}
  {R : List (List (Val × Val))} {P : List Population} {S : List (String × String)} {D G : Dict String Nat}

/-! ### The populations that are in no circus -/

theorem detached_stage {r : GenRef} {n i : Nat} (hs : Stage env R P S w) (hl : w.gens.length ≤ 4)
    (h : detached env r n w = .ok i w') : ∃ ids, i = P.length ∧
      (n = 0 ∧ ids = [] ∨ ∃ cells u, World.generate env r (n : Rat) w = .ok cells u ∧ cells.mapM Cell.asVal = .ok ids) ∧
      Stage env R (P ++ [⟨ids, n, [], []⟩]) S w' ∧ Later env 0 w w' := by
  rw [detached] at h
  obtain ⟨q, w1, h1, h2⟩ := Act.bind_eq_ok.1 h
  let c0 : Circus σ (AnyGen σ) :=
    { name := "", masterSeed := 0, start := 0, step := 0, world := w, populations := [], generators := [] }
  have hc : createPopulation env "x" (.generated r n) c0 = .ok i { c0 with world := w', populations := [("x", i)] } := by
    have e : (onWorld (newPopulation env (.generated r n)) : Act (Circus σ (AnyGen σ)) Population) c0 =
        .ok q { c0 with world := w1 } := by 
      simp only [onWorld, c0]
      rw [h1]
    rw [createPopulation, Act.bind_ok (FS.get_ok c0), if_neg (by simp [c0, Dict.contains, Dict.get?]), Act.bind_ok e]
    rw [appendPop] at h2
    cases h2
    rfl
  obtain ⟨ids, e1, e2, e3, e4⟩ := site_createPopulation (c := c0) (D := []) (G := []) ⟨hs, rfl, rfl⟩ (.inl hl) hc
  exact ⟨ids, e1, e2, e3.stage, later_after e4⟩

theorem createRelationship_given {pop i : Nat} {name : String} {x : Int} (hx : x ≠ 0) (hs : Stage env R P S w)
    (h : createRelationship env pop name (some x) w = .ok i w') : ∃ p, P[pop]? = some p ∧ i = R.length ∧
      Stage env (R ++ [[]]) (P.set pop { p with relationships := p.relationships.set name R.length }) S w' ∧
      Later env 0 w w' ∧ ∃ r, w'.rels = w.rels ++ [r] ∧ r.seed = x := by
  rw [createRelationship] at h
  simp only [if_neg hx] at h
  obtain ⟨y, w1, h1, h⟩ := Act.bind_eq_ok.1 h
  obtain ⟨rfl, rfl⟩ := Act.pure_eq_ok.1 h1
  obtain ⟨j, w2, h2, h⟩ := Act.bind_eq_ok.1 h
  rw [appendRel] at h2
  cases h2
  obtain ⟨p, w3, h3, h⟩ := Act.bind_eq_ok.1 h
  obtain ⟨hp, rfl⟩ := getPop_eq_ok.1 h3
  obtain ⟨u, w4, h4, h⟩ := Act.bind_eq_ok.1 h
  rw [setPop_eq_ok] at h4
  subst h4
  obtain ⟨rfl, rfl⟩ := Act.pure_eq_ok.1 h
  have hl : w.rels.length = R.length := hs.rels.length_eq
  replace hp : w.pops[pop]? = some p := hp
  refine ⟨p, hs.pops ▸ hp, hl, ⟨?_, ?_, hs.stories, ?_, hs.ids⟩, ⟨rfl, fun h => Began.of_gens rfl h, rfl, fun ho => ?_⟩,
    _, rfl, rfl⟩
  · exact List.rel_append hs.rels (.cons (Snd.filled_new x) .nil)
  · show w.pops.set pop _ = _
    rw [hs.pops, hl]
  · intro q hq
    rcases List.mem_or_eq_of_mem_set hq with hq | rfl
    · exact hs.wf q hq
    · have := hs.wf p (by rw [← hs.pops]; exact List.mem_of_getElem? hp)
      exact ⟨this.ids, this.names, this.values⟩
  · intro r hr o z hz
    rcases List.mem_append.1 hr with hr | hr
    · exact ho r hr o z hz
    · rw [List.mem_singleton] at hr
      subst hr
      have := (Snd.filled_new (env := env) x).2 o
      have h0 := List.Perm.eq_nil this
      rw [List.map_eq_nil_iff] at h0
      rw [h0] at hz
      cases hz

/-- the genres -/
theorem buildRepo_stage {p : Params} {g : Parts (AnyGen σ)} {i : Nat} (hs : Stage env [] [] [] w) (hl : w.gens.length = 0)
    (h : buildRepo env p g w = .ok i w') : i = 0 ∧ ∃ ids a,
      (p.nGenres = 0 ∧ ids = [] ∨ ∃ cells x, env.sem.generate g.genreIds (p.nGenres : Rat) = .ok (cells, x) ∧
        cells.mapM Cell.asVal = .ok ids) ∧
      Attribute.new p.nGenres ids (p.genreNames.map Cell.str) = .ok a ∧
      Stage env [[]] [⟨ids, p.nGenres, [("genre_name", a)], [("songs", 0)]⟩] [] w' ∧ w'.gens.length = 1 ∧
      (Ones w → Ones w') := by
  rw [buildRepo] at h
  obtain ⟨r1, u1, h1, h⟩ := Act.bind_eq_ok.1 h
  have s1 := stage_addGenerator hs h1
  obtain ⟨a1, rfl, g1⟩ := later_addGenerator (env := env) h1
  have l1 : u1.gens.length = 1 := by rw [a1.len, hl]
  obtain ⟨pos, u2, h2, h⟩ := Act.bind_eq_ok.1 h
  obtain ⟨ids, rfl, hids, s2, a2⟩ := detached_stage s1 (by omega) h2
  obtain ⟨q, v1, k1, h⟩ := Act.bind_eq_ok.1 h
  obtain ⟨hq, rfl⟩ := getPop_eq_ok.1 k1
  rw [s2.pops] at hq
  cases hq
  obtain ⟨q', v2, k2, h⟩ := Act.bind_eq_ok.1 h
  obtain ⟨k3, rfl⟩ := Act.ofPy_eq_ok.1 k2
  rw [Population.createAttribute] at k3
  obtain ⟨a, k4, k3⟩ := bind_eq_ok.1 k3
  cases k3
  obtain ⟨x, v3, k5, h⟩ := Act.bind_eq_ok.1 h
  rw [setPop_eq_ok] at k5
  subst k5
  have t1 := stage_setPop (w' := { u2 with pops := u2.pops.set 0 _ }) s2
    (new_wf (name := "genre_name") (s2.wf _ (by simp)) k4) rfl rfl rfl
  obtain ⟨r5, v7, k7, h⟩ := Act.bind_eq_ok.1 h
  obtain ⟨q4, e4, rfl, t7, b7, -⟩ := createRelationship_given (by decide) t1 k7
  cases e4
  obtain ⟨rfl, rfl⟩ := Act.pure_eq_ok.1 h
  refine ⟨rfl, ids, a, ?_, k4, t7, ?_, fun ho => b7.ones (a2.ones (a1.ones ho))⟩
  · refine hids.imp_right ?_
    rintro ⟨cells, y, hg, hv⟩
    obtain ⟨gg, gg', e5, e6, -⟩ := generate_ref_ok.1 hg
    rw [g1, List.getElem?_append_right (le_refl _), Nat.sub_self] at e5
    cases e5
    exact ⟨cells, gg', e6, hv⟩
  · rw [b7.len]
    show u2.gens.length + 0 = 1
    rw [a2.len, l1]

theorem addGenerator_other {x : AnyGen σ} {r : GenRef} {i : Nat} (h : Snd.addGenerator x w = .ok r w')
    (hi : i < w.gens.length) : w'.gens[i]? = w.gens[i]? := by
  rw [Snd.addGenerator] at h
  cases h
  show (w.gens ++ [x])[i]? = _
  rw [List.getElem?_append_left hi]

/-- the songs -/
theorem addSongToRepo_stage (hsem : env.sem = AnyGen.sem env.R) {p : Params} {g : Parts (AnyGen σ)} {a : SeqGen} {i : Nat}
    {q : Population} {b : Attribute} (hq : q.relationships = [("songs", 0)]) (hb : q.attributes = [("genre_name", b)])
    (hs : Stage env [[]] [q] [] w) (hl : w.gens.length = 1) (ha : g.songIds = .seq a)
    (h : addSongToRepo env p g 0 w = .ok i w') : i = 1 ∧ ∃ (L : List (Val × Val)) (songs : Population),
      Catalogue p.nSongs a b.table L songs ∧ (Whole songs "recording_year" ∧ Whole songs "duration_seconds") ∧
      Stage env [L] [q, songs] [] w' ∧ (Ones w → Ones w') := by
  rw [addSongToRepo] at h
  obtain ⟨r1, u1, h1, h⟩ := Act.bind_eq_ok.1 h
  have s1 := stage_addGenerator hs h1
  obtain ⟨a1, rfl, g1⟩ := later_addGenerator (env := env) h1
  have l1 := a1.len
  rw [hl] at l1
  obtain ⟨pos, u2, h2, h⟩ := Act.bind_eq_ok.1 h
  obtain ⟨ids, rfl, hids, s2, a2⟩ := detached_stage s1 (by omega) h2
  have hids : ids = [] := by
    rcases hids with ⟨-, e⟩ | ⟨cells, u, hg, hv⟩
    · exact e
    · rw [detached] at h2
      obtain ⟨q2, w2, k1, k2⟩ := Act.bind_eq_ok.1 h2
      rw [newPopulation, if_pos rfl] at k1
      obtain ⟨k3, rfl⟩ := Act.ofPy_eq_ok.1 k1
      rw [appendPop] at k2
      have h3 := s2.pops
      rw [← (EStateM.Result.ok.inj k2).2] at h3
      replace h3 : u1.pops ++ [q2] = _ := h3
      rw [s1.pops] at h3
      have h4 := List.cons.inj (List.append_cancel_left h3) |>.1
      rw [h4] at k3
      cases k3
      rfl
  subst hids
  have l2 : u2.gens.length = 2 := by rw [a2.len, l1]
  obtain ⟨y1, v1, k1, h⟩ := Act.bind_eq_ok.1 h
  obtain ⟨p1, e1, t1, m1⟩ := createEmpty_stage s2 k1
  cases e1
  obtain ⟨y2, v2, k2, h⟩ := Act.bind_eq_ok.1 h
  obtain ⟨p2, e2, t2, m2⟩ := createEmpty_stage t1 k2
  cases e2
  obtain ⟨y3, v3, k3, h⟩ := Act.bind_eq_ok.1 h
  obtain ⟨p3, e3, t3, m3⟩ := createEmpty_stage t2 k3
  cases e3
  obtain ⟨y4, v4, k4, h⟩ := Act.bind_eq_ok.1 h
  obtain ⟨p4, e4, t4, m4⟩ := createEmpty_stage t3 k4
  cases e4
  obtain ⟨y5, u3, k5, h⟩ := Act.bind_eq_ok.1 h
  obtain ⟨p5, e5, t5, m5⟩ := createEmpty_stage t4 k5
  cases e5
  have m15 := (((m1.trans m2).trans m3).trans m4).trans m5
  have l3 : u3.gens.length = 2 := by rw [m15.len, l2]
  obtain ⟨songs0, t0, d1, d2⟩ : ∃ songs0, Stage env [[]] [q, songs0] [] u3 ∧
      songs0.attributes.map Prod.fst = songAttributes ∧ Catalogue p.nSongs a [] [] songs0 :=
    ⟨_, t5, rfl, by simp [idsFrom], by simp, by simp, by simp, fun m hm => ⟨⟨[]⟩, by
      simp only [songAttributes, List.mem_cons, List.not_mem_nil, or_false] at hm
      rcases hm with rfl | rfl | rfl | rfl | rfl <;> simp [attributeOf, Dict.set], by simp⟩⟩
  clear t5 t4 t3 t2 t1
  obtain ⟨r4, u4, h4, h⟩ := Act.bind_eq_ok.1 h
  have t6 := stage_addGenerator t0 h4
  obtain ⟨a4, rfl, g4⟩ := later_addGenerator (env := env) h4
  have l4 := a4.len
  rw [l3] at l4
  have n4 : u4.gens[2]? = some (.seq a) := by
    rw [g4, List.getElem?_append_right (by omega), l3, ha]
    rfl
  obtain ⟨r5, u5, h5, h⟩ := Act.bind_eq_ok.1 h
  have t7 := stage_addGenerator t6 h5
  have n5 := (addGenerator_other h5 (i := 2) (by omega)).trans n4
  obtain ⟨a5, rfl, -⟩ := later_addGenerator (env := env) h5
  have l5 := a5.len
  obtain ⟨cells, u6, k6, h⟩ := Act.bind_eq_ok.1 h
  have t8 := stage_generate t7 k6
  have m6 := later_generate k6
  have l6 := m6.len
  have n6 := (call_gens_other (i := 2) (by simp only [refs, List.mem_singleton]; omega) k6).trans n5
  obtain ⟨vals, w7, k7, h⟩ := Act.bind_eq_ok.1 h
  obtain ⟨-, rfl⟩ := Act.ofPy_eq_ok.1 k7
  obtain ⟨r7, u7, h7, h⟩ := Act.bind_eq_ok.1 h
  have t9 := stage_addGenerator t8 h7
  have n7 := (addGenerator_other h7 (i := 2) (by omega)).trans n6
  obtain ⟨a7, rfl, -⟩ := later_addGenerator (env := env) h7
  have l7 := a7.len
  obtain ⟨r8, u8, h8, h⟩ := Act.bind_eq_ok.1 h
  have t10 := stage_addGenerator t9 h8
  have n8 := (addGenerator_other h8 (i := 2) (by omega)).trans n7
  obtain ⟨a8, rfl, -⟩ := later_addGenerator (env := env) h8
  have l8 := a8.len
  obtain ⟨r9, u9, h9, h⟩ := Act.bind_eq_ok.1 h
  have t11 := stage_addGenerator t10 h9
  have n9 := (addGenerator_other h9 (i := 2) (by omega)).trans n8
  obtain ⟨a9, rfl, -⟩ := later_addGenerator (env := env) h9
  have l9 := a9.len
  obtain ⟨r10, u10, h10, h⟩ := Act.bind_eq_ok.1 h
  have t12 := stage_addGenerator t11 h10
  have n10 := (addGenerator_other h10 (i := 2) (by omega)).trans n9
  obtain ⟨a10, rfl, -⟩ := later_addGenerator (env := env) h10
  obtain ⟨q1, v1, k1, h⟩ := Act.bind_eq_ok.1 h
  obtain ⟨gen, v2, k2, h⟩ := Act.bind_eq_ok.1 h
  obtain ⟨rel, v3, k3, h⟩ := Act.bind_eq_ok.1 h
  obtain ⟨z1, v4, k4, h⟩ := Act.bind_eq_ok.1 h
  obtain ⟨z2, v5, k5, h⟩ := Act.bind_eq_ok.1 h
  obtain ⟨z3, v6, k6, h⟩ := Act.bind_eq_ok.1 h
  obtain ⟨rfl, rfl⟩ := Act.pure_eq_ok.1 h
  have e1 : [q].length = 1 := rfl
  rw [e1] at k4 k5 k6
  obtain ⟨L, songs, q1, q1', q2, q3⟩ := addSongs_fill (w := u10) (u := z3) (w' := v6) (n := p.nSongs)
    (s := ⟨.ref u3.gens.length, .ref u6.gens.length, .ref u7.gens.length, .mapped (.ref u8.gens.length) g.year,
      .ref u9.gens.length⟩) hsem hq hb (by show GenRef.ref _ = _; rw [l3])
    (by simp only [refs, List.mem_singleton]; omega) (by simp only [refs, List.mem_singleton]; omega)
    (by simp only [refs, List.mem_singleton]; omega) (by simp only [refs, List.mem_singleton]; omega) n10 d1 t12 d2
    (by rw [Act.bind_ok k1, Act.bind_ok k2, Act.bind_ok k3, Act.bind_ok k4, Act.bind_ok k5]; exact k6)
  exact ⟨rfl, L, songs, q1, q1', q2, fun ho => q3.ones (a10.ones (a9.ones (a8.ones (a7.ones (m6.ones (a5.ones (a4.ones
    (m15.ones (a2.ones (a1.ones ho))))))))))⟩

/-- both -/
theorem makeSongs_stage (hsem : env.sem = AnyGen.sem env.R) {p : Params} {g : Parts (AnyGen σ)} {b a u : SeqGen}
    (hg : g.Usual b a u) {ks : Nat × Nat} (h : makeSongs env p g (noCircus env) = .ok ks w') : ks = (0, 1) ∧ ∃ x L songs,
      x.table = (idsFrom b p.nGenres).zip (p.genreNames.map Cell.str) ∧ x.table.map Prod.fst = idsFrom b p.nGenres ∧
      Catalogue p.nSongs a x.table L songs ∧ (Whole songs "recording_year" ∧ Whole songs "duration_seconds") ∧
      Stage env [L] [⟨idsFrom b p.nGenres, p.nGenres, [("genre_name", x)], [("songs", 0)]⟩, songs] [] w' ∧
      Ones w' := by
  rw [makeSongs] at h
  obtain ⟨k1, w1, h1, h⟩ := Act.bind_eq_ok.1 h
  obtain ⟨k2, w2, h2, h⟩ := Act.bind_eq_ok.1 h
  obtain ⟨rfl, rfl⟩ := Act.pure_eq_ok.1 h
  obtain ⟨rfl, ids, x, hids, hx, s1, l1, o1⟩ := buildRepo_stage ⟨.nil, rfl, rfl, by simp, by simp [noCircus]⟩ rfl h1
  obtain rfl := seq_ids hsem hg.genres hids
  have ht := table_new hx fun e => by rw [e]; rfl
  obtain ⟨rfl, L, songs, e1, e2, s2, o2⟩ := addSongToRepo_stage hsem rfl rfl s1 l1 hg.songs h2
  refine ⟨rfl, x, L, songs, ht, ?_, e1, e2, s2, o2 (o1 fun r hr => by cases hr)⟩
  by_cases hz : p.nGenres = 0
  · rw [ht, hz]
    rfl
  · rw [ht, List.map_fst_zip (((new_holds hx fun e => absurd e hz).2.2 hz).1.ge)]

end Music

/-! ### What the same populations have in common -/

namespace Spec
variable {σ γ : Type} {rels rels' rels'' : List (Relationship σ)} {p p' p'' : Population}

theorem SameRelationship.trans {r r' r'' : Relationship σ} (h : SameRelationship r r') (h' : SameRelationship r' r'') :
    SameRelationship r r'' :=
  ⟨h'.1.trans h.1, fun e e' => (h'.2 e e').trans (h.2 e e)⟩

theorem SamePopulation.trans (h : SamePopulation rels rels' p p') (h' : SamePopulation rels' rels'' p' p'') :
    SamePopulation rels rels'' p p'' where
  ids := h'.ids.trans h.ids
  size := by rw [h'.size, h.ids]
  attributeNames := h'.attributeNames
  attributes name := (h'.attributes name).trans (h.attributes name)
  relationshipNames := h'.relationshipNames
  noOther name e := h'.noOther name (h.noOther name e)
  relationships name i r hi hr := by
    obtain ⟨j, r', hj, hr', e⟩ := h.relationships name i r hi hr
    obtain ⟨k, r'', hk, hr'', e'⟩ := h'.relationships name j r' hj hr'
    exact ⟨k, r'', hk, hr'', e.trans e'⟩

theorem SamePopulation.attribute (h : SamePopulation rels rels' p p') (hn : (p.attributes.map Prod.fst).Nodup) {name : String}
    {a : Attribute} : attributeOf p' name a ↔ attributeOf p name a := by
  rw [attributeOf, attributeOf, ← Dict.get?_eq_some_iff h.attributeNames, ← Dict.get?_eq_some_iff hn, h.attributes]

theorem SamePopulation.wf (h : SamePopulation rels rels' p p') (hp : Population.WF p) : Population.WF p' where
  ids := h.ids ▸ hp.ids
  names := h.attributeNames
  values x hx := hp.values x ((h.attribute hp.names (name := x.1) (a := x.2)).1 hx)

end Spec

namespace Music
open Spec World Circus Cdr Shop
variable {σ : Type} {env : Env σ (AnyGen σ)} {w w' : World σ (AnyGen σ)} {c c' : Circus σ (AnyGen σ)}
  {R : List (List (Val × Val))} {P : List Population} {S : List (String × String)} {D G : Dict String Nat}
  {rels rels' : List (Relationship σ)} {songs songs' : Population}

theorem catalogue_same (h : SamePopulation rels rels' songs songs') (hn : (songs.attributes.map Prod.fst).Nodup) {n : Nat}
    {a : SeqGen} {t : List (Val × Cell)} {L : List (Val × Val)} (hc : Catalogue n a t L songs) : Catalogue n a t L songs' where
  ids := hc.ids
  count := hc.count
  genre x hx := by
    obtain ⟨c, h1, b, h2, h3⟩ := hc.genre x hx
    exact ⟨c, h1, b, (h.attribute hn).2 h2, h3⟩
  members i := by rw [h.ids]; exact hc.members i
  known name hm := by
    obtain ⟨b, h1, h2⟩ := hc.known name hm
    exact ⟨b, (h.attribute hn).2 h1, by rw [h.ids]; exact h2⟩

theorem whole_same (h : SamePopulation rels rels' songs songs') (hn : (songs.attributes.map Prod.fst).Nodup) {name : String}
    (hw : Whole songs name) : Whole songs' name :=
  fun b hb => hw b ((h.attribute hn).1 hb)

theorem filled_same {r r' : Relationship σ} {L : List (Val × Val)} (h : SameRelationship r r') (hr : Snd.Filled env r L)
    (hr' : Relationship.Reachable env.R r') : Snd.Filled env r' L :=
  ⟨hr', fun o => ((h.2 o o).map _).trans (hr.2 o)⟩

theorem ones_same (h : ∀ r' ∈ w'.rels, ∃ r ∈ w.rels, SameRelationship r r') (ho : Ones w) : Ones w' := by
  intro r' hr' o x hx
  obtain ⟨r, hr, hs⟩ := h r' hr'
  exact ho r hr o x ((hs.2 o o).mem_iff.1 hx)

theorem labelled_same {names : List String} (h : SamePopulation rels rels' songs songs') (hl : Labelled names songs) :
    Labelled names songs' := by
  refine ⟨h.wf hl.1, fun name hn => ?_⟩
  obtain ⟨x, h1, h2⟩ := hl.2 name hn
  exact ⟨x, (h.attribute hl.1.names).2 h1, by rw [h.ids]; exact h2⟩

/-- the world of a circus that has no story -/
theorem stage_of (hr : ∀ r ∈ w.rels, Relationship.Reachable env.R r) (hp : ∀ p ∈ w.pops, Population.WF p)
    (hs : w.stories = []) {j : Nat} {r : Relationship σ} {L : List (Val × Val)} (hj : w.rels[j]? = some r)
    (hL : Snd.Filled env r L) : ∃ R, R[j]? = some L ∧ Stage env R w.pops [] w := by
  have hlt := (List.getElem?_eq_some_iff.1 hj).1
  refine ⟨(w.rels.map fun r => (r.get_relations env.orders).map fun x => (x.1, x.2.1)).set j L, ?_, ?_, rfl, ?_, hp, ?_⟩
  · rw [List.getElem?_set_self (by simpa using hlt)]
  · rw [List.forall₂_iff_get]
    refine ⟨by simp, fun i h1 h2 => ?_⟩
    by_cases e : i = j
    · subst e
      have : w.rels.get ⟨i, h1⟩ = r := by
        have := (List.getElem?_eq_some_iff.1 hj).2
        exact this
      rw [this, List.get_eq_getElem, List.getElem_set_self]
      exact hL
    · rw [List.get_eq_getElem, List.get_eq_getElem, List.getElem_set_ne (fun h => e h.symm), List.getElem_map]
      exact ⟨hr _ (List.getElem_mem _), fun o => (Relationship.get_relations_env_perm _ _ _).map _⟩
  · rw [hs]
    rfl
  · rw [hs]
    simp

end Music

/-! ### Two populations in a namespace -/

namespace Db
open Spec Population FS
variable {σ γ : Type} {D : DbFormat γ}

theorem aside_ok {W S α : Type} {a : Act S α} {s : S} {w w' : W} {x : α × S}
    (h : (Act.aside a s : Act W (α × S)) w = .ok x w') : w' = w ∧ a s = .ok x.1 x.2 := by
  rw [Act.aside] at h
  cases e : a s with
  | ok r s1 =>
    rw [e] at h
    obtain ⟨rfl, rfl⟩ := Act.pure_eq_ok.1 h
    exact ⟨rfl, rfl⟩
  | error e1 s1 =>
    rw [e] at h
    cases h

theorem below_step {db : Path} {ns : String} {q : Path} (h : Below q (db ++ [ns])) (h' : ¬ Below (db ++ [ns]) q) :
    Below q db := by
  obtain ⟨r, hr⟩ := h
  rcases List.eq_nil_or_concat r with rfl | ⟨r', x, rfl⟩
  · exact absurd ⟨[], by rw [hr]; simp⟩ h'
  · rw [List.concat_eq_append, ← List.append_assoc] at hr
    exact ⟨r', (List.append_inj' hr rfl).1⟩

theorem below_trans {p q r : Path} (h : Below p q) (h' : Below q r) : Below p r := by
  obtain ⟨x, rfl⟩ := h
  obtain ⟨y, rfl⟩ := h'
  exact ⟨x ++ y, by simp⟩

/-- two paths on the way to a third: one is above the other -/
theorem below_total {p q r : Path} (h : Below p r) (h' : Below q r) : Below p q ∨ Below q p := by
  obtain ⟨x, rfl⟩ := h
  obtain ⟨y, hy⟩ := h'
  rcases List.append_eq_append_iff.1 hy with ⟨z, e, -⟩ | ⟨z, e, -⟩
  · exact .inl ⟨z, e⟩
  · exact .inr ⟨z, e⟩

/-- the namespace is removed, then two populations are saved in it -/
theorem saveTwo_spec (so : SetOrder String) {fuel d : Nat} (orders : Orders) (db : Path) {w : World σ γ} {k k' : Nat}
    {p p' : Population} (hk : w.pops[k]? = some p) (hk' : w.pops[k']? = some p') (ns : String) {id id' : String}
    (hid : id ≠ id') {rt rt' : List (String × Text)} (hrt : RelTexts D.text orders w.rels p rt)
    (hrt' : RelTexts D.text orders w.rels p' rt') (ha : (p.attributes.map Prod.fst).Nodup)
    (hr : (p.relationships.map Prod.fst).Nodup) (ha' : (p'.attributes.map Prod.fst).Nodup)
    (hr' : (p'.relationships.map Prod.fst).Nodup) (fs : FS) (ht : Tree fs) (hc : Creatable fs db)
    (hd : DepthBelow fs (db ++ [ns]) d) (hf : d < fuel) :
    ∃ fs1 fs2 fs', removeNamespace so fuel db ns fs = .ok () fs1 ∧
      savePopulation D so fuel orders db w k ns id fs1 = .ok () fs2 ∧
      savePopulation D so fuel orders db w k' ns id' fs2 = .ok () fs' ∧ Tree fs' ∧
      (∀ r, Dict.get? fs' (populationsFolder db ns ++ [id] ++ r) =
        popView (idsText D.text p.ids) (attrTexts D.text p) rt r) ∧
      (∀ r, Dict.get? fs' (populationsFolder db ns ++ [id'] ++ r) =
        popView (idsText D.text p'.ids) (attrTexts D.text p') rt' r) ∧
      ∀ q, ¬ Below (db ++ [ns]) q → Dict.get? fs' q = Dict.get? fs q ∨ Below q db ∧ Dict.get? fs' q = some .dir := by
  have e : populationsFolder db ns = db ++ [ns] ++ ["populations"] := by simp [populationsFolder, namespaceFolder]
  have hns : ∀ x, Below (db ++ [ns]) (populationsFolder db ns ++ [x]) := fun x => ⟨["populations", x], by rw [e]; simp⟩
  obtain ⟨fs1, h1, t1, -, h2, h3, -⟩ := C128_remove so fuel d db ns fs ht hd hf
  have same1 : ∀ q, ¬ Below (db ++ [ns]) q → Dict.get? fs1 q = Dict.get? fs q := by
    intro q hq
    cases hg : Dict.get? fs q with
    | some n => exact (FS.get?_iff t1.unique).2 ((h3 q hq n).2 ((FS.get?_iff ht.unique).1 hg))
    | none =>
      rw [FS.get?_none_iff] at hg ⊢
      exact fun n hn => hg n ((h3 q hq n).1 hn)
  have gone : ∀ q, Below (db ++ [ns]) q → ∀ n, ¬ At fs1 q n := by
    rintro q ⟨r, rfl⟩ n hn
    exact h2 r n (by simpa using hn)
  have c1 : Creatable fs1 (populationsFolder db ns) := by
    refine ⟨(h3 [] (fun ⟨r, hr⟩ => by simp at hr) _).2 hc.1, fun q n hq hn => ?_⟩
    by_cases hb : Below (db ++ [ns]) q
    · exact absurd hn (gone q hb n)
    · rcases below_total hq (⟨["populations"], e⟩ : Below (db ++ [ns]) _) with h | h
      · exact hc.2 q n (below_step h hb) ((h3 q hb n).1 hn)
      · exact absurd h hb
  obtain ⟨fs2, h4, s2⟩ := savePopulation_spec (D := D) (d := d) so orders db hk ns id hrt ha hr fs1 t1 c1
    (fun r n hn => absurd hn (gone _ (below_trans (hns id) ⟨r, rfl⟩) n)) hf
  have apart : ∀ x y : String, x ≠ y → ∀ r, ¬ Below (populationsFolder db ns ++ [x]) (populationsFolder db ns ++ [y] ++ r) := by
    rintro x y hxy r ⟨z, hz⟩
    rw [List.append_assoc, List.append_assoc, List.append_cancel_left_eq] at hz
    simp only [List.cons_append, List.nil_append, List.cons.injEq] at hz
    exact hxy hz.1.symm
  have apart' : ∀ x y : String, x ≠ y → ∀ r, ¬ Below (populationsFolder db ns ++ [y] ++ r) (populationsFolder db ns ++ [x]) := by
    intro x y hxy r h
    exact apart y x (fun e => hxy e.symm) [] (by rw [List.append_nil]; exact below_trans ⟨r, rfl⟩ h)
  have c2 : Creatable fs2 (populationsFolder db ns) := by
    have up : ∀ q, Below q (populationsFolder db ns) → Dict.get? fs2 q = some .dir := by
      intro q hq
      refine s2.above q ?_ (below_trans hq ⟨[id], rfl⟩)
      rintro ⟨r, rfl⟩
      obtain ⟨r', hr'⟩ := hq
      have := congrArg List.length hr'
      simp only [List.length_append, List.length_singleton] at this
      omega
    refine ⟨Dict.get?_mem (up [] ⟨_, rfl⟩), fun q n hq hn => ?_⟩
    have := (FS.get?_iff s2.tree.unique).2 hn
    rw [up q hq] at this
    cases this
    rfl
  obtain ⟨fs3, h5, s3⟩ := savePopulation_spec (D := D) (d := d) so orders db hk' ns id' hrt' ha' hr' fs2 s2.tree c2
    (fun r n hn => by
      have := (FS.get?_iff s2.tree.unique).2 hn
      rw [s2.outside _ (apart id id' hid r) (apart' id id' hid r)] at this
      exact absurd (Dict.get?_mem this) (gone _ (below_trans (hns id') ⟨r, rfl⟩) n)) hf
  refine ⟨fs1, fs2, fs3, h1, h4, h5, s3.tree, fun r => ?_, s3.inside, fun q hq => ?_⟩
  · rw [s3.outside _ (apart id' id (fun e => hid e.symm) r) (apart' id' id (fun e => hid e.symm) r)]
    exact s2.inside r
  · have hn : ∀ x, ¬ Below (populationsFolder db ns ++ [x]) q := fun x h => hq (below_trans (hns x) h)
    have hup : ∀ x, Below q (populationsFolder db ns ++ [x]) → Below q db := fun x h => by
      rcases below_total h (hns x) with h | h
      · exact below_step h hq
      · exact absurd h hq
    by_cases b3 : Below q (populationsFolder db ns ++ [id'])
    · exact .inr ⟨hup _ b3, s3.above q (hn _) b3⟩
    · rw [s3.outside q (hn _) b3]
      by_cases b2 : Below q (populationsFolder db ns ++ [id])
      · exact .inr ⟨hup _ b2, s2.above q (hn _) b2⟩
      · exact .inl ((s2.outside q (hn _) b2).trans (same1 q hq))

end Db
end Trumania
