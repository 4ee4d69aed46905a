import Verif.Proofs.MusicDb

/-!
# C134: the example of songs whose populations and circus go through the files (examples/tutorial/example4.py)
-/

namespace Trumania
namespace Music
open Spec World Circus Cdr Shop
variable {σ : Type} {env : Env σ (AnyGen σ)} {w w' : World σ (AnyGen σ)} {c c' : Circus σ (AnyGen σ)}

/-- what the circus of the example has, with the pairs `L` of a genre and a song of it, and the names `x` of the genres -/
structure Carries (env : Env σ (AnyGen σ)) (p : Params) (b a u : SeqGen) (x : Attribute) (L : List (Val × Val))
    (c : Circus σ (AnyGen σ)) : Prop where
  genres : ∃ i q j r, Dict.get? c.populations "music_repository" = some i ∧ c.world.pops[i]? = some q ∧
    q.ids = idsFrom b p.nGenres ∧ attributeOf q "genre_name" x ∧ Dict.get? q.relationships "songs" = some j ∧
    c.world.rels[j]? = some r ∧ Snd.Filled env r L
  songs : ∃ i q, Dict.get? c.populations "songs" = some i ∧ c.world.pops[i]? = some q ∧
    Catalogue p.nSongs a x.table L q ∧ Whole q "recording_year" ∧ Whole q "duration_seconds"
  users : ∃ i q, Dict.get? c.populations "user" = some i ∧ c.world.pops[i]? = some q ∧ q.ids = idsFrom u p.nUsers ∧
    Labelled ["FIRST_NAME", "LAST_NAME"] q
  wf : ∀ p ∈ c.world.pops, Population.WF p
  ones : Ones c.world

theorem addListener_name {p : Params} {g : Parts (AnyGen σ)} {x : Unit} (h : addListener env p g c = .ok x c') :
    c'.name = c.name ∧ c'.step = c.step := by
  rw [addListener] at h
  obtain ⟨r1, c1, h1, h⟩ := Act.bind_eq_ok.1 h
  obtain ⟨u1, -, rfl⟩ := onWorld_ok h1
  obtain ⟨r2, c2, h2, h⟩ := Act.bind_eq_ok.1 h
  obtain ⟨u3, -, rfl⟩ := onWorld_ok h
  rw [createPopulation, Act.bind_ok (FS.get_ok _)] at h2
  split at h2
  · cases h2
  · obtain ⟨r3, c3, h3, h2⟩ := Act.bind_eq_ok.1 h2
    obtain ⟨u4, -, rfl⟩ := onWorld_ok h3
    obtain ⟨r4, c4, h4, h2⟩ := Act.bind_eq_ok.1 h2
    obtain ⟨u5, -, rfl⟩ := onWorld_ok h4
    obtain ⟨r5, c5, h5, h2⟩ := Act.bind_eq_ok.1 h2
    cases h5
    cases h2
    exact ⟨rfl, rfl⟩

theorem above_not {q db : Path} {ns : String} (h : Below q db) : ¬ Below (db ++ [ns]) q := by
  rintro ⟨r, rfl⟩
  obtain ⟨r', hr'⟩ := h
  have := congrArg List.length hr'
  simp only [List.length_append, List.length_singleton] at this
  omega

/-- the first step: the files, then the circus -/
theorem savedStep1_spec (hsem : env.sem = AnyGen.sem env.R) {o : Place (AnyGen σ)} (hF : o.format.text.Lawful) {p : Params}
    {g : Parts (AnyGen σ)} {b a u : SeqGen} (hg : g.Usual b a u) {ks : Nat × Nat}
    (hw : makeSongs env p g (noCircus env) = .ok ks w) (hp : ∀ q ∈ w.pops, StorablePopulation o.format.text env.orders w.rels q)
    {fs fs' : FS} (ht : Tree fs) (hc : Creatable fs o.db) {d : Nat} (hd : DepthBelow fs o.db d) (hf : d < o.fuel)
    (h : savedStep1 env o p g fs = .ok c fs') : ∃ x L,
      x.table = (idsFrom b p.nGenres).zip (p.genreNames.map Cell.str) ∧ x.table.map Prod.fst = idsFrom b p.nGenres ∧
      Carries env p b a u x L c ∧ c.name = "example4_circus" ∧ c.step = o.step ∧ Tree fs' ∧ Creatable fs' o.db ∧
      DepthBelow fs' (o.db ++ ["example4_circus"]) d := by
  obtain ⟨rfl, x, L, songs, hx, hk, hcat, hint, s0, o0⟩ := makeSongs_stage hsem hg hw
  have hpops := s0.pops
  obtain ⟨q, hq⟩ : ∃ q : Population, q = ⟨idsFrom b p.nGenres, p.nGenres, [("genre_name", x)], [("songs", 0)]⟩ := ⟨_, rfl⟩
  rw [← hq] at hpops s0
  have p0 : StorablePopulation o.format.text env.orders w.rels q := hp q (by rw [hpops]; simp)
  have p1 : StorablePopulation o.format.text env.orders w.rels songs := hp songs (by rw [hpops]; simp)
  obtain ⟨rt, hrt⟩ := Population.relTexts_exists p0
  obtain ⟨rt', hrt'⟩ := Population.relTexts_exists p1
  obtain ⟨fs1, fs2, fs3, k1, k2, k3, t3, v0, v1, hrest⟩ := Db.saveTwo_spec (D := o.format) o.so env.orders o.db
    (k := 0) (k' := 1) (by rw [hpops]; rfl) (by rw [hpops]; rfl) "tutorial_example4" (id := "music_repository") (id' := "songs")
    (by decide) hrt hrt' p0.attributeNames p0.relationshipNames p1.attributeNames p1.relationshipNames fs ht hc
    (fun r n hr => by
      have := hd (["tutorial_example4"] ++ r) n (by rw [← List.append_assoc]; exact hr)
      rw [List.length_append] at this
      omega) hf
  rw [savedStep1] at h
  obtain ⟨⟨⟨r1, r2⟩, w1⟩, f1, j1, h⟩ := Act.bind_eq_ok.1 h
  obtain ⟨rfl, j2⟩ := Db.aside_ok j1
  rw [hw] at j2
  obtain ⟨ea, ew⟩ := EStateM.Result.ok.inj j2
  change (0, 1) = (r1, r2) at ea
  change w = w1 at ew
  cases ea
  subst ew
  dsimp only at h
  rw [Act.bind_ok k1, Act.bind_ok k2, Act.bind_ok k3] at h
  obtain ⟨c0, f4, j3, h⟩ := Act.bind_eq_ok.1 h
  obtain ⟨j4, rfl⟩ := Act.ofPy_eq_ok.1 j3
  obtain ⟨n1, l0, n2, -, -⟩ := new_site (env := env) j4
  have hname : c0.name = "example4_circus" ∧ c0.step = o.step := by
    rw [Circus.new] at j4
    obtain ⟨_, -, j5⟩ := bind_eq_ok.1 j4
    cases j5
    exact ⟨rfl, rfl⟩
  obtain ⟨A, a1, a2, a3⟩ := Db.samePopulation_attached hF o.so env.R env.orders env.orders p0 hrt v0 c0.world.rels
  obtain ⟨c1, f5, j5, h⟩ := Act.bind_eq_ok.1 h
  rw [Db.loadPopulation, Act.bind_ok (FS.get_ok _), a1] at j5
  obtain ⟨rfl, rfl⟩ := Act.pure_eq_ok.1 j5
  obtain ⟨B, b1, b2, b3⟩ := Db.samePopulation_attached hF o.so env.R env.orders env.orders p1 hrt' v1
    (Db.attachLoaded c0 "music_repository" A).world.rels
  obtain ⟨c2, f6, j6, h⟩ := Act.bind_eq_ok.1 h
  rw [Db.loadPopulation, Act.bind_ok (FS.get_ok _), b1] at j6
  obtain ⟨rfl, rfl⟩ := Act.pure_eq_ok.1 j6
  obtain ⟨⟨u1, c3⟩, f7, j7, h'⟩ := Act.bind_eq_ok.1 h
  obtain ⟨rfl, j8⟩ := Db.aside_ok j7
  obtain ⟨rfl, rfl⟩ := Act.pure_eq_ok.1 h'
  replace a2 := Db.samePopulation_extend (ext := B.relationships.map Prod.snd) a2
  have e1 := n1.stage.pops
  have e2 := n1.pops
  have e3 : c0.world.rels = [] := by
    have := n1.stage.rels
    generalize c0.world.rels = l at this
    cases this
    rfl
  obtain ⟨r, hr, hrL⟩ : ∃ r, w.rels[0]? = some r ∧ Snd.Filled env r L := by
    have := s0.rels
    generalize w.rels = l at this
    obtain - | ⟨h1, -⟩ := this
    exact ⟨_, rfl, h1⟩
  obtain ⟨c2, hc2⟩ : ∃ c2, c2 = Db.attachLoaded (Db.attachLoaded c0 "music_repository" A) "songs" B := ⟨_, rfl⟩
  obtain ⟨q', songs', f1, f2, f3⟩ : ∃ q' songs', c2.world.pops = [q', songs'] ∧
      SamePopulation w.rels c2.world.rels q q' ∧ SamePopulation w.rels c2.world.rels songs songs' :=
    ⟨_, _, by rw [hc2]; show (c0.world.pops ++ [_]) ++ [_] = _; rw [e1]; rfl, by rw [hc2]; exact a2, by rw [hc2]; exact b2⟩
  have f4 : c2.populations = [("music_repository", 0), ("songs", 1)] := by
    rw [hc2]
    show (c0.populations.set _ c0.world.pops.length).set _ (c0.world.pops ++ [_]).length = _
    rw [e1, e2]
    rfl
  have f5 : ∀ r ∈ c2.world.rels, Relationship.Reachable env.R r := by
    rw [hc2]
    show ∀ r ∈ (c0.world.rels ++ A.relationships.map Prod.snd) ++ B.relationships.map Prod.snd, _
    rw [e3]
    intro r hr
    rcases List.mem_append.1 hr with hr | hr
    · exact (Db.loadFrom_reachable a1 r hr).1
    · exact (Db.loadFrom_reachable b1 r hr).1
  have f6 : ∀ r' ∈ c2.world.rels, ∃ r ∈ w.rels, SameRelationship r r' := by
    rw [hc2]
    show ∀ r ∈ (c0.world.rels ++ A.relationships.map Prod.snd) ++ B.relationships.map Prod.snd, _
    rw [e3]
    intro r hr
    rcases List.mem_append.1 hr with hr | hr
    · exact a3 r hr
    · exact b3 r hr
  rw [← hc2] at j8
  have g0 : c2.world.stories = [] := by rw [hc2]; exact n2
  have g1 : c2.world.gens.length = 0 := by rw [hc2]; exact l0
  have g2 : c2.name = "example4_circus" ∧ c2.step = o.step := by rw [hc2]; exact hname
  have wf0 := f2.wf (s0.wf q (by simp))
  have wf1 := f3.wf (s0.wf songs (by simp))
  obtain ⟨j, r', hj, hr', hsame⟩ := f2.relationships "songs" 0 r (by rw [hq]; rfl) hr
  obtain ⟨R, hR, st⟩ := stage_of (w := c2.world) f5 (by rw [f1]; simp [wf0, wf1]) g0 hr'
    (filled_same hsame hrL (f5 _ (List.mem_of_getElem? hr')))
  obtain ⟨ids, y1, y2, hids, s3, k9, hk9⟩ := addListener_site (c := c2) (D := c2.populations) (G := c2.generators) ⟨st, rfl, rfl⟩
    (by omega) j8
  obtain rfl := seq_ids hsem hg.users hids
  rw [f1, f4] at s3
  have s4 := s3.stage.pops
  have s5 : c3.populations = [("music_repository", 0), ("songs", 1), ("user", 2)] := s3.pops
  have s6 := s3.stage.rels
  obtain ⟨r3, hr3, hr4⟩ : ∃ r, c3.world.rels[j]? = some r ∧ Snd.Filled env r L := by
    obtain ⟨hlt, hget⟩ := List.getElem?_eq_some_iff.1 hR
    rw [List.forall₂_iff_get] at s6
    have hlt' : j < c3.world.rels.length := by rw [s6.1]; exact hlt
    refine ⟨c3.world.rels[j], List.getElem?_eq_getElem hlt', ?_⟩
    have := s6.2 j hlt' hlt
    rw [List.get_eq_getElem, List.get_eq_getElem, hget] at this
    exact this
  refine ⟨x, L, hx, hk, ⟨⟨0, q', j, r3, ?_, ?_, ?_, ?_, hj, hr3, hr4⟩, ⟨1, songs', ?_, ?_, ?_, ?_, ?_⟩, 
    ⟨2, ⟨idsFrom u p.nUsers, p.nUsers, [("FIRST_NAME", y1), ("LAST_NAME", y2)], []⟩, ?_, ?_, rfl, ?_⟩, ?_, ?_⟩,
    ?_, ?_, t3, ?_, ?_⟩
  · rw [s5]; rfl
  · rw [s4]; rfl
  · rw [f2.ids, hq]
  · rw [f2.attribute (s0.wf q (by simp)).names, hq]
    simp [attributeOf]
  · rw [s5]; rfl
  · rw [s4]; rfl
  · exact catalogue_same f3 (s0.wf songs (by simp)).names hcat
  · exact whole_same f3 (s0.wf songs (by simp)).names hint.1
  · exact whole_same f3 (s0.wf songs (by simp)).names hint.2
  · rw [s5]; rfl
  · rw [s4]; rfl
  · exact labelled_users (s3.stage.wf _ (by simp)) hk9
  · rw [s4]
    exact s3.stage.wf
  · exact k9.ones (ones_same f6 o0)
  · exact (addListener_name j8).1.trans g2.1
  · exact (addListener_name j8).2.trans g2.2
  · refine ⟨?_, fun q n hq hn => ?_⟩
    · rcases hrest [] (above_not ⟨_, rfl⟩) with e | ⟨-, e⟩
      · exact Dict.get?_mem (e.trans ((FS.get?_iff ht.unique).2 hc.1))
      · exact Dict.get?_mem e
    · rcases hrest q (above_not hq) with e | ⟨-, e⟩
      · exact hc.2 q n hq (Dict.get?_mem (e ▸ (FS.get?_iff t3.unique).2 hn))
      · have := (FS.get?_iff t3.unique).2 hn
        rw [e] at this
        cases this
        rfl
  · intro r n hr
    have hn : ¬ Below (o.db ++ ["tutorial_example4"]) (o.db ++ ["example4_circus"] ++ r) := by
      rintro ⟨z, hz⟩
      rw [List.append_assoc, List.append_assoc, List.append_cancel_left_eq] at hz
      simp at hz
    rcases hrest _ hn with e | ⟨⟨z, hz⟩, -⟩
    · have := hd (["example4_circus"] ++ r) n (Dict.get?_mem (by
        rw [← List.append_assoc, ← e]; exact (FS.get?_iff t3.unique).2 hr))
      rw [List.length_append] at this
      omega
    · have := congrArg List.length hz
      simp at this

/-- what the circus that will run is -/
structure Staged (env : Env σ (AnyGen σ)) (o : Place (AnyGen σ)) (p : Params) (g : Parts (AnyGen σ)) (b a u : SeqGen) (sc : Scene)
    (c : Circus σ (AnyGen σ)) (x : Attribute) (L : List (Val × Val)) (q songs qu : Population) : Prop where
  kind : sc.kind = .detailed
  names : x.table = (idsFrom b p.nGenres).zip (p.genreNames.map Cell.str)
  ids : x.table.map Prod.fst = idsFrom b p.nGenres
  site : ∃ R P D G, Site env R P [("listen_events", "UID"), ("share_events", "UID")] D G c ∧ R[sc.rel]? = some L ∧
    P[sc.repo]? = some q ∧ P[sc.songs]? = some songs ∧ P[sc.users]? = some qu
  genres : q.ids = idsFrom b p.nGenres ∧ attributeOf q "genre_name" x
  catalogue : Catalogue p.nSongs a x.table L songs ∧ Whole songs "recording_year" ∧ Whole songs "duration_seconds"
  users : qu.ids = idsFrom u p.nUsers ∧ Labelled ["FIRST_NAME", "LAST_NAME"] qu
  drawGenre : ∃ r, Began env c.world (.ref sc.genres) (.choice q.ids none r)
  drawUser : ∃ r, Began env c.world (.ref sc.choice) (.choice qu.ids none r)
  activity : Moderate c.world
  playing : Playing env g qu.ids c.world
  ones : Ones c.world
  step : c.world.clock.step = o.step

theorem savedStep2_spec (hsem : env.sem = AnyGen.sem env.R) {o : Place (AnyGen σ)} (hF : o.format.text.Lawful) {p : Params}
    {g : Parts (AnyGen σ)} {b a u : SeqGen} (hg : g.Usual b a u) {ks : Nat × Nat}
    (hw : makeSongs env p g (noCircus env) = .ok ks w)
    (hp : ∀ q ∈ w.pops, StorablePopulation o.format.text env.orders w.rels q) {fs fs1 fs' : FS} (ht : Tree fs)
    (hc : Creatable fs o.db) {d : Nat} (hd : DepthBelow fs o.db d) (hf : d < o.fuel)
    (h1 : savedStep1 env o p g fs = .ok c fs1) (hs : Storable o.format env.orders c)
    {chains : List (List (Op (World σ (AnyGen σ))))} (h : savedStep2 env o p g fs = .ok (chains, c') fs') :
    ∃ sc x L q songs qu, chains = sc.chains env ∧ Staged env o p g b a u sc c' x L q songs qu := by
  obtain ⟨x, L, hx, hk, hcar, hname, hstep, t1, cr1, d1⟩ := savedStep1_spec hsem hF hg hw hp ht hc hd hf h1
  obtain ⟨fs2, hsave, hload⟩ := Db.C66_restored_partial hF o.so o.fuel d env.orders o.db true c hs fs1 t1 cr1
    (by rw [Db.namespaceFolder, hname]; exact d1) hf (.inr rfl)
  obtain ⟨fresh, c2, hnew, hload, hre⟩ := hload o.so env.R env.orders
  rw [hname] at hload
  rw [savedStep2, Act.bind_ok h1, Act.bind_ok hsave, Act.bind_ok (FS.get_ok _), hload] at h
  replace h : (Act.aside (addDetailed env "songs" g) c2 : Act FS _) fs2 = .ok (chains, c') fs' := h
  obtain ⟨rfl, h2⟩ := Db.aside_ok h
  have hreach := Db.loadFromDb_reachable hload
  have hwf : ∀ p ∈ c2.world.pops, Population.WF p := by
    intro p' hp'
    obtain ⟨n, i, p, -, hi, hsame⟩ := hre.everyPopulation p' hp'
    exact hsame.wf (hcar.wf p (List.mem_of_getElem? hi))
  obtain ⟨i0, q0, j0, r0, a1, a2, a3, a4, a5, a6, a7⟩ := hcar.genres
  obtain ⟨i1, q1, b1, b2, b3, b4, b5⟩ := hcar.songs
  obtain ⟨i2, q2, c1, c3, c4, c5⟩ := hcar.users
  obtain ⟨kr, q, e1, e2, e3⟩ := hre.populations _ _ _ a1 a2
  obtain ⟨ki, songs, f1, f2, f3⟩ := hre.populations _ _ _ b1 b2
  obtain ⟨ku, qu, g1, g2, g3⟩ := hre.populations _ _ _ c1 c3
  obtain ⟨rel, r, m1, m2, m3⟩ := e3.relationships _ _ _ a5 a6
  obtain ⟨R, hR, st⟩ := stage_of (w := c2.world) hreach hwf hre.stories m2
    (filled_same m3 a7 (hreach _ (List.mem_of_getElem? m2)))
  have get_of : ∀ {n : String} {i : Nat}, Dict.get? c2.populations n = some i → Dict.get c2.populations n = .ok i := by
    intro n i e
    rw [Dict.get, e]
  obtain ⟨y, z, sd, sd', rfl, k4, k5, hm, s4, k6, play⟩ := addDetailed_site (c := c2) (G := c2.generators) m1 (get_of e1) e2
    (get_of f1) (get_of g1) g2 ⟨st, rfl, rfl⟩ h2
  obtain ⟨rc, hrc⟩ := hg.choice q.ids none sd
  obtain ⟨rc', hrc'⟩ := hg.choice qu.ids none sd'
  have nm := (hcar.wf q1 (List.mem_of_getElem? b2)).names
  refine ⟨⟨.detailed, ku, y, z, kr, rel, ki⟩, x, L, q, songs, qu, rfl, rfl, hx, hk, ⟨R, _, _, _, s4, hR, e2, f2, g2⟩,
    ⟨e3.ids.trans a3, (e3.attribute (hcar.wf q0 (List.mem_of_getElem? a2)).names).2 a4⟩,
    ⟨catalogue_same f3 nm b3, whole_same f3 nm b4, whole_same f3 nm b5⟩, ⟨g3.ids.trans c4, labelled_same g3 c5⟩,
    ⟨rc, hrc ▸ k4⟩, ⟨rc', hrc' ▸ k5⟩, hm, play (by rw [g3.ids, c4]; exact idsFrom_nodup _ _),
    k6.ones (ones_same hre.everyRelationship hcar.ones), ?_⟩
  obtain ⟨-, -, -, -, d0⟩ := new_site (env := env) hnew
  rw [k6.step, hre.clock]
  exact d0.trans hstep

/-- **C134** The example `example4.py`, when it succeeds, its files can carry what it saves and the genres have songs: the
stories are those of step 4 of `example3.py`, and the genres, their songs with all their attributes, and the users are what
they were when they were made, although the genres and the songs have gone twice through the files. So all that is proved
of the logs of that step (C126) holds for this one. -/
theorem C134_built (hsem : env.sem = AnyGen.sem env.R) {o : Place (AnyGen σ)} (hF : o.format.text.Lawful) {p : Params}
    {g : Parts (AnyGen σ)} {b a u : SeqGen} (hg : g.Usual b a u) (hpos : 0 < p.nSongs) {ks : Nat × Nat}
    (hw : makeSongs env p g (noCircus env) = .ok ks w)
    (hp : ∀ q ∈ w.pops, StorablePopulation o.format.text env.orders w.rels q) {fs fs1 fs' : FS} (ht : Tree fs)
    (hc : Creatable fs o.db) {d : Nat} (hd : DepthBelow fs o.db d) (hf : d < o.fuel)
    (h1 : savedStep1 env o p g fs = .ok c fs1) (hs : Storable o.format env.orders c)
    {chains : List (List (Op (World σ (AnyGen σ))))} (h : savedStep2 env o p g fs = .ok (chains, c') fs') :
    ∃ sc : Scene, sc.kind = .detailed ∧ chains = sc.chains env ∧ Ready env sc c'.world ∧ Opening p b a u sc c'.world := by
  obtain ⟨sc, x, L, q, songs, qu, rfl, hst⟩ := savedStep2_spec hsem hF hg hw hp ht hc hd hf h1 hs h
  obtain ⟨R, P, D, G, s4, hR, e1, e2, e3⟩ := hst.site
  refine ⟨sc, hst.kind, rfl, ?_⟩
  have hlen : x.table.length = p.nGenres := by
    have := congrArg List.length hst.ids
    rwa [List.length_map, length_idsFrom] at this
  obtain ⟨rc, hrc⟩ := hst.drawGenre
  obtain ⟨rc', hrc'⟩ := hst.drawUser
  refine opened s4 hR e1 (by simp) hpos hst.genres.1 hst.genres.2 hst.names e3 hst.users.1
    (by rw [hst.catalogue.1.ids, hlen])
    (fun g hm => hst.catalogue.1.count g (by rw [hst.ids, ← hst.genres.1]; exact hm)) ⟨none, rc, hrc⟩
    (fun _ => ⟨none, rc', hrc'⟩) (fun _ => ⟨songs, e2, ?_, hst.catalogue.2⟩) hst.activity
  rw [← hst.names]
  exact hst.catalogue.1

/-- **C134** Then the run never raises, whatever its duration, provided that there are a genre, songs for each genre and a
user, and that the timers are always numbers. The folder of the logs must be absent or deletable, and no file may be in the
way of its creation. -/
theorem C134_runs (hsem : env.sem = AnyGen.sem env.R) {o : Place (AnyGen σ)} (hF : o.format.text.Lawful) {p : Params}
    {g : Parts (AnyGen σ)} {b a u : SeqGen} (hg : g.Usual b a u) (hn : p.Enough .detailed)
    (htimer : ∀ seed, AlwaysAnswers env (g.timer seed) (fun c => ∃ q, c = .scalar (.num q)) IsAmount) (hstep : 0 < o.step)
    {ks : Nat × Nat} (hw : makeSongs env p g (noCircus env) = .ok ks w)
    (hp : ∀ q ∈ w.pops, StorablePopulation o.format.text env.orders w.rels q) {fs fs1 fs' : FS} (ht : Tree fs)
    (hc : Creatable fs o.db) {d : Nat} (hd : DepthBelow fs o.db d) (hf : d < o.fuel)
    (h1 : savedStep1 env o p g fs = .ok c fs1) (hs : Storable o.format env.orders c)
    {chains : List (List (Op (World σ (AnyGen σ))))} (h : savedStep2 env o p g fs = .ok (chains, c') fs')
    {text : Cell → Text} {folder : Path} (so : SetOrder String) (fuel d' : Nat)
    (duration : Int) (delete : Bool) {fs2 : FS} (htree : Tree fs2) (hroot : At fs2 [] .dir) (hne : folder ≠ [])
    (hway : ∀ q t, Below q folder → At fs2 q (.file t) → q = folder) (hdepth : DepthBelow fs2 folder d') (hfuel : d' < fuel)
    (hdel : delete = true ∨ Absent fs2 folder) :
    ∃ s', Sys.run env text folder so fuel chains duration delete ⟨c', fs2⟩ = .ok () s' := by
  obtain ⟨⟨kind, ku, y, z, kr, rel, ki⟩, x, L, q, songs, qu, rfl, hst⟩ := savedStep2_spec hsem hF hg hw hp ht hc hd hf h1 hs h
  obtain rfl : kind = .detailed := hst.kind
  obtain ⟨R, P, D, G, s4, hR, e1, e2, e3⟩ := hst.site
  obtain ⟨rc, hrc⟩ := hst.drawGenre
  obtain ⟨rc', hrc'⟩ := hst.drawUser
  have hgid : ∀ v ∈ q.ids, v ∈ x.table.map Prod.fst := fun v hv => by rw [hst.ids, ← hst.genres.1]; exact hv
  obtain ⟨hfit, hX⟩ := song_fits (owners := (· ∈ q.ids)) (rel := rel) s4 hR hst.ones
    (has_songs hn.songs fun v hv => hst.catalogue.1.count v (hgid v hv)) hst.playing htimer
  have hcue := cued_of (q := q) (users := ku) (rel := rel) hsem s4 hR e3 hst.users.2
    (by rw [hst.genres.1]; exact ids_ne hn.genres) hrc
  have hsafe := both_safe (genreAndDetails_safe (ks := ki) (songs := songs) hcue (by
      change (c'.world.pops.map _)[ki]? = _
      rw [s4.stage.pops, List.getElem?_map, e2]
      rfl) ⟨s4.stage.wf _ (List.mem_of_getElem? e2), fun name hname => by
        obtain ⟨d, k1, k2⟩ := hst.catalogue.1.known name (by
          simp only [detailNames, List.mem_cons, List.not_mem_nil, or_false] at hname
          rcases hname with rfl | rfl | rfl | rfl <;> simp [songAttributes])
        exact ⟨d, k1, k2⟩⟩
      fun v hv => (hst.catalogue.1.members v).2 hv) (by simp [songCtx, Ctx.names]) hX
    (genOk_gives rfl hrc' (gives_choice hsem (by rw [hst.users.1]; exact ids_ne (hn.users (by simp)))))
  obtain ⟨s', hrun, -⟩ := C101_run so fuel d' duration delete ⟨c', fs2⟩ hfit
    (by show c'.world.clock.step ≠ 0; rw [hst.step]; omega) hsafe htree hroot hne hway hdepth hfuel hdel
  exact ⟨s', hrun⟩

/-! ### A case -/

end Music

namespace Spec

/-- a computable test that a text is kept -/
def keptTextB (F : TextFormat) (s : String) : Bool := decide (∀ c ∈ s.toList, c ≠ '\r' ∧ c ≠ '\x00') && !F.isNa s.toList

theorem keptTextB_iff {F : TextFormat} {s : String} (h : keptTextB F s = true) : KeptText F s := by
  rw [keptTextB, Bool.and_eq_true, decide_eq_true_eq, Bool.not_eq_true'] at h
  exact h

def strWith (t : String → Bool) : Val → Bool
  | .str s => t s
  | _ => false

theorem strWith_iff {t : String → Bool} {v : Val} (h : strWith t v = true) : ∃ s, v = .str s ∧ t s = true := by
  cases v <;> first | exact ⟨_, rfl, h⟩ | cases h

def isNum : Val → Bool
  | .num _ => true
  | _ => false

/-- a computable test that ids are kept -/
def keptIdsB (F : TextFormat) (ids : List Val) : Bool :=
  ids.all (strWith (keptTextB F)) && ids.any (strWith fun s => (F.parse s.toList).isNone)

theorem keptIdsB_iff {F : TextFormat} {ids : List Val} (h : keptIdsB F ids = true) : KeptIds F ids := by
  rw [keptIdsB, Bool.and_eq_true, List.all_eq_true, List.any_eq_true] at h
  obtain ⟨h1, v, hv, h2⟩ := h
  obtain ⟨s, rfl, h3⟩ := strWith_iff h2
  refine .inr ⟨fun v hv => ?_, s, hv, by simpa using h3⟩
  obtain ⟨s, rfl, h3⟩ := strWith_iff (h1 v hv)
  exact ⟨s, rfl, keptTextB_iff h3⟩

/-- a computable test that values are kept -/
def keptValuesB (F : TextFormat) (vs : List Val) : Bool :=
  vs.all isNum || (vs.all (strWith (keptTextB F)) && vs.any (strWith fun s => (F.parse s.toList).isNone) &&
    vs.any (strWith fun s => (F.bool? s.toList).isNone))

theorem keptValuesB_iff {F : TextFormat} {vs : List Val} (h : keptValuesB F vs = true) : KeptValues F vs := by
  rw [keptValuesB, Bool.or_eq_true, Bool.and_eq_true, Bool.and_eq_true, List.all_eq_true, List.all_eq_true, List.any_eq_true,
    List.any_eq_true] at h
  rcases h with h | ⟨⟨h1, v, hv, h2⟩, v', hv', h3⟩
  · refine .inl fun v hv => .inr ?_
    have := h v hv
    cases v <;> first | exact ⟨_, rfl⟩ | cases this
  · obtain ⟨s, rfl, h4⟩ := strWith_iff h2
    obtain ⟨s', rfl, h5⟩ := strWith_iff h3
    refine .inr (.inr ⟨fun v hv => .inr ?_, ⟨s, hv, by simpa using h4⟩, s', hv', by simpa using h5⟩)
    obtain ⟨s, rfl, h3⟩ := strWith_iff (h1 v hv)
    exact ⟨s, rfl, keptTextB_iff h3⟩

def scalars (l : List Cell) : Option (List Val) :=
  l.mapM fun c => match c with
    | .scalar v => some v
    | _ => none

theorem scalars_iff {l : List Cell} {vs : List Val} (h : scalars l = some vs) : l = vs.map Cell.scalar := by
  induction l generalizing vs with
  | nil => cases h; rfl
  | cons c l ih =>
    rw [scalars, List.mapM_cons] at h
    cases c with
    | scalar v =>
      obtain ⟨ws, h1, h2⟩ := Option.bind_eq_some_iff.1 h
      cases h1
      obtain ⟨ws', h3, h4⟩ := Option.bind_eq_some_iff.1 h2
      cases h4
      rw [List.map_cons, ← ih h3]
    | _ => cases h

/-- a computable test that a population can be stored -/
def storableB {σ : Type} (F : TextFormat) (env : Orders) (rels : List (Relationship σ)) (p : Population) : Bool :=
  keptIdsB F p.ids && p.ids.all (strWith fun s => s.toList.any fun c => c ≠ ' ' && c ≠ '\t') &&
  decide ((p.attributes.map Prod.fst).Nodup) &&
  (p.attributes.all fun x => keptValuesB F (x.2.table.map Prod.fst) &&
    (match scalars (x.2.table.map Prod.snd) with
      | some vs => keptValuesB F vs
      | none => false)) &&
  decide ((p.relationships.map Prod.fst).Nodup) &&
  (p.relationships.all fun x => match rels[x.2]? with
    | some r => !(r.get_relations env).isEmpty &&
      keptIdsB F (((r.get_relations env).map fun x => x.1) ++ (r.get_relations env).map fun x => x.2.1)
    | none => false)

theorem storableB_iff {σ : Type} {F : TextFormat} {env : Orders} {rels : List (Relationship σ)} {p : Population}
    (h : storableB F env rels p = true) : StorablePopulation F env rels p := by
  simp only [storableB, Bool.and_eq_true, decide_eq_true_eq, List.all_eq_true] at h
  obtain ⟨⟨⟨⟨⟨h1, h2⟩, h3⟩, h4⟩, h5⟩, h6⟩ := h
  refine ⟨keptIdsB_iff h1, fun s hs => ?_, h3, fun x hx => ?_, h5, fun x hx => ?_⟩
  · obtain ⟨s', e, h⟩ := strWith_iff (h2 _ hs)
    cases e
    rw [List.any_eq_true] at h
    obtain ⟨c, hc, h⟩ := h
    exact ⟨c, hc, by simpa using h⟩
  · obtain ⟨h7, h8⟩ := h4 x hx
    refine ⟨keptValuesB_iff h7, ?_⟩
    cases e : scalars (x.2.table.map Prod.snd) with
    | some vs =>
      rw [e] at h8
      exact ⟨vs, scalars_iff e, keptValuesB_iff h8⟩
    | none => rw [e] at h8; cases h8
  · have h7 := h6 x hx
    cases e : rels[x.2]? with
    | some r =>
      rw [e] at h7
      dsimp only at h7
      rw [Bool.and_eq_true] at h7
      refine ⟨r, rfl, ⟨fun e => ?_, keptIdsB_iff h7.2⟩⟩
      rw [e] at h7
      cases h7.1
    | none => rw [e] at h7; cases h7

end Spec

namespace Music
open Spec World Circus Cdr Shop

/-- a configuration in unary, and no file of a generator -/
def exPlace : Place (AnyGen Nat) where
  format := {
    text := Decimal.format
    dumpConfig := fun a b c => List.replicate a.toNat 'a' ++ List.replicate b.toNat 'b' ++ List.replicate c.toNat 'c'
    loadConfig := fun t => .ok (t.count 'a', t.count 'b', t.count 'c')
    className := fun _ => "SequencialGenerator"
    dumpGen := fun _ => .error .valueError
    loadGen := fun _ _ => .error .valueError }
  so := SetOrder.dedup String
  fuel := 9
  db := ["db"]
  start := 2
  step := 7

theorem exConfig {a b c : Int} (ha : 0 ≤ a) (hb : 0 ≤ b) (hc : 0 ≤ c) :
    exPlace.format.loadConfig (exPlace.format.dumpConfig a b c) = .ok (a, b, c) := by
  simp only [exPlace, List.count_append, List.count_replicate]
  simp [ha, hb, hc]

/-- what an action gives, if it succeeds -/
def okOf {E W α : Type} : EStateM.Result E W α → Option (α × W)
  | .ok a w => some (a, w)
  | .error .. => none

theorem okOf_iff {E W α : Type} {r : EStateM.Result E W α} {x : α × W} (h : okOf r = some x) : r = .ok x.1 x.2 := by
  cases r with
  | ok a w => cases h; rfl
  | error e w => cases h

/-- the populations that are made -/
def exMade : Option ((Nat × Nat) × World Nat (AnyGen Nat)) := okOf (makeSongs exEnv exParams exParts (noCircus exEnv))

def exStep1 : Option (Circus Nat (AnyGen Nat) × FS) := okOf (savedStep1 exEnv exPlace exParams exParts Db.exDisk)

def exStep2 : Option ((List (List (Op (World Nat (AnyGen Nat)))) × Circus Nat (AnyGen Nat)) × FS) :=
  okOf (savedStep2 exEnv exPlace exParams exParts Db.exDisk)

theorem exMade_ok : (exMade.map fun x => x.2.pops.all (storableB Decimal.format exEnv.orders x.2.rels)) = some true := by
  decide +kernel

theorem exStep1_pops : (exStep1.map fun x => (x.1.populations : List (String × Nat))) =
    some [("music_repository", 0), ("songs", 1), ("user", 2)] := by
  decide +kernel

theorem exStep1_rest : (exStep1.map fun x => ((x.1.generators : List (String × Nat)), x.1.masterSeed, x.1.start, x.1.step,
      x.1.world.pops.length)) = some ([], 12345, 2, 7, 3) := by
  decide +kernel

theorem exStep1_ok : (exStep1.map fun x => x.1.world.pops.all (storableB Decimal.format exEnv.orders x.1.world.rels)) =
    some true := by
  decide +kernel

theorem exStep2_ok : (exStep2.map fun x => (x.1.2.populations : List (String × Nat))) =
    some [("music_repository", 0), ("songs", 1), ("user", 2)] := by
  decide +kernel

/-- the hypotheses of C134 hold of this run of the example -/
theorem exSaved : ∃ ks w d c fs1 chains c' fs', makeSongs exEnv exParams exParts (noCircus exEnv) = .ok ks w ∧
    (∀ q ∈ w.pops, StorablePopulation exPlace.format.text exEnv.orders w.rels q) ∧ Tree Db.exDisk ∧
    Creatable Db.exDisk exPlace.db ∧ DepthBelow Db.exDisk exPlace.db d ∧ d < exPlace.fuel ∧
    savedStep1 exEnv exPlace exParams exParts Db.exDisk = .ok c fs1 ∧ Storable exPlace.format exEnv.orders c ∧
    savedStep2 exEnv exPlace exParams exParts Db.exDisk = .ok (chains, c') fs' := by
  obtain ⟨⟨ks, w⟩, e1, h1⟩ := Option.map_eq_some_iff.1 exMade_ok
  obtain ⟨⟨c, fs1⟩, e2, h2⟩ := Option.map_eq_some_iff.1 exStep1_pops
  have h3 := exStep1_rest
  have h4 := exStep1_ok
  rw [e2] at h3 h4
  obtain ⟨⟨⟨chains, c'⟩, fs2⟩, e3, -⟩ := Option.map_eq_some_iff.1 exStep2_ok
  have h3 := Option.some.inj h3
  have h4 := Option.some.inj h4
  simp only [Prod.mk.injEq] at h3 h2
  obtain ⟨g1, g2, g3, g4, g5⟩ := h3
  simp only [List.all_eq_true] at h1 h4
  refine ⟨ks, w, 1, c, fs1, chains, c', fs2, okOf_iff e1, fun q hq => storableB_iff (h1 q hq), ?_, ?_, ?_, by decide, okOf_iff e2, ?_, okOf_iff e3⟩
  · exact Db.exDisk_ready.1
  · exact Db.exDisk_ready.2.1
  · intro r n h
    simp only [Db.exDisk, exPlace, At, List.mem_cons, Prod.mk.injEq, List.not_mem_nil, or_false] at h
    rcases h with ⟨h, -⟩ | ⟨h, -⟩ | ⟨h, -⟩
    · cases h
    · cases h
      exact Nat.zero_le _
    · cases h
      exact le_refl _
  · refine ⟨?_, by rw [h2]; simp, by rw [h2]; decide, fun x hx => ?_, by rw [g1]; simp, fun x hx => ?_⟩
    · rw [g2, g3, g4]
      exact exConfig (by decide) (by decide) (by decide)
    · have hlt : x.2 < c.world.pops.length := by
        rw [h2] at hx
        simp only [List.mem_cons, List.not_mem_nil, or_false] at hx
        rcases hx with rfl | rfl | rfl <;> omega
      exact ⟨_, List.getElem?_eq_getElem hlt, storableB_iff (h4 _ (List.getElem_mem _))⟩
    · rw [g1] at hx
      cases hx

/-- the run of this example ends, whatever its duration -/
example (duration : Int) : ∃ chains c' fs', savedStep2 exEnv exPlace exParams exParts Db.exDisk = .ok (chains, c') fs' ∧
    ∃ s', Sys.run exEnv exFmt ["logs"] (SetOrder.dedup String) 1 chains duration false ⟨c', [([], .dir)]⟩ = .ok () s' := by
  obtain ⟨ks, w, d, c, fs1, chains, c', fs', h1, h2, h3, h4, h5, h6, h7, h8, h9⟩ := exSaved
  exact ⟨chains, c', fs', h9, C134_runs (env := exEnv) rfl Decimal.lawful exUsual ⟨by decide, by decide, fun _ => by decide⟩
    (fun _ => answers_cyclic rfl _) (by decide) h1 h2 h3 h4 h5 h6 h7 h8 h9 _ _ 0 duration _
    ⟨by decide +kernel, by simp [At]⟩ (by simp [At]) (by simp) (by simp [At]) (by simp [DepthBelow, At]) (by omega)
    (.inr (by simp [Absent, At]))⟩

end Music
end Trumania
