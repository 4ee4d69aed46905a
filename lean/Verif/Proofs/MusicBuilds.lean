import Verif.Proofs.Builds
import Verif.Props.MusicRuns
import Verif.Props.ShopRuns

/-! Helper lemmas: the functions of examples/tutorial/example3.py that do not raise. -/

namespace Trumania
namespace Builds
open Spec World Circus Cdr
open Shop (Site onWorld_ok popNamed_ok)
open Music (Later later_addGenerator later_seeded later_createDrawn later_createStory)
variable {σ : Type} {env : Env σ (AnyGen σ)} {w w' : World σ (AnyGen σ)} {c c' : Circus σ (AnyGen σ)}
  {R : List (List (Val × Val))} {P : List Population} {S : List (String × String)} {D G : Dict String Nat}

theorem ends_popNamed {name : String} {i : Nat} (h : c.populations.get name = .ok i) : Ends (Shop.popNamed name) c := by
  rw [Shop.popNamed]
  exact Ends.bind ⟨c, c, rfl⟩ fun c1 c2 e => by
    cases e
    exact Ends.ofPy h

/-- relations that are grouped by origin -/
theorem ends_grouped {i : Nat} {L : List (Val × Val)} {f : List Val} {t : List (List Val)} (hs : Stage env R P S w)
    (hL : R[i]? = some L) : Ends (addGroupedRelations env i f t) w := by
  obtain ⟨r, hr, hw⟩ := forall₂_at' hs.rels hL
  rw [addGroupedRelations]
  refine Ends.bind ⟨r, w, getRel_eq_ok.2 ⟨hr, rfl⟩⟩ fun r1 w1 h1 => ?_
  obtain ⟨e, rfl⟩ := getRel_eq_ok.1 h1
  rw [hr] at e
  cases e
  have key : ∀ (l : List (Val × List Val)) (r : Relationship σ), Relationship.Reachable env.R r →
      ∃ r', l.foldlM (fun r x => r.add_relations env.orders (List.replicate x.2.length x.1) x.2) r = .ok r' := by
    intro l
    induction l with
    | nil => exact fun r _ => ⟨r, rfl⟩
    | cons x l ih =>
      intro r hr
      obtain ⟨r1, h, -⟩ := add_relations_spec env.orders hr.gwf
        (froms := List.replicate x.2.length x.1) (tos := x.2) (w := .scalar 1) (lengthsOk_scalar (by simp))
      obtain ⟨r', h'⟩ := ih r1 (reachable_addCall env.R hr
        (show AddCall.exec r (.relations _ _ (.scalar 1), env.orders) = .ok r1 from h))
      exact ⟨r', by rw [List.foldlM_cons]; exact bind_eq_ok.2 ⟨r1, h, h'⟩⟩
  obtain ⟨r', h⟩ := key (f.zip t) r hw.1
  exact (Ends.ofPy h).bind fun _ _ _ => ⟨(), _, setRel_eq_ok.2 rfl⟩

theorem ends_itemArrays {r : GenRef} {n : Nat} {a : AnyGen σ} {V : Val → Prop} {l : List Val} (hb : Began env w r a)
    (ha : AlwaysGives env a (IdIn V)) : Ends (Shop.itemArrays env r n l) w := by
  induction l generalizing w with
  | nil => exact Ends.pure
  | cons x l ih =>
    rw [Shop.itemArrays]
    obtain ⟨cells, w1, e1, -, hV⟩ := generate_gives hb ha n
    refine Ends.bind ⟨cells, w1, e1⟩ fun cells' w1' h1 => ?_
    rw [e1] at h1
    cases h1
    obtain ⟨v, hv, -⟩ := asVals hV
    refine (Ends.ofPy hv).bind fun v' w2 h2 => ?_
    obtain ⟨-, rfl⟩ := Act.ofPy_eq_ok.1 h2
    exact (ih (generate_began e1 hb)).bind fun _ _ _ => Ends.pure

theorem ends_addRepo (hsem : env.sem = AnyGen.sem env.R) {p : Music.Params} {g : Music.Parts (AnyGen σ)} {b : SeqGen}
    (hg : g.genreIds = .seq b) (hnames : p.genreNames.length = p.nGenres) (hs : Site env [] [] [] [] [] c)
    (hl : c.world.gens.length = 0) : Ends (Music.addRepo env p g) c := by
  rw [Music.addRepo]
  refine (Ends.onWorld (ends_addGenerator _ _)).bind fun r1 c1 h1 => ?_
  obtain ⟨u1, h1', rfl⟩ := onWorld_ok h1
  have s1 := stage_addGenerator hs.stage h1'
  obtain ⟨a1, rfl, g1⟩ := later_addGenerator (env := env) h1'
  have hgen : u1.gens[c.world.gens.length]? = some (.seq b) := by
    rw [g1, List.getElem?_append_right (le_refl _), Nat.sub_self, hg]
    rfl
  refine (ends_createPopulation (c := { c with world := u1 }) hsem (by
    show c.populations.get? _ = none
    rw [hs.pops]
    rfl) hgen).bind fun pos c2 h2 => ?_
  have l1 : u1.gens.length = 1 := by rw [a1.len, hl]
  obtain ⟨ids, rfl, hids, s2, a2⟩ := Shop.site_createPopulation (c := { c with world := u1 }) ⟨s1, hs.pops, hs.gens⟩
    (.inl (by show u1.gens.length ≤ 4; omega)) h2
  obtain ⟨q, hq, hlen⟩ := createPopulation_sized (c := { c with world := u1 }) hsem (by
    show c.populations.get? _ = none
    rw [hs.pops]
    rfl) hgen h2
  rw [s2.stage.pops] at hq
  cases hq
  refine Ends.onWorld ((ends_getPop (p := ⟨ids, p.nGenres, [], []⟩) (by rw [s2.stage.pops]; rfl)).bind fun q v1 k1 => ?_)
  obtain ⟨e, rfl⟩ := getPop_eq_ok.1 k1
  rw [s2.stage.pops] at e
  cases e
  obtain ⟨a, ha⟩ := new_ends (p := ⟨ids, p.nGenres, [], []⟩) (values := p.genreNames.map Cell.str) hlen
    (fun _ => by rw [List.length_map]; exact hnames)
  refine (Ends.ofPy (by rw [Population.createAttribute, ha]; rfl)).bind fun q' v2 k2 => ?_
  obtain ⟨-, rfl⟩ := Act.ofPy_eq_ok.1 k2
  refine Ends.bind ⟨(), _, setPop_eq_ok.2 rfl⟩ fun x v3 k3 => ?_
  rw [setPop_eq_ok] at k3
  subst k3
  exact (ends_createRelationship (p := q') (by
    show (c2.world.pops.set 0 q')[0]? = _
    rw [s2.stage.pops]
    rfl)).bind fun _ _ _ => Ends.pure

theorem ends_addSongIds (hsem : env.sem = AnyGen.sem env.R) {p : Music.Params} {g : Music.Parts (AnyGen σ)} {a : SeqGen}
    {q : Population} (hq : q.relationships = [("songs", 0)]) (hs : Site env [[]] [q] [] [("music_repository", 0)] [] c)
    (ha : g.songIds = .seq a) : Ends (Music.addSongIds env p g) c := by
  rw [Music.addSongIds]
  refine (ends_popNamed (i := 0) (by rw [hs.pops]; rfl)).bind fun i c1 h1 => ?_
  obtain ⟨rfl, e1⟩ := popNamed_ok h1
  rw [hs.pops] at e1
  cases e1
  refine Ends.onWorld ((ends_addGenerator _ _).bind fun r1 u1 h2 => ?_)
  have s1 := stage_addGenerator hs.stage h2
  obtain ⟨a1, rfl, g1⟩ := later_addGenerator (env := env) h2
  have hgen : u1.gens[c1.world.gens.length]? = some (.seq a) := by
    rw [g1, List.getElem?_append_right (le_refl _), Nat.sub_self, ha]
    rfl
  refine (ends_getPop (p := q) (by rw [s1.pops]; rfl)).bind fun q' v1 k1 => ?_
  obtain ⟨e, rfl⟩ := getPop_eq_ok.1 k1
  rw [s1.pops] at e
  cases e
  refine (ends_itemArrays (a := .seq a) ⟨_, _, rfl, hgen, .refl⟩ (gives_seq hsem a)).bind fun arrays v2 k2 => ?_
  obtain ⟨-, -, -, -, -, j6, -⟩ := Shop.itemArrays_ok hsem hgen s1 k2
  refine (ends_relNamed (p := q) (i := 0) (by rw [j6.pops]; rfl) (by rw [hq]; rfl)).bind fun r2 v3 k3 => ?_
  obtain ⟨rfl, q', e3, e4⟩ := stage_relNamed j6 k3
  cases e3
  rw [hq] at e4
  cases e4
  exact ends_grouped (L := []) j6 rfl

theorem ends_addListener (hsem : env.sem = AnyGen.sem env.R) {p : Music.Params} {g : Music.Parts (AnyGen σ)} {u : SeqGen}
    (hg : g.userIds = .seq u) (hD : D.get? "user" = none) {V1 V2 : Cell → Prop}
    (hfirst : ∀ seed, AlwaysGives env (g.firstNames seed) V1) (hlast : ∀ seed, AlwaysGives env (g.lastNames seed) V2)
    (hs : Site env R P S D G c) : Ends (Music.addListener env p g) c := by
  rw [Music.addListener]
  refine (Ends.onWorld (ends_addGenerator _ _)).bind fun r1 c1 h1 => ?_
  obtain ⟨u1, h1', rfl⟩ := onWorld_ok h1
  obtain ⟨a1, rfl, g1⟩ := later_addGenerator (env := env) h1'
  have hgen : u1.gens[c.world.gens.length]? = some (.seq u) := by
    rw [g1, List.getElem?_append_right (le_refl _), Nat.sub_self, hg]
    rfl
  have hnone : ({ c with world := u1 } : Circus σ (AnyGen σ)).populations.get? "user" = none := by
    show c.populations.get? _ = none
    rw [hs.pops]
    exact hD
  refine (ends_createPopulation (c := { c with world := u1 }) hsem hnone hgen).bind fun pop c2 h2 => ?_
  obtain ⟨q, hq, hlen⟩ := createPopulation_sized (c := { c with world := u1 }) hsem hnone hgen h2
  refine Ends.onWorld ((ends_seeded _ _).bind fun r2 v1 k1 => ?_)
  obtain ⟨⟨s1, b1⟩, -, -⟩ := seeded_began k1
  have hq1 : v1.pops[pop]? = some q := by rw [seeded_pops k1]; exact hq
  refine (ends_createDrawn hq1 hlen b1 (hfirst s1)).bind fun x1 v2 k2 => ?_
  obtain ⟨q2, hq2, hlen2⟩ := createDrawn_sized ⟨q, hq1, hlen⟩ k2
  refine (ends_seeded _ _).bind fun r3 v3 k3 => ?_
  obtain ⟨⟨s3, b3⟩, -, -⟩ := seeded_began k3
  exact ends_createDrawn (by rw [seeded_pops k3]; exact hq2) hlen2 b3 (hlast s3)

/-- what the stories of the example need from their generators -/
structure Lively (env : Env σ (AnyGen σ)) (g : Music.Parts (AnyGen σ)) : Prop where
  timer : ∀ seed, AlwaysAnswers env (g.timer seed) (fun c => ∃ q, c = .scalar (.num q)) IsAmount
  activity : ∀ seed, AlwaysGives env (g.activity seed) fun c => ∃ q, c = .num q

theorem bounded_source {r : GenRef} {a : AnyGen σ} (hb : Began env w r a)
    (ha : AlwaysGives env a fun c => ∃ q, c = .num q) : GivesNums env w (.mapped r Music.boundedActivity) :=
  .mapped hb ha fun c ⟨q, e⟩ => by
    rw [e]
    exact ⟨_, rfl, _, rfl⟩

theorem ends_eventStory {name : String} {users : Nat} {q : Population} {t r : GenRef} {x y : AnyGen σ}
    (hs : Stage env R P S c.world) (hq : P[users]? = some q) (hlen : q.ids.length = q.size) (hname : name ∉ S.map Prod.fst)
    (ht : Began env c.world t x) (hr : Began env c.world r y)
    (hx : AlwaysAnswers env x (fun c => ∃ q, c = .scalar (.num q)) IsAmount)
    (hy : AlwaysGives env y fun c => ∃ q, c = .num q) :
    Ends (Circus.createStory env (Music.eventStory name users t (.mapped r Music.boundedActivity))) c := by
  refine Ends.onWorld (ends_createStory (p := q) (by rw [hs.pops]; exact hq) (hs.wf q (List.mem_of_getElem? hq)).ids hlen ?_
    rfl (bounded_source hr hy) (.inr ⟨x, ht, hx⟩))
  rw [findStory, List.findIdx?_eq_none_iff]
  intro s hm
  refine decide_eq_false fun e => hname ?_
  rw [← hs.stories, List.map_map]
  exact List.mem_map.2 ⟨s, hm, e⟩

theorem ends_addStories {g : Music.Parts (AnyGen σ)} (hg : Lively env g) {k : Nat} {q : Population}
    (hD : D.get "user" = .ok k) (hq : P[k]? = some q) (hlen : q.ids.length = q.size) (hs : Site env R P [] D G c) :
    Ends (Music.addStories env g) c := by
  rw [Music.addStories]
  refine (ends_popNamed (i := k) (by rw [hs.pops]; exact hD)).bind fun i c1 h1 => ?_
  obtain ⟨rfl, e1⟩ := popNamed_ok h1
  rw [hs.pops, hD] at e1
  cases e1
  refine (Ends.onWorld (ends_seeded _ _)).bind fun r0 c0 h0 => ?_
  obtain ⟨u0, h0', rfl⟩ := onWorld_ok h0
  have t0 := stage_seeded hs.stage h0'
  refine (Ends.onWorld (ends_seeded _ _)).bind fun r2 c2 h2 => ?_
  obtain ⟨u2, h2', rfl⟩ := onWorld_ok h2
  have t2 := stage_seeded t0 h2'
  obtain ⟨a0, -, sd0, b0⟩ := later_seeded h0'
  obtain ⟨a2, -, sd2, b2⟩ := later_seeded h2'
  refine (ends_eventStory (c := { c1 with world := u2 }) t2 hq hlen (by simp) (a2.began b0) b2 (hg.timer _)
    (hg.activity _)).bind fun own c3 h3 => ?_
  obtain ⟨u3, h3', rfl⟩ := onWorld_ok h3
  have a3 := later_createStory h3'
  obtain ⟨rfl, t3⟩ := stage_createStory t2 h3'
  exact (ends_eventStory (c := { c1 with world := u3 }) t3 hq hlen (by simp [Music.eventStory]) (a3.began (a2.began b0))
    (a3.began b2) (hg.timer _) (hg.activity _)).bind fun _ _ _ => Ends.pure

theorem ends_musicChoice {g : Music.Parts (AnyGen σ)} {pop : Nat} {q : Population} (hs : Stage env R P S w)
    (hp : P[pop]? = some q) : Ends (Music.choiceIn env g pop) w := by
  rw [Music.choiceIn]
  refine (ends_getPop (p := q) (by rw [hs.pops]; exact hp)).bind fun q w1 _ => ?_
  exact (Ends.ofPy rfl).bind fun _ _ _ => ends_seeded _ _

theorem ends_addListen {g : Music.Parts (AnyGen σ)} (hg : Lively env g) {L : List (Val × Val)}
    {q q1 : Population} (hq : q.relationships = [("songs", 0)]) (hlen : q1.ids.length = q1.size)
    (hs : Site env [L] [q, q1] [] [("music_repository", 0), ("user", 1)] G c) : Ends (Music.addListen env g) c := by
  rw [Music.addListen]
  refine (ends_popNamed (i := 1) (by rw [hs.pops]; rfl)).bind fun i c1 h1 => ?_
  obtain ⟨rfl, e1⟩ := popNamed_ok h1
  rw [hs.pops] at e1
  cases e1
  refine (Ends.onWorld (ends_seeded _ _)).bind fun r0 c0 h0 => ?_
  obtain ⟨u0, h0', rfl⟩ := onWorld_ok h0
  have t0 := stage_seeded hs.stage h0'
  refine (Ends.onWorld (ends_seeded _ _)).bind fun r2 c2 h2 => ?_
  obtain ⟨u2, h2', rfl⟩ := onWorld_ok h2
  have t2 := stage_seeded t0 h2'
  obtain ⟨a0, -, sd0, b0⟩ := later_seeded h0'
  obtain ⟨a2, -, sd2, b2⟩ := later_seeded h2'
  refine (ends_eventStory (c := { c1 with world := u2 }) t2 rfl hlen (by simp) (a2.began b0) b2 (hg.timer _)
    (hg.activity _)).bind fun own c3 h3 => ?_
  obtain ⟨u3, h3', rfl⟩ := onWorld_ok h3
  obtain ⟨rfl, t3⟩ := stage_createStory t2 h3'
  refine (ends_popNamed (c := { c1 with world := u3 }) (i := 0) (by
    show c1.populations.get _ = _
    rw [hs.pops]
    rfl)).bind fun i c4 h4 => ?_
  obtain ⟨rfl, e4⟩ := popNamed_ok h4
  rw [show (Circus.populations { c1 with world := u3 }) = c1.populations from rfl, hs.pops] at e4
  cases e4
  refine Ends.onWorld ((ends_musicChoice t3 rfl).bind fun r5 v5 k5 => ?_)
  obtain ⟨-, -, -, t5, -⟩ := Music.choiceIn_stage t3 k5
  exact (ends_relNamed (p := q) (i := 0) (by rw [t5.pops]; rfl) (by rw [hq]; rfl)).bind fun _ _ _ => Ends.pure

theorem ends_addListenAndShare {g : Music.Parts (AnyGen σ)} (hg : Lively env g) {L : List (Val × Val)}
    {q q1 : Population} (hq : q.relationships = [("songs", 0)]) (hlen : q1.ids.length = q1.size)
    (hs : Site env [L] [q, q1] [] [("music_repository", 0), ("user", 1)] G c) : Ends (Music.addListenAndShare env g) c := by
  rw [Music.addListenAndShare]
  refine (ends_addStories hg (k := 1) rfl rfl hlen hs).bind fun r c1 h1 => ?_
  obtain ⟨rfl, -, s1, -, -⟩ := Music.addStories_site (k := 1) rfl hs h1
  refine (ends_popNamed (i := 0) (by rw [s1.pops]; rfl)).bind fun i c2 h2 => ?_
  obtain ⟨rfl, e2⟩ := popNamed_ok h2
  rw [s1.pops] at e2
  cases e2
  refine Ends.onWorld ((ends_musicChoice s1.stage rfl).bind fun r5 v5 k5 => ?_)
  obtain ⟨-, -, -, t5, -⟩ := Music.choiceIn_stage s1.stage k5
  refine (ends_relNamed (p := q) (i := 0) (by rw [t5.pops]; rfl) (by rw [hq]; rfl)).bind fun r6 v6 k6 => ?_
  obtain ⟨rfl, -⟩ := stage_relNamed t5 k6
  exact (ends_musicChoice t5 rfl).bind fun _ _ _ => Ends.pure

theorem ends_addDetailed {g : Music.Parts (AnyGen σ)} (hg : Lively env g) {name : String}
    {kr ks ku rel : Nat} {q qu : Population} (hq : Dict.get? q.relationships "songs" = some rel)
    (hr : D.get "music_repository" = .ok kr) (hr' : P[kr]? = some q) (hk : D.get name = .ok ks)
    (hu : D.get "user" = .ok ku) (hu' : P[ku]? = some qu) (hlen : qu.ids.length = qu.size) (hs : Site env R P [] D G c) :
    Ends (Music.addDetailed env name g) c := by
  rw [Music.addDetailed]
  refine (ends_addStories hg hu hu' hlen hs).bind fun r c1 h1 => ?_
  obtain ⟨rfl, -, s1, -, -⟩ := Music.addStories_site (k := ku) hu hs h1
  refine (ends_popNamed (i := kr) (by rw [s1.pops]; exact hr)).bind fun i c2 h2 => ?_
  obtain ⟨rfl, e2⟩ := popNamed_ok h2
  rw [s1.pops, hr] at e2
  cases e2
  refine (ends_popNamed (i := ks) (by rw [s1.pops]; exact hk)).bind fun i c2 h2 => ?_
  obtain ⟨rfl, e2⟩ := popNamed_ok h2
  rw [s1.pops, hk] at e2
  cases e2
  refine Ends.onWorld ((ends_musicChoice s1.stage hr').bind fun r5 v5 k5 => ?_)
  obtain ⟨-, -, -, t5, -⟩ := Music.choiceIn_stage s1.stage k5
  refine (ends_relNamed (p := q) (i := rel) (by rw [t5.pops]; exact hr') hq).bind fun r6 v6 k6 => ?_
  obtain ⟨rfl, -⟩ := stage_relNamed t5 k6
  exact (ends_musicChoice t5 hu').bind fun _ _ _ => Ends.pure

/-! ### The songs as a population -/

theorem Source.ok {V : Cell → Prop} {r : GenRef} (h : Source env w V r) {S : Sig (AnyGen σ)}
    (hS : S.gens = w.gens.map (Descends env)) : GenOk env S r .size V := by
  cases h with
  | const h => exact .constSize h
  | ref hb ha => exact genOk_gives hS hb ha
  | mapped hb ha hf => exact .mapped (genOk_gives hS hb ha) hf

/-- all the values of an attribute are numbers -/
def NumIn (songs : Population) (name : String) : Prop :=
  ∀ b, attributeOf songs name b → ∀ i c, Holds b i c → ∃ q, c = .num q

theorem numIn_empty {songs : Population} {name : String} (h : ∀ x ∈ songs.attributes, x.2 = ⟨[]⟩) : NumIn songs name := by
  intro b hb i c hc
  obtain rfl : b = ⟨[]⟩ := h _ hb
  cases hc

/-- the generators of the attributes of the songs give what they should -/
structure Tracks (env : Env σ (AnyGen σ)) (w : World σ (AnyGen σ)) (s : Music.SongGens) : Prop where
  artists : Source env w (fun _ => True) s.artists
  titles : Source env w (fun _ => True) s.titles
  years : Source env w (fun c => ∃ q, c = .num q) s.years
  durations : Source env w (fun c => ∃ q, c = .num q) s.durations

theorem Tracks.later {n : Nat} {s : Music.SongGens} (h : Tracks env w s) (hk : Later env n w w') : Tracks env w' s :=
  ⟨h.artists.later hk.began, h.titles.later hk.began, h.years.later hk.began, h.durations.later hk.began⟩

/-- the columns of the songs of one genre -/
def songCols : Ctx :=
  [("SONG_ID", fun l c => c = .scalar l), ("artist_name", fun _ _ => True), ("title", fun _ _ => True),
    ("recording_year", fun _ c => ∃ q, c = .num q), ("duration_seconds", fun _ c => ∃ q, c = .num q),
    ("song_genre", fun _ _ => True)]

theorem init_safe {s : Music.SongGens} {genre : Cell} {M : Val → Prop} (h : Tracks env w s) {S : Sig (AnyGen σ)}
    (hS : S.gens = w.gens.map (Descends env)) :
    Safe env S M [("SONG_ID", fun l c => c = .scalar l)] (World.chain env.logSet (Music.initOps env s genre)) songCols :=
  safeOps_chain (.cons (.randomValues (h.artists.ok hS) (by simp [Ctx.names]))
    (.cons (.randomValues (h.titles.ok hS) (by simp [Ctx.names]))
    (.cons (.randomValues (h.years.ok hS) (by simp [Ctx.names]))
    (.cons (.randomValues (h.durations.ok hS) (by simp [Ctx.names]))
    (.cons (.randomValues (P := fun _ => True) (.constSize trivial) (by simp [Ctx.names])) .nil)))))

theorem ends_songsOf (hsem : env.sem = AnyGen.sem env.R) {n j : Nat} {a : SeqGen} {s : Music.SongGens}
    {genre : Val × Cell} {L : List (Val × Val)} {q songs : Population} (hids : s.ids = .ref j)
    (hg : w.gens[j]? = some (.seq a)) (hkeys : songs.attributes.map Prod.fst = Music.songAttributes)
    (hs : Stage env [L] [q, songs] [] w) (ho : Music.Ones w) (ht : Tracks env w s)
    (hy : NumIn songs "recording_year") (hd : NumIn songs "duration_seconds") :
    ∃ w', Music.addSongsOf env n 0 1 s genre w = .ok () w' ∧ ∀ songs', w'.pops[1]? = some songs' →
      NumIn songs' "recording_year" ∧ NumIn songs' "duration_seconds" := by
  obtain ⟨cells, w1, e1, -, hV⟩ := generate_gives (env := env) (w := w) (r := .ref j) ⟨_, _, rfl, hg, .refl⟩ (gives_seq hsem a) n
  obtain ⟨ids, hv, -⟩ := asVals hV
  have s1 := stage_generate hs e1
  have m1 := Music.later_generate e1
  obtain ⟨g0, g', hg', e, -⟩ := generate_ref_ok.1 e1
  rw [hg] at hg'
  cases hg'
  obtain ⟨rfl, -⟩ := Snd.seq_drawn hsem e hv
  have hnd := idsFrom_nodup a n
  generalize idsFrom a n = ids at hv hnd
  obtain ⟨u3, w3, e3⟩ := ends_grouped (i := 0) (f := [genre.1]) (t := [ids]) s1 rfl
  obtain ⟨s3, g3, m3⟩ := Music.stage_grouped s1 e3
  have ht3 := (ht.later m1).later m3
  have hf : Fits env (plainSignature env w3) w3 := by
    refine plain_fits (fun r hr => ⟨?_, (m1.trans m3).ones ho r hr⟩) fun s hm => ?_
    · obtain ⟨L, -, hf⟩ := forall₂_exists_right s3.rels hr
      exact hf.1
    · rw [List.map_eq_nil_iff.1 s3.stories] at hm
      cases hm
  have hidx : (Story.initStoryData "SONG_ID" ids).index = ids := by
    simp [Story.initStoryData, Frame.index, Function.comp_def]
  have htyped : Typed (fun _ => True) [("SONG_ID", fun l c => c = .scalar l)] (Story.initStoryData "SONG_ID" ids) := by
    refine ⟨rfl, by simp [Ctx.names], by rw [hidx]; exact hnd, fun _ _ => trivial, ?_⟩
    intro r hr
    obtain ⟨i, -, rfl⟩ := List.mem_map.1 hr
    exact .cons rfl .nil
  obtain ⟨f, l, w4, e4, h4, -⟩ := safe_run (init_safe (genre := genre.2) ht3 rfl) htyped hf
  have s4 : w4.pops = w3.pops := by
    obtain ⟨ls, hrun, -⟩ := nested_ok e4
    obtain ⟨-, -, -, -, ⟨-, b4, -⟩, -⟩ := Music.init_runs
      (by intro r hr; simp [Story.initStoryData] at hr ⊢; obtain ⟨x, -, rfl⟩ := hr; rfl) (by rw [hidx]; exact hnd) rfl hrun
    exact b4
  have hcols : f.cols = ["SONG_ID", "artist_name", "title", "recording_year", "duration_seconds", "song_genre"] := h4.cols
  have hrect : Rect f := fun r hr => by
    rw [h4.cols, Ctx.names, List.length_map]
    exact (h4.cells r hr).length_eq.symm
  obtain ⟨f', hf'⟩ := Frame.select_total (names := f.cols.filter fun c => decide (c ≠ "SONG_ID")) hrect
    (by rw [h4.cols]; exact h4.distinct) (fun c hc => (List.mem_filter.1 hc).1)
  obtain ⟨c5, rows5⟩ := Frame.select_ok hf'
  have hcols' : f'.cols = ["artist_name", "title", "recording_year", "duration_seconds", "song_genre"] := by
    rw [c5, hcols]; decide
  have hw := s3.wf songs (by simp)
  obtain ⟨songs', hup, hk', -, hval⟩ := C55_update hw (Frame.select_rect hf') (by rw [hcols']; decide) (fun c => by
    rw [hcols', hkeys]
    simp only [Music.songAttributes, List.mem_cons, List.not_mem_nil, or_false]
    tauto)
  have hrun : Music.addSongsOf env n 0 1 s genre w = .ok () { w4 with pops := w4.pops.set 1 songs' } := by
    rw [Music.addSongsOf, hids, Act.bind_ok e1, Act.bind_ok (Act.ofPy_ok hv _), Act.bind_ok e3, Act.bind_ok e4]
    dsimp only
    rw [Act.bind_ok (Act.ofPy_ok hf' _), Act.bind_ok (getPop_eq_ok.2 ⟨by rw [s4, s3.pops]; rfl, rfl⟩),
      Act.bind_ok (Act.ofPy_ok hup _)]
    exact setPop_eq_ok.2 rfl
  have key : ∀ name, name = "recording_year" ∨ name = "duration_seconds" → NumIn songs name → NumIn songs' name := by
    intro name hname hold b' hb' i c hc
    obtain ⟨b, hb⟩ : ∃ b, attributeOf songs name b := by
      have : name ∈ songs.attributes.map Prod.fst := by
        rw [hkeys]
        rcases hname with rfl | rfl <;> simp [Music.songAttributes]
      obtain ⟨⟨x, b⟩, hx, rfl⟩ := List.mem_map.1 this
      exact ⟨b, hx⟩
    obtain ⟨b2, hb2, h2⟩ := hval name b hb
    have : b2 = b' := by
      have hw' := (Population.popCall_wf (R := Rng.counter) (.update f' hup) hw).names
      exact Option.some.inj ((Dict.get?_of_mem hw' hb2).symm.trans (Dict.get?_of_mem hw' hb'))
    subst this
    rcases (h2 i c).1 hc with ⟨r, ⟨pre, post, er, -⟩, rfl⟩ | ⟨-, h3⟩
    · have hr : r ∈ f'.rows := by rw [er]; simp
      rw [rows5] at hr
      obtain ⟨x, hx, rfl⟩ := List.mem_map.1 hr
      have hcell := h4.cells x hx
      obtain ⟨xi, xc⟩ := x
      rw [songCols] at hcell
      cases hcell with | cons k0 hcell =>
      cases hcell with | cons k1 hcell =>
      cases hcell with | cons k2 hcell =>
      cases hcell with | cons k3 hcell =>
      cases hcell with | cons k4 hcell =>
      cases hcell with | cons k5 hcell =>
      cases hcell
      have hno : f.cols.filter (fun c => decide (c ≠ "SONG_ID")) =
        ["artist_name", "title", "recording_year", "duration_seconds", "song_genre"] := by rw [hcols]; decide
      rcases hname with rfl | rfl
      · rw [hno, cell, hcols']
        show ∃ q, cell f _ "recording_year" = _
        rw [cell, hcols]
        exact k3
      · rw [hno, cell, hcols']
        show ∃ q, cell f _ "duration_seconds" = _
        rw [cell, hcols]
        exact k4
    · exact hold b hb i c h3
  refine ⟨_, hrun, fun s' hs' => ?_⟩
  change (w4.pops.set 1 songs')[1]? = _ at hs'
  rw [s4, s3.pops] at hs'
  cases hs'
  exact ⟨key _ (.inl rfl) hy, key _ (.inr rfl) hd⟩

theorem ends_songsAll (hsem : env.sem = AnyGen.sem env.R) {n j : Nat} {a : SeqGen} {s : Music.SongGens} {q : Population}
    (hids : s.ids = .ref j) (h1 : j ∉ refs s.artists) (h2 : j ∉ refs s.titles) (h3 : j ∉ refs s.years)
    (h4 : j ∉ refs s.durations) {l done : List (Val × Cell)} {L : List (Val × Val)} {songs : Population}
    (hg : w.gens[j]? = some (.seq { a with counter := a.counter + (done.length * n : Nat) }))
    (hkeys : songs.attributes.map Prod.fst = Music.songAttributes) (hnew : ((done ++ l).map Prod.fst).Nodup)
    (hs : Stage env [L] [q, songs] [] w) (hcat : Music.Catalogue n a done L songs) (ho : Music.Ones w)
    (ht : Tracks env w s) (hy : NumIn songs "recording_year") (hd : NumIn songs "duration_seconds") :
    ∃ w', Act.forEach (Music.addSongsOf env n 0 1 s) l w = .ok () w' ∧ ∃ L' songs', Stage env [L'] [q, songs'] [] w' ∧
      songs'.attributes.map Prod.fst = Music.songAttributes ∧ NumIn songs' "recording_year" ∧
      NumIn songs' "duration_seconds" := by
  induction l generalizing w done L songs with
  | nil => exact ⟨w, rfl, L, songs, hs, hkeys, hy, hd⟩
  | cons x l ih =>
    have hx : x.1 ∉ done.map Prod.fst := by
      rw [List.map_append, List.nodup_append] at hnew
      exact fun hm => hnew.2.2 _ hm x.1 (by simp) rfl
    obtain ⟨w1, k1, hnum⟩ := ends_songsOf (n := n) (genre := x) hsem hids hg hkeys hs ho ht hy hd
    obtain ⟨L1, q1, a1, a2, a3, a4, a5⟩ := Music.addSongsOf_step hsem hids h1 h2 h3 h4 hg hkeys hx hs hcat k1
    obtain ⟨n1, n2⟩ := hnum q1 (by rw [a1.pops]; rfl)
    obtain ⟨w2, k2, L2, q2, b1, b2, b3, b4⟩ := ih a5 a3 (by simpa using hnew) a1 a2 (a4.ones ho) (ht.later a4) n1 n2
    exact ⟨w2, by rw [forEach_cons, Act.bind_ok k1]; exact k2, L2, q2, b1, b2, b3, b4⟩

theorem ends_makeInt {q songs : Population} {name : String} (hp : w.pops = [q, songs])
    (hk : name ∈ songs.attributes.map Prod.fst) (hn : (songs.attributes.map Prod.fst).Nodup) (hnum : NumIn songs name) :
    ∃ table, Music.makeInt (σ := σ) (γ := AnyGen σ) 1 name w =
      .ok () { w with pops := [q, { songs with attributes := songs.attributes.set name ⟨table⟩ }] } := by
  obtain ⟨⟨name, b⟩, hb, rfl⟩ := List.mem_map.1 hk
  change NumIn songs name at hnum
  show ∃ table, Music.makeInt 1 name w = .ok () { w with pops := [q, { songs with attributes := songs.attributes.set name ⟨table⟩ }] }
  obtain ⟨table, htab⟩ := mapM_isOk (f := fun kv : Val × Cell => do .ok (kv.1, ← Music.toInt kv.2)) (l := b.table)
    fun kv hkv => by
      obtain ⟨y, hy⟩ := hnum b hb kv.1 kv.2 hkv
      rw [hy]
      exact ⟨_, rfl⟩
  refine ⟨table, ?_⟩
  rw [Music.makeInt, Act.bind_ok (getPop_eq_ok.2 ⟨by rw [hp]; rfl, rfl⟩),
    Act.bind_ok (Act.ofPy_ok (show songs.getAttribute name = .ok b from Population.get_eq_ok.2 (Dict.get?_of_mem hn hb)) _), Act.bind_ok (Act.ofPy_ok htab _)]
  rw [setPop_eq_ok, hp]
  rfl

theorem ends_createEmpty {pop : Nat} {q : Population} {name : String} (hp : w.pops[pop]? = some q) (h0 : q.size = 0) :
    Ends (Music.createEmpty pop name) w := by
  rw [Music.createEmpty]
  refine (ends_getPop hp).bind fun q' w1 h1 => ?_
  obtain ⟨e, rfl⟩ := getPop_eq_ok.1 h1
  rw [hp] at e
  cases e
  rw [if_pos h0]
  exact (Ends.ofPy (by rw [Population.createAttribute, Attribute.new, if_pos h0]; rfl)).bind fun _ _ _ =>
    ⟨(), _, setPop_eq_ok.2 rfl⟩

/-- what the songs of step 4 need from their generators -/
structure Recorded (env : Env σ (AnyGen σ)) (p : Music.Params) (g : Music.Parts (AnyGen σ)) : Prop where
  unused : ∃ u, g.unusedIds = .seq u
  artists : 0 < p.nArtists
  names : ∀ seed, AlwaysGives env (g.names seed) (IdIn fun _ => True)
  titles : ∀ seed, AlwaysGives env (g.titles seed) fun _ => True
  dates : ∃ U, (∀ seed, AlwaysGives env (g.dates seed) U) ∧ ∀ c, U c → ∃ v, g.year c = .ok v ∧ ∃ q, v = .num q
  durations : ∀ seed, AlwaysGives env (g.durations seed) fun c => ∃ q, c = .num q

theorem ends_addSongs (hsem : env.sem = AnyGen.sem env.R) {p : Music.Params} {g : Music.Parts (AnyGen σ)} {a : SeqGen}
    {q : Population} {b : Attribute} (hq : q.relationships = [("songs", 0)]) (hb : q.attributes = [("genre_name", b)])
    (hs : Site env [[]] [q] [] [("music_repository", 0)] [] c) (hl : c.world.gens.length = 1) (ho : Music.Ones c.world)
    (ha : g.songIds = .seq a) (hch : ∀ l p seed, ∃ r, g.choice l p seed = .choice l p r) (hrec : Recorded env p g) :
    Ends (Music.addSongs env p g) c := by
  obtain ⟨⟨un, hun⟩, hart, hnames, htitles, ⟨U, hdates, hyear⟩, hdur⟩ := hrec
  rw [Music.addSongs]
  refine (Ends.onWorld (ends_addGenerator _ _)).bind fun r1 c1 h1 => ?_
  obtain ⟨u1, h1', rfl⟩ := onWorld_ok h1
  have s1 := stage_addGenerator hs.stage h1'
  obtain ⟨a1, rfl, g1⟩ := later_addGenerator (env := env) h1'
  have l1 := a1.len
  rw [hl] at l1
  refine (ends_createPopulation (c := { c with world := u1 }) (b := un) hsem (by
    show c.populations.get? _ = none
    rw [hs.pops]
    rfl) (by
    show u1.gens[c.world.gens.length]? = _
    rw [g1, List.getElem?_append_right (le_refl _), Nat.sub_self, hun]
    rfl)).bind fun pos c2 h2 => ?_
  obtain ⟨ids0, k0, -, e0, -, hst0⟩ := stage_createPopulation (c := { c with world := u1 }) s1 h2
  obtain ⟨e0', e0⟩ := e0 _ _ rfl
  obtain ⟨ids, rfl, -, s2, a2⟩ := Shop.site_createPopulation (c := { c with world := u1 }) ⟨s1, hs.pops, hs.gens⟩
    (.inl (by show u1.gens.length ≤ 4; omega)) h2
  have hids : ids = [] := by
    have h3 := hst0.pops
    rw [s2.stage.pops, e0 (by omega), ← e0'] at h3
    cases h3
    rfl
  subst hids
  have l2 : c2.world.gens.length = 2 := by
    have := a2.len
    change c2.world.gens.length = u1.gens.length + 0 at this
    omega
  obtain ⟨y1, v1, k1⟩ := ends_createEmpty (w := c2.world) (pop := 1) (name := "artist_name") (by rw [s2.stage.pops]; rfl) rfl
  obtain ⟨p1, e1, t1, m1⟩ := Music.createEmpty_stage s2.stage k1
  cases e1
  obtain ⟨y2, v2, k2⟩ := ends_createEmpty (w := v1) (pop := 1) (name := "song_genre") (by rw [t1.pops]; rfl) rfl
  obtain ⟨p2, e2, t2, m2⟩ := Music.createEmpty_stage t1 k2
  cases e2
  obtain ⟨y3, v3, k3⟩ := ends_createEmpty (w := v2) (pop := 1) (name := "title") (by rw [t2.pops]; rfl) rfl
  obtain ⟨p3, e3, t3, m3⟩ := Music.createEmpty_stage t2 k3
  cases e3
  obtain ⟨y4, v4, k4⟩ := ends_createEmpty (w := v3) (pop := 1) (name := "duration_seconds") (by rw [t3.pops]; rfl) rfl
  obtain ⟨p4, e4, t4, m4⟩ := Music.createEmpty_stage t3 k4
  cases e4
  obtain ⟨y5, u3, k5⟩ := ends_createEmpty (w := v4) (pop := 1) (name := "recording_year") (by rw [t4.pops]; rfl) rfl
  obtain ⟨p5, e5, t5, m5⟩ := Music.createEmpty_stage t4 k5
  cases e5
  have m15 := (((m1.trans m2).trans m3).trans m4).trans m5
  have l3 : u3.gens.length = 2 := by rw [m15.len, l2]
  obtain ⟨songs0, t0, d1, d2, d3, d4⟩ : ∃ songs0, Stage env [[]] [q, songs0] [] u3 ∧
      songs0.attributes.map Prod.fst = Music.songAttributes ∧ Music.Catalogue p.nSongs a [] [] songs0 ∧
      NumIn songs0 "recording_year" ∧ NumIn songs0 "duration_seconds" :=
    ⟨_, t5, rfl, ⟨by simp [idsFrom], by simp, by simp, by simp, fun m hm => ⟨⟨[]⟩, by
      simp only [Music.songAttributes, List.mem_cons, List.not_mem_nil, or_false] at hm
      rcases hm with rfl | rfl | rfl | rfl | rfl <;> simp [attributeOf, Dict.set], by simp⟩⟩,
      numIn_empty (by simp [Dict.set]), numIn_empty (by simp [Dict.set])⟩
  have hempty : onWorld (do
      Music.createEmpty 1 "artist_name"
      Music.createEmpty 1 "song_genre"
      Music.createEmpty 1 "title"
      Music.createEmpty 1 "duration_seconds"
      Music.createEmpty 1 "recording_year" : Act (World σ (AnyGen σ)) Unit) c2 = .ok () { c2 with world := u3 } := by
    rw [Circus.onWorld, Act.bind_ok k1, Act.bind_ok k2, Act.bind_ok k3, Act.bind_ok k4, k5]
  refine Ends.bind ⟨(), _, hempty⟩ fun x3 c3 h3 => ?_
  cases hempty.symm.trans h3
  clear hempty t5 t4 t3 t2 t1
  have mU : Later env 1 c.world u3 := (a1.trans (Music.later_after a2)).trans m15
  refine (Ends.onWorld (ends_addGenerator _ _)).bind fun r4 c4 h4 => ?_
  obtain ⟨u4, h4', rfl⟩ := onWorld_ok h4
  replace h4' : Snd.addGenerator g.songIds u3 = .ok _ u4 := h4'
  have t6 := stage_addGenerator t0 h4'
  obtain ⟨a4, rfl, g4⟩ := later_addGenerator (env := env) h4'
  have l4 := a4.len
  rw [l3] at l4
  have n4 : u4.gens[2]? = some (.seq a) := by
    rw [g4, List.getElem?_append_right (by omega), l3, ha]
    rfl
  refine (Ends.onWorld (ends_seeded _ _)).bind fun r5 c5 h5 => ?_
  obtain ⟨u5, h5', rfl⟩ := onWorld_ok h5
  replace h5' : Snd.seeded env g.names u4 = .ok _ u5 := h5'
  have t7 := stage_seeded t6 h5'
  have n5 := (Music.seeded_other h5' (i := 2) (by omega)).trans n4
  obtain ⟨a5, rfl, sd5, b5⟩ := later_seeded h5'
  have l5 := a5.len
  obtain ⟨cells, w6, k6, hlen6, hV6⟩ := generate_gives b5 (hnames sd5) p.nArtists
  obtain ⟨vals, hvals, hlv⟩ := asVals hV6
  have t8 := stage_generate t7 k6
  have a6 := Music.later_generate k6
  have l6 := a6.len
  have n6 := (call_gens_other (i := 2) (by simp only [refs, List.mem_singleton]; omega) k6).trans n5
  obtain ⟨r6, u6, h6'⟩ := ends_seeded (env := env) (g.choice vals none) w6
  have t9 := stage_seeded t8 h6'
  have n7 := (Music.seeded_other h6' (i := 2) (by omega)).trans n6
  obtain ⟨a7, rfl, sd7, b7⟩ := later_seeded h6'
  have l7 := a7.len
  refine Ends.bind (Ends.onWorld (c := { c2 with world := u5 }) (Ends.bind ⟨cells, w6, k6⟩ fun x y e => by
    rw [k6] at e
    cases e
    exact (Ends.ofPy hvals).bind fun _ _ _ => ends_seeded _ _)) fun r6' c6 h6 => ?_
  obtain ⟨u6', f6, rfl⟩ := onWorld_ok h6
  clear h6
  obtain ⟨cs, x6, j6, f7⟩ := Act.bind_eq_ok.1 f6
  cases (show _ = _ from k6.symm.trans j6)
  obtain ⟨vs, x7, j7, f8⟩ := Act.bind_eq_ok.1 f7
  obtain ⟨j8, rfl⟩ := Act.ofPy_eq_ok.1 j7
  cases hvals.symm.trans j8
  cases (show _ = _ from h6'.symm.trans f8)
  refine (Ends.onWorld (ends_seeded _ _)).bind fun r8 c8 h8 => ?_
  obtain ⟨u8, h8', rfl⟩ := onWorld_ok h8
  replace h8' : Snd.seeded env g.titles u6 = .ok _ u8 := h8'
  have t10 := stage_seeded t9 h8'
  have n8 := (Music.seeded_other h8' (i := 2) (by omega)).trans n7
  obtain ⟨a8, rfl, sd8, b8⟩ := later_seeded h8'
  have l8 := a8.len
  refine (Ends.onWorld (ends_seeded _ _)).bind fun r9 c9 h9 => ?_
  obtain ⟨u9, h9', rfl⟩ := onWorld_ok h9
  replace h9' : Snd.seeded env g.dates u8 = .ok _ u9 := h9'
  have t11 := stage_seeded t10 h9'
  have n9 := (Music.seeded_other h9' (i := 2) (by omega)).trans n8
  obtain ⟨a9, rfl, sd9, b9⟩ := later_seeded h9'
  have l9 := a9.len
  refine (Ends.onWorld (ends_seeded _ _)).bind fun r10 c10 h10 => ?_
  obtain ⟨u10, h10', rfl⟩ := onWorld_ok h10
  replace h10' : Snd.seeded env g.durations u9 = .ok _ u10 := h10'
  have t12 := stage_seeded t11 h10'
  have n10 := (Music.seeded_other h10' (i := 2) (by omega)).trans n9
  obtain ⟨a10, rfl, sd10, b10⟩ := later_seeded h10'
  refine (ends_popNamed (c := { c2 with world := u10 }) (i := 0) (by
    show c2.populations.get _ = _
    rw [s2.pops]
    rfl)).bind fun repo c11 h11 => ?_
  obtain ⟨rfl, e11⟩ := popNamed_ok h11
  change c2.populations.get _ = _ at e11
  rw [s2.pops] at e11
  cases e11
  refine Ends.onWorld (c := { c2 with world := u10 }) ?_
  show Ends _ u10
  refine (ends_getPop (p := q) (by rw [t12.pops]; rfl)).bind fun q' w11 k11 => ?_
  obtain ⟨e, rfl⟩ := getPop_eq_ok.1 k11
  rw [t12.pops] at e
  cases e
  refine (Ends.ofPy (y := b) (by rw [Population.getAttribute, hb]; rfl)).bind fun b' w12 k12 => ?_
  obtain ⟨e, rfl⟩ := Act.ofPy_eq_ok.1 k12
  rw [Population.getAttribute, hb] at e
  cases e
  refine (ends_relNamed (p := q) (i := 0) (by rw [t12.pops]; rfl) (by rw [hq]; rfl)).bind fun rel w13 k13 => ?_
  obtain ⟨rfl, q'', e12, e13⟩ := stage_relNamed t12 k13
  cases e12
  rw [hq] at e13
  cases e13
  have hnodup : (([] ++ b.table : List (Val × Cell)).map Prod.fst).Nodup :=
    (t12.wf q (by simp)).values ("genre_name", b) (by rw [hb]; simp)
  obtain ⟨r, hr⟩ := hch vals none sd7
  have hvne : vals ≠ [] := fun e => by
    rw [e, hlen6] at hlv
    simp at hlv
    omega
  have hart' : AlwaysGives env (g.choice vals none sd7) fun _ => True := by
    rw [hr]
    intro x hx k
    obtain ⟨cells, x', j1, j2, -⟩ := gives_choice hsem hvne x hx k
    exact ⟨cells, x', j1, j2, fun _ _ => trivial⟩
  have htr : Tracks env w13 ⟨.ref u3.gens.length, .ref w6.gens.length, .ref u6.gens.length,
      .mapped (.ref u8.gens.length) g.year, .ref u9.gens.length⟩ :=
    ⟨.ref (a10.began (a9.began (a8.began b7))) hart', .ref (a10.began (a9.began b8)) (htitles _),
      .mapped (a10.began b9) (hdates _) hyear, .ref b10 (hdur _)⟩
  have hones : Music.Ones w13 := ((((((mU.trans a4).trans a5).trans a6).trans a7).trans a8).trans (a9.trans a10)).ones ho
  obtain ⟨w14, k14, L, songs1, t14, f1, f2, f3⟩ := ends_songsAll (n := p.nSongs) (j := 2) (a := a) (done := []) hsem
    (by show GenRef.ref _ = _; rw [l3])
    (by simp only [refs, List.mem_singleton]; omega) (by simp only [refs, List.mem_singleton]; omega)
    (by simp only [refs, List.mem_singleton]; omega) (by simp only [refs, List.mem_singleton]; omega)
    (by rw [n10]; simp) d1 hnodup t12 d2 hones htr d3 d4
  refine Ends.bind ⟨(), w14, k14⟩ fun _ w14' k14' => ?_
  cases k14.symm.trans k14'
  have hnd : (songs1.attributes.map Prod.fst).Nodup := by rw [f1]; decide
  obtain ⟨table, k15⟩ := ends_makeInt (name := "recording_year") t14.pops (by rw [f1]; decide) hnd f2
  refine Ends.bind ⟨(), _, k15⟩ fun _ w15 k15' => ?_
  cases k15.symm.trans k15'
  have hkeep : (Dict.set songs1.attributes "recording_year" ⟨table⟩).map Prod.fst = songs1.attributes.map Prod.fst :=
    (Dict.keys_set _ _ _).trans (if_pos (by show _ ∈ songs1.attributes.map Prod.fst; rw [f1]; decide))
  obtain ⟨table', k16⟩ := ends_makeInt (σ := σ) (name := "duration_seconds")
    (w := { w14 with pops := [q, { songs1 with attributes := songs1.attributes.set "recording_year" ⟨table⟩ }] }) rfl
    (by show _ ∈ (Dict.set _ _ _).map _; rw [hkeep, f1]; decide) (by show ((Dict.set _ _ _).map _).Nodup; rw [hkeep]; exact hnd)
    (fun z hz => f3 z (by
      have hz' := Dict.get?_of_mem (d := songs1.attributes.set "recording_year" ⟨table⟩) (by
        show ((Dict.set _ _ _).map Prod.fst).Nodup
        rw [hkeep]
        exact hnd) hz
      rw [Dict.get?_set, if_neg (by decide)] at hz'
      exact Dict.get?_mem hz'))
  exact ⟨(), _, k16⟩

end Builds
end Trumania
