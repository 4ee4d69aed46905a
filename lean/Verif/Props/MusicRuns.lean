import Verif.Props.ShopRuns

/-!
# C132: the steps of examples/tutorial/example3.py run to the end
-/

namespace Trumania
namespace Music
open Spec World Circus Cdr
open Shop (Site Labelled new_site countFor zip_items)
variable {σ : Type} {env : Env σ (AnyGen σ)} {w w' : World σ (AnyGen σ)} {c c' : Circus σ (AnyGen σ)} {S : Sig (AnyGen σ)}
  {items : Val → Prop} {genres : List Val} {qu songs : Population}

/-! ### The operations -/

/-- what the signature has for the stories of the users: their names, and a song for each genre -/
structure Cued (env : Env σ (AnyGen σ)) (S : Sig (AnyGen σ)) (users g rel : Nat) (qu : Population) (genres : List Val)
    (items : Val → Prop) : Prop where
  pop : S.pops[users]? = some (attKinds qu)
  names : Labelled ["FIRST_NAME", "LAST_NAME"] qu
  rel : S.rels[rel]? = some ⟨items, (· ∈ genres), false⟩
  genres : GenOk env S (.ref g) .size (IdIn (· ∈ genres))

/-- the columns of the data once the song is chosen -/
def songCtx (qu : Population) (genres : List Val) (items : Val → Prop) : Ctx :=
  [("UID", fun l c => c = .scalar l), ("USER_FIRST_NAME", fun _ => attValue (attKinds qu) "FIRST_NAME"),
    ("USER_LAST_NAME", fun _ => attValue (attKinds qu) "LAST_NAME"), ("GENRE", fun _ => IdIn (· ∈ genres)),
    ("SONG_ID", fun _ => IdIn items)]

variable {users g rel ks : Nat}

theorem user_safe (h : Cued env S users g rel qu genres items) :
    Safe env S (· ∈ qu.ids) [("UID", fun l c => c = .scalar l)] (lookupUser users)
      [("UID", fun l c => c = .scalar l), ("USER_FIRST_NAME", fun _ => attValue (attKinds qu) "FIRST_NAME"),
        ("USER_LAST_NAME", fun _ => attValue (attKinds qu) "LAST_NAME")] := by
  obtain ⟨k1, f1, f2⟩ := h.names.kind (name := "FIRST_NAME") (by simp)
  obtain ⟨k2, f3, f4⟩ := h.names.kind (name := "LAST_NAME") (by simp)
  refine .lookup (P := attKinds qu) h.pop ⟨_, .head _, fun i _ _ h => ⟨i, h⟩⟩ (fun x hx => ?_) (by simp [Ctx.names])
  simp only [List.mem_cons, List.not_mem_nil, or_false] at hx
  rcases hx with rfl | rfl
  · exact ⟨k1, f1, _, .head _, fun i _ hi h => ⟨i, h, f2 i hi⟩⟩
  · exact ⟨k2, f3, _, .head _, fun i _ hi h => ⟨i, h, f4 i hi⟩⟩

theorem genre_safe (h : Cued env S users g rel qu genres items) :
    Safe env S (· ∈ qu.ids)
      [("UID", fun l c => c = .scalar l), ("USER_FIRST_NAME", fun _ => attValue (attKinds qu) "FIRST_NAME"),
        ("USER_LAST_NAME", fun _ => attValue (attKinds qu) "LAST_NAME")] (Ops.randomValues env (.ref g) "GENRE" none)
      [("UID", fun l c => c = .scalar l), ("USER_FIRST_NAME", fun _ => attValue (attKinds qu) "FIRST_NAME"),
        ("USER_LAST_NAME", fun _ => attValue (attKinds qu) "LAST_NAME"), ("GENRE", fun _ => IdIn (· ∈ genres))] :=
  .randomValues h.genres (by simp [Ctx.names])

theorem song_safe (h : Cued env S users g rel qu genres items) :
    Safe env S (· ∈ qu.ids)
      [("UID", fun l c => c = .scalar l), ("USER_FIRST_NAME", fun _ => attValue (attKinds qu) "FIRST_NAME"),
        ("USER_LAST_NAME", fun _ => attValue (attKinds qu) "LAST_NAME"), ("GENRE", fun _ => IdIn (· ∈ genres))]
      (selectSong env rel) (songCtx qu genres items) :=
  .selectOneOwned h.rel (by simp) ⟨fun _ => IdIn (· ∈ genres), by simp, fun _ _ _ h => h⟩ (by simp) (by simp [Ctx.names])

/-- `select_genre_and_song`, without the details of the song -/
theorem genreAndSong_safe (h : Cued env S users g rel qu genres items) :
    Safe env S (· ∈ qu.ids) [("UID", fun l c => c = .scalar l)] (genreAndSong env users rel (.ref g))
      (songCtx qu genres items) :=
  .consChain (user_safe h) (.consChain (genre_safe h) (.consChain (song_safe h) .emptyChain))

/-- the details of a song that are read -/
def detailNames : List String := ["artist_name", "title", "recording_year", "duration_seconds"]

/-- `select_genre_and_song`, with the details of the song -/
theorem genreAndDetails_safe (h : Cued env S users g rel qu genres items) (hp : S.pops[ks]? = some (attKinds songs))
    (hn : Labelled detailNames songs) (hi : ∀ v, items v → v ∈ songs.ids) :
    Safe env S (· ∈ qu.ids) [("UID", fun l c => c = .scalar l)] (genreAndDetails env users rel ks (.ref g))
      (songCtx qu genres items ++ [("SONG_ARTIST", fun _ => attValue (attKinds songs) "artist_name"),
        ("SONG_TITLE", fun _ => attValue (attKinds songs) "title"),
        ("SONG_YEAR", fun _ => attValue (attKinds songs) "recording_year"),
        ("SONG_DURATION", fun _ => attValue (attKinds songs) "duration_seconds")]) := by
  refine .consChain (user_safe h) (.consChain (genre_safe h) (.consChain (song_safe h) (.consChain ?_ .emptyChain)))
  refine .lookup (P := attKinds songs) hp ⟨fun _ => IdIn items, by simp [songCtx], fun _ _ _ ⟨v, h, _⟩ => ⟨v, h⟩⟩
    (fun x hx => ?_) (by simp [songCtx, Ctx.names])
  have hm : x.1 ∈ detailNames := by
    simp only [List.mem_cons, List.not_mem_nil, or_false] at hx
    rcases hx with rfl | rfl | rfl | rfl <;> simp [detailNames]
  obtain ⟨k, e1, e2⟩ := hn.kind hm
  exact ⟨k, e1, fun _ => IdIn items, by simp [songCtx], fun _ _ _ ⟨v, h, hv⟩ => ⟨v, h, e2 v (hi v hv)⟩⟩

/-- the two stories of steps 3 and 4, whatever the operation that chooses the song -/
theorem both_safe {select : Op (World σ (AnyGen σ))} {Γ : Ctx} {y : Nat}
    (h : Safe env S (· ∈ qu.ids) [("UID", fun l c => c = .scalar l)] select Γ) (hf : "SHARED_TO_UID" ∉ Γ.names)
    (hS : S.stories = [⟨(· ∈ qu.ids), fun st => st = .str "default" ∨ False, "UID"⟩,
      ⟨(· ∈ qu.ids), fun st => st = .str "default" ∨ False, "UID"⟩])
    (hy : GenOk env S (.ref y) .size (IdIn (· ∈ qu.ids))) :
    List.Forall₂ (SafeStory env S) S.stories [listenedOps env 0 select, sharedOps env 1 select (.ref y)] := by
  have h0 : S.stories[0]? = some ⟨(· ∈ qu.ids), fun st => st = .str "default" ∨ False, "UID"⟩ := by rw [hS]; rfl
  have h1 : S.stories[1]? = some ⟨(· ∈ qu.ids), fun st => st = .str "default" ∨ False, "UID"⟩ := by rw [hS]; rfl
  rw [hS]
  refine .cons ?_ (.cons ?_ .nil)
  · refine C101_set_operations h0 ?_
    exact ⟨_, .cons h (.cons (.fieldLogger (by simp)) .nil)⟩
  · refine C101_set_operations h1 ?_
    exact ⟨_, .cons h (.cons (.randomValues hy hf) (.cons (.fieldLogger (by simp)) .nil))⟩

/-! ### What is built -/

/-- what a circus has when its relationship `rel` gives the songs of each genre and loses none -/
def songSignature (env : Env σ (AnyGen σ)) (w : World σ (AnyGen σ)) (rel : Nat) (items owners : Val → Prop) : Sig (AnyGen σ) :=
  ⟨w.clock.step, w.gens.map (Descends env),
    (List.range w.rels.length).map fun j =>
      if j = rel then ⟨items, owners, false⟩ else ⟨fun _ => True, fun _ => False, false⟩,
    w.pops.map attKinds, w.stories.map fun s => ⟨(· ∈ s.ids), fun st => st = .str "default" ∨ False, s.idField⟩⟩

theorem song_fits {R : List (List (Val × Val))} {L : List (Val × Val)} {P : List Population} {N : List (String × String)}
    {D G : Dict String Nat} {g : Parts (AnyGen σ)} {ids : List Val} {owners : Val → Prop} (hs : Site env R P N D G c)
    (hR : R[rel]? = some L) (ho : Ones c.world)
    (hown : ∀ v, owners v → ∃ t, (v, t) ∈ L) (hp : Playing env g ids c.world)
    (ht : ∀ seed, AlwaysAnswers env (g.timer seed) (fun c => ∃ q, c = .scalar (.num q)) IsAmount) :
    Fits env (songSignature env c.world rel (· ∈ L.map Prod.snd) owners) c.world ∧
      (songSignature env c.world rel (· ∈ L.map Prod.snd) owners).stories =
        N.map fun x => ⟨(· ∈ ids), fun st => st = .str "default" ∨ False, x.2⟩ := by
  refine ⟨⟨rfl, (gens_fit rfl).1, (gens_fit rfl).2, ?_, ?_, ?_⟩, ?_⟩
  · change List.Forall₂ _ ((List.range c.world.rels.length).map _) c.world.rels
    have h1 := hs.stage.rels
    rw [List.forall₂_iff_get] at h1 ⊢
    refine ⟨by simp, fun j hj hj' => ?_⟩
    have hlt : j < R.length := by rw [← h1.1]; exact hj'
    obtain ⟨h2, h3⟩ := h1.2 j hj' hlt
    simp only [List.get_eq_getElem] at h2 h3
    simp only [List.get_eq_getElem, List.getElem_map, List.getElem_range]
    have hw : ∀ x ∈ c.world.rels[j].get_relations env.orders, x.2.2 = 1 := ho _ (List.getElem_mem _) _
    by_cases e : j = rel
    · subst e
      rw [if_pos rfl]
      have e : R[j] = L := by
        rw [List.getElem?_eq_getElem hlt] at hR
        exact Option.some.inj hR
      rw [e] at h3
      refine ⟨h2, fun x hx => ⟨by rw [hw x hx]; exact zero_le_one, ?_⟩,
        fun x hx => ⟨x, hx, rfl, by rw [hw x hx]; exact one_pos⟩, fun h => (by cases h), fun v hv => ?_⟩
      · exact List.mem_map_of_mem (f := Prod.snd) ((h3 env.orders).mem_iff.1 (List.mem_map_of_mem hx))
      · obtain ⟨t, hm⟩ := hown v hv
        obtain ⟨x, hx, e⟩ := List.mem_map.1 ((h3 env.orders).mem_iff.2 hm)
        exact ⟨x, hx, (Prod.mk.inj e).1⟩
    · rw [if_neg e]
      exact ⟨h2, fun x hx => ⟨by rw [hw x hx]; exact zero_le_one, trivial⟩,
        fun x hx => ⟨x, hx, rfl, by rw [hw x hx]; exact one_pos⟩, fun h => (by cases h), fun v hv => hv.elim⟩
  · change List.Forall₂ _ (c.world.pops.map _) _
    rw [List.forall₂_map_left_iff, List.forall₂_same]
    exact fun p _ => pop_fits p
  · change List.Forall₂ _ (c.world.stories.map _) _
    rw [List.forall₂_map_left_iff, List.forall₂_same]
    intro s hm
    obtain ⟨h1, sd, h2⟩ := hp s hm
    obtain ⟨j, hj, -⟩ := began_iff.1 h2
    exact story_fits (hs.stage.ids s hm) (h1.members ▸ h1) (.inr ⟨j, hj⟩) (genOk_answers rfl h2 (ht sd))
  · have key : ∀ l : List (Story σ), (∀ s ∈ l, s.ids = ids) →
        (l.map fun s => (⟨(· ∈ s.ids), fun st => st = .str "default" ∨ False, s.idField⟩ : StoryKind)) =
          (l.map fun s => (s.name, s.idField)).map fun x => ⟨(· ∈ ids), fun st => st = .str "default" ∨ False, x.2⟩ := by
      intro l hl
      rw [List.map_map]
      exact List.map_congr_left fun s hm => by rw [hl s hm]; rfl
    change c.world.stories.map _ = _
    rw [← hs.stage.stories]
    exact key _ fun s hm => (hp s hm).1.members

theorem labelled_users {x1 x2 : Attribute} {ids : List Val} {n : Nat}
    (hw : Population.WF ⟨ids, n, [("FIRST_NAME", x1), ("LAST_NAME", x2)], []⟩)
    (hk : ∀ x ∈ [x1, x2], ∀ i ∈ ids, Knows x i) :
    Labelled ["FIRST_NAME", "LAST_NAME"] ⟨ids, n, [("FIRST_NAME", x1), ("LAST_NAME", x2)], []⟩ := by
  refine ⟨hw, fun name hname => ?_⟩
  simp only [List.mem_cons, List.not_mem_nil, or_false] at hname
  rcases hname with rfl | rfl
  · exact ⟨x1, by simp [attributeOf], hk x1 (by simp)⟩
  · exact ⟨x2, by simp [attributeOf], hk x2 (by simp)⟩

theorem cued_of {R : List (List (Val × Val))} {L : List (Val × Val)} {P : List Population} {N : List (String × String)}
    {D G : Dict String Nat} {q : Population} {r : σ} (hsem : env.sem = AnyGen.sem env.R)
    (hs : Site env R P N D G c) (hR : R[rel]? = some L) (hu : P[users]? = some qu)
    (hn : Labelled ["FIRST_NAME", "LAST_NAME"] qu) (hq : q.ids ≠ [])
    (hb : Began env c.world (.ref g) (.choice q.ids none r)) :
    Cued env (songSignature env c.world rel (· ∈ L.map Prod.snd) (· ∈ q.ids)) users g rel qu q.ids (· ∈ L.map Prod.snd) := by
  refine ⟨?_, hn, ?_, genOk_gives rfl hb (gives_choice hsem hq)⟩
  · change (c.world.pops.map _)[users]? = _
    rw [hs.stage.pops, List.getElem?_map, hu]
    rfl
  · change ((List.range c.world.rels.length).map _)[rel]? = _
    have hlt : rel < c.world.rels.length := by
      rw [hs.stage.rels.length_eq]
      exact (List.getElem?_eq_some_iff.1 hR).1
    rw [List.getElem?_map, List.getElem?_range hlt, Option.map_some, if_pos rfl]

theorem has_songs {L : List (Val × Val)} {l : List Val} {n : Nat} (hn : 0 < n) (h : ∀ g ∈ l, countFor g L = n) (v : Val)
    (hv : v ∈ l) : ∃ t, (v, t) ∈ L := by
  have h1 : 0 < countFor v L := by rw [h v hv]; exact hn
  rw [countFor, List.countP_pos_iff] at h1
  obtain ⟨⟨y, t⟩, hy, e⟩ := h1
  obtain rfl : y = v := by simpa using e
  exact ⟨t, hy⟩

theorem ids_ne {a : SeqGen} {n : Nat} (h : 0 < n) : idsFrom a n ≠ [] := fun e => by
  have := congrArg List.length e
  rw [length_idsFrom, List.length_nil] at this
  omega

/-- what a step asks: songs for each genre, some genre and, to share songs, some user -/
structure Params.Enough (p : Params) (sh : Show) : Prop where
  songs : 0 < p.nSongs
  genres : 0 < p.nGenres
  users : sh ≠ .alone → 0 < p.nUsers

/-- the circus that a step builds is well-formed, and the operations of its stories are safe -/
theorem built_safe (hsem : env.sem = AnyGen.sem env.R) {p : Params} {g : Parts (AnyGen σ)} {b a u : SeqGen}
    (hg : g.Usual b a u)
    (ht : ∀ seed, AlwaysAnswers env (g.timer seed) (fun c => ∃ q, c = .scalar (.num q)) IsAmount)
    {name : String} {seed start step : Int} (hnew : Circus.new env.R name seed start step = .ok c) {sh : Show}
    (hp : p.Enough sh) {chains : List (List (Op (World σ (AnyGen σ))))} (h : sh.build env p g c = .ok chains c') :
    ∃ S, Fits env S c'.world ∧ S.step = step ∧ List.Forall₂ (SafeStory env S) S.stories chains := by
  obtain ⟨s0, l0, -, -, d0⟩ := new_site (env := env) hnew
  have o0 : Ones c.world := fun r hr => by
    have h1 := s0.stage.rels
    cases hl : c.world.rels with
    | nil => rw [hl] at hr; cases hr
    | cons r l => rw [hl] at h1; cases h1
  have start : ∀ {u1 : Unit} {c1 : Circus σ (AnyGen σ)}, addRepo env p g c = .ok u1 c1 → ∃ x,
      x.table.map Prod.fst = idsFrom b p.nGenres ∧
      Site env [[]] [⟨idsFrom b p.nGenres, p.nGenres, [("genre_name", x)], [("songs", 0)]⟩] []
        [("music_repository", 0)] [] c1 ∧ Later env 1 c.world c1.world := by
    intro u1 c1 h1
    obtain ⟨ids, x, hids, hx, s1, a1⟩ := addRepo_site s0 l0 h1
    obtain rfl := seq_ids hsem hg.genres hids
    have hz : p.nGenres ≠ 0 := hp.genres.ne'
    have ht := table_new hx fun e => absurd e hz
    exact ⟨x, by rw [ht, List.map_fst_zip (((new_holds hx fun e => absurd e hz).2.2 hz).1.ge)], s1, a1⟩
  have early : ∀ {u1 u2 u3 : Unit} {c1 c2 c3 : Circus σ (AnyGen σ)}, addRepo env p g c = .ok u1 c1 →
      addSongIds env p g c1 = .ok u2 c2 → addListener env p g c2 = .ok u3 c3 → ∃ x L a1 a2,
      (∀ g ∈ idsFrom b p.nGenres, countFor g L = p.nSongs) ∧
      Site env [L] [⟨idsFrom b p.nGenres, p.nGenres, [("genre_name", x)], [("songs", 0)]⟩,
        ⟨idsFrom u p.nUsers, p.nUsers, [("FIRST_NAME", a1), ("LAST_NAME", a2)], []⟩] []
        [("music_repository", 0), ("user", 1)] [] c3 ∧ Later env 5 c.world c3.world ∧
      ∀ x ∈ [a1, a2], ∀ i ∈ idsFrom u p.nUsers, Knows x i := by
    intro u1 u2 u3 c1 c2 c3 h1 h2 h3
    obtain ⟨x, -, s1, k1⟩ := start h1
    have l1 := k1.len
    obtain ⟨arrays, j1, j2, s2, k2⟩ := addSongIds_site hsem rfl s1 hg.songs h2
    have l2 := k2.len
    obtain ⟨ids, a1, a2, hids, s3, k3, hk⟩ := addListener_site s2 (by omega) h3
    obtain rfl := seq_ids hsem hg.users hids
    exact ⟨x, _, a1, a2, (zip_items j1).2.1 (idsFrom_nodup _ _), s3, (k1.trans k2).trans k3, hk⟩
  cases sh with
  | alone =>
    change step2 env p g c = _ at h
    rw [step2] at h
    obtain ⟨u1, c1, h1, h⟩ := Act.bind_eq_ok.1 h
    obtain ⟨u2, c2, h2, h⟩ := Act.bind_eq_ok.1 h
    obtain ⟨u3, c3, h3, h⟩ := Act.bind_eq_ok.1 h
    obtain ⟨ops, c4, h4, h⟩ := Act.bind_eq_ok.1 h
    obtain ⟨rfl, rfl⟩ := Act.pure_eq_ok.1 h
    obtain ⟨x, L, a1, a2, hL, s3, k3, hk⟩ := early h1 h2 h3
    obtain ⟨y, sd, rfl, b4, -, s4, k4, play⟩ := addListen_site rfl s3 h4
    obtain ⟨r, hr⟩ := hg.choice (idsFrom b p.nGenres) none sd
    obtain ⟨hf, hX⟩ := song_fits (owners := (· ∈ idsFrom b p.nGenres)) (rel := 0) s4 rfl ((k3.trans k4).ones o0) (has_songs hp.songs hL)
      (play (idsFrom_nodup _ _)) ht
    have hc := cued_of (q := ⟨idsFrom b p.nGenres, p.nGenres, [("genre_name", x)], [("songs", 0)]⟩) (users := 1) (rel := 0) hsem s4 rfl rfl
      (labelled_users (s4.stage.wf _ (by simp)) hk)
      (ids_ne hp.genres) (hr ▸ b4)
    refine ⟨_, hf, (k3.trans k4).step.trans d0, ?_⟩
    rw [hX]
    refine .cons ?_ .nil
    refine C101_set_operations (by rw [hX]; rfl) ?_
    exact ⟨_, .cons (user_safe hc) (.cons (genre_safe hc) (.cons (song_safe hc) (.cons (.fieldLogger (by simp)) .nil)))⟩
  | both =>
    change step3 env p g c = _ at h
    rw [step3] at h
    obtain ⟨u1, c1, h1, h⟩ := Act.bind_eq_ok.1 h
    obtain ⟨u2, c2, h2, h⟩ := Act.bind_eq_ok.1 h
    obtain ⟨u3, c3, h3, h⟩ := Act.bind_eq_ok.1 h
    obtain ⟨x, L, a1, a2, hL, s3, k3, hk⟩ := early h1 h2 h3
    obtain ⟨y, z, sd, sd', rfl, b4, b5, -, s4, k4, play⟩ := addListenAndShare_site rfl s3 h
    obtain ⟨r, hr⟩ := hg.choice (idsFrom b p.nGenres) none sd
    obtain ⟨r', hr'⟩ := hg.choice (idsFrom u p.nUsers) none sd'
    obtain ⟨hf, hX⟩ := song_fits (owners := (· ∈ idsFrom b p.nGenres)) (rel := 0) s4 rfl ((k3.trans k4).ones o0) (has_songs hp.songs hL)
      (play (idsFrom_nodup _ _)) ht
    have hc := cued_of (q := ⟨idsFrom b p.nGenres, p.nGenres, [("genre_name", x)], [("songs", 0)]⟩) (users := 1) (rel := 0) hsem s4 rfl rfl
      (labelled_users (s4.stage.wf _ (by simp)) hk)
      (ids_ne hp.genres) (hr ▸ b4)
    refine ⟨_, hf, (k3.trans k4).step.trans d0, ?_⟩
    exact both_safe (genreAndSong_safe hc) (by simp [songCtx, Ctx.names]) hX
      (genOk_gives rfl (hr' ▸ b5) (gives_choice hsem (ids_ne (hp.users (by simp)))))
  | detailed =>
    change step4 env p g c = _ at h
    rw [step4] at h
    obtain ⟨u1, c1, h1, h⟩ := Act.bind_eq_ok.1 h
    obtain ⟨u2, c2, h2, h⟩ := Act.bind_eq_ok.1 h
    obtain ⟨u3, c3, h3, h⟩ := Act.bind_eq_ok.1 h
    obtain ⟨x, hx, s1, k1⟩ := start h1
    obtain ⟨L, songs, hcat, -, s2, k2⟩ := addSongs_site hsem rfl rfl s1 (by rw [k1.len, l0]) hg.songs h2
    have l1 := k1.len
    have l2 := k2.len
    obtain ⟨ids, a1, a2, hids, s3, k3, hk⟩ := addListener_site s2 (by omega) h3
    obtain rfl := seq_ids hsem hg.users hids
    obtain ⟨y, z, sd, sd', rfl, b4, b5, -, s4, k4, play⟩ := addDetailed_site (ks := 1) (ku := 2) rfl rfl rfl rfl rfl rfl s3 h
    obtain ⟨r, hr⟩ := hg.choice (idsFrom b p.nGenres) none sd
    obtain ⟨r', hr'⟩ := hg.choice (idsFrom u p.nUsers) none sd'
    have kk := ((k1.trans k2).trans k3).trans k4
    obtain ⟨hf, hX⟩ := song_fits (owners := (· ∈ idsFrom b p.nGenres)) (rel := 0) s4 rfl (kk.ones o0)
      (has_songs hp.songs fun g hm => hcat.count g (hx ▸ hm)) (play (idsFrom_nodup _ _)) ht
    have hc := cued_of (q := ⟨idsFrom b p.nGenres, p.nGenres, [("genre_name", x)], [("songs", 0)]⟩) (users := 2) (rel := 0) hsem s4 rfl rfl
      (labelled_users (s4.stage.wf _ (by simp)) hk)
      (ids_ne hp.genres) (hr ▸ b4)
    refine ⟨_, hf, kk.step.trans d0, ?_⟩
    refine both_safe (genreAndDetails_safe (ks := 1) (songs := songs) hc ?_ ⟨s4.stage.wf _ (by simp), fun name hname => ?_⟩
      fun v hv => (hcat.members v).2 hv) (by simp [songCtx, Ctx.names]) hX
      (genOk_gives rfl (hr' ▸ b5) (gives_choice hsem (ids_ne (hp.users (by simp)))))
    · change (c'.world.pops.map _)[1]? = _
      rw [s4.stage.pops]
      rfl
    · obtain ⟨d, h1, h2⟩ := hcat.known name (by
        simp only [detailNames, List.mem_cons, List.not_mem_nil, or_false] at hname
        rcases hname with rfl | rfl | rfl | rfl <;> simp [songAttributes])
      exact ⟨d, h1, h2⟩

/-- **C132** The run of step 2, 3 or 4 of the example of songs never raises, whatever its duration, provided that there are
a genre, songs for each genre and, in steps 3 and 4, a user; the timers must always be numbers. The folder of the logs must
be absent or deletable, and no file may be in the way of its creation. -/
theorem C132_music_runs (hsem : env.sem = AnyGen.sem env.R) {p : Params} {g : Parts (AnyGen σ)} {b a u : SeqGen}
    (hg : g.Usual b a u)
    (ht : ∀ seed, AlwaysAnswers env (g.timer seed) (fun c => ∃ q, c = .scalar (.num q)) IsAmount)
    {name : String} {seed start step : Int} (hstep : 0 < step) (hnew : Circus.new env.R name seed start step = .ok c)
    {sh : Show} (hp : p.Enough sh) {chains : List (List (Op (World σ (AnyGen σ))))}
    (hbuild : sh.build env p g c = .ok chains c') {text : Cell → Text} {folder : Path} (so : SetOrder String) (fuel d : Nat)
    (duration : Int) (delete : Bool) {fs : FS} (htree : Tree fs) (hroot : At fs [] .dir) (hne : folder ≠ [])
    (hc : ∀ q t, Below q folder → At fs q (.file t) → q = folder) (hdepth : DepthBelow fs folder d) (hfuel : d < fuel)
    (hdel : delete = true ∨ Absent fs folder) :
    ∃ s', Sys.run env text folder so fuel chains duration delete ⟨c', fs⟩ = .ok () s' := by
  obtain ⟨S, hf, he, hs⟩ := built_safe hsem hg ht hnew hp hbuild
  obtain ⟨s', h, -⟩ := C101_run so fuel d duration delete ⟨c', fs⟩ hf (by rw [he]; omega) hs htree hroot hne hc hdepth hfuel
    hdel
  exact ⟨s', h⟩

/-- **C132** The run of step 1, which has no story, never raises. -/
theorem C132_music_step1_runs (hsem : env.sem = AnyGen.sem env.R) {p : Params} {g : Parts (AnyGen σ)} {b a u : SeqGen}
    (hg : g.Usual b a u) {name : String} {seed start step : Int} (hstep : 0 < step)
    (hnew : Circus.new env.R name seed start step = .ok c) {chains : List (List (Op (World σ (AnyGen σ))))}
    (hbuild : step1 env p g c = .ok chains c') {text : Cell → Text} {folder : Path} (so : SetOrder String) (fuel d : Nat)
    (duration : Int) (delete : Bool) {fs : FS} (htree : Tree fs) (hroot : At fs [] .dir) (hne : folder ≠ [])
    (hc : ∀ q t, Below q folder → At fs q (.file t) → q = folder) (hdepth : DepthBelow fs folder d) (hfuel : d < fuel)
    (hdel : delete = true ∨ Absent fs folder) :
    ∃ s', Sys.run env text folder so fuel chains duration delete ⟨c', fs⟩ = .ok () s' := by
  obtain ⟨s0, l0, -, -, d0⟩ := new_site (env := env) hnew
  have o0 : Ones c.world := fun r hr => by
    have h1 := s0.stage.rels
    cases hl : c.world.rels with
    | nil => rw [hl] at hr; cases hr
    | cons r l => rw [hl] at h1; cases h1
  rw [step1] at hbuild
  obtain ⟨u1, c1, h1, h⟩ := Act.bind_eq_ok.1 hbuild
  obtain ⟨u2, c2, h2, h⟩ := Act.bind_eq_ok.1 h
  obtain ⟨rfl, rfl⟩ := Act.pure_eq_ok.1 h
  obtain ⟨ids, x, -, -, s1, k1⟩ := addRepo_site s0 l0 h1
  obtain ⟨arrays, -, -, s2, k2⟩ := addSongIds_site hsem rfl s1 hg.songs h2
  have e : c2.world.stories = [] := List.map_eq_nil_iff.1 s2.stage.stories
  have hsig : (plainSignature env c2.world).stories = [] := by rw [plainSignature, e]; rfl
  have hf : Fits env (plainSignature env c2.world) c2.world := by
    refine plain_fits (fun r hr => ⟨?_, (k1.trans k2).ones o0 r hr⟩) fun s hm => ?_
    · obtain ⟨L, -, hf⟩ := forall₂_exists_right s2.stage.rels hr
      exact hf.1
    · rw [e] at hm
      cases hm
  have hst : (plainSignature env c2.world).step = step := (k1.trans k2).step.trans d0
  obtain ⟨s', h, -⟩ := C101_run (chains := []) so fuel d duration delete ⟨c2, fs⟩ hf (by rw [hst]; omega) (by rw [hsig]; exact .nil)
    htree hroot hne hc hdepth hfuel hdel
  exact ⟨s', h⟩

/-! ### Non-vacuity -/

/-- the run of step 4 of the example with few songs ends, whatever its duration -/
example (duration : Int) : ∃ x, exBuild .detailed = some x ∧ ∃ s', Sys.run Trumania.exEnv Trumania.exFmt ["logs"]
    (SetOrder.dedup String) 1 x.1 duration false ⟨x.2, [([], .dir)]⟩ = .ok () s' := by
  have hx : (exBuild .detailed).isSome = true := by decide +kernel
  obtain ⟨⟨chains, c'⟩, h1⟩ := Option.isSome_iff_exists.1 hx
  refine ⟨_, h1, ?_⟩
  rw [exBuild] at h1
  split at h1
  · rename_i c hc
    split at h1
    · rename_i hb
      cases h1
      exact C132_music_runs (env := Trumania.exEnv) rfl exUsual (fun _ => answers_cyclic rfl _) (by decide) hc
        ⟨by decide, by decide, fun _ => by decide⟩ hb _ _ 0 duration _ ⟨by decide +kernel, by simp [At]⟩ (by simp [At])
        (by simp) (by simp [At]) (by simp [DepthBelow, At]) (by omega) (.inr (by simp [Absent, At]))
    · cases h1
  · cases h1

/-- **C132** There must be a genre: without any the circus of step 2 is built, but the first user who wants to listen
raises. -/
theorem C132_no_genre_raises : (match Circus.new Rng.counter "music" 1234 0 (3600 * nsPerSec) with
    | .ok c => match Show.alone.build Trumania.exEnv { exParams with nGenres := 0, genreNames := [] } exParts c with
      | .ok chains c' => some (Snd.play Trumania.exEnv chains (List.replicate 3 [some 0, none]).flatten c'.world).isSome
      | .error _ _ => none
    | .error _ => none) = some false := by decide +kernel

end Music
end Trumania
