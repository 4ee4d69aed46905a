import Verif.Proofs.MusicBuild
import Verif.Proofs.MusicRun
import Verif.Props.ShopEarly

/-!
# C126: what the records of examples/tutorial/example3.py tell
-/

namespace Trumania
namespace Music
open Spec World Circus Cdr Shop
variable {σ : Type} {env : Env σ (AnyGen σ)} {w w' : World σ (AnyGen σ)} {sc : Scene} {evs : List (Int × Event)}
  {c c' : Circus σ (AnyGen σ)}

theorem along (hsem : env.sem = AnyGen.sem env.R) (h : Played env (sc.chains env) w evs w') (hw : Ready env sc w) :
    Ready env sc w' ∧ Still env sc.rel w w' := by
  induction h with
  | nil w => exact ⟨hw, .refl⟩
  | exec hi h rest ih =>
    obtain ⟨s, -, hd⟩ := did hsem hw hi h
    obtain ⟨k1, k2⟩ := ih (exec_ready hsem hw hi h)
    exact ⟨k1, hd.still.trans k2⟩
  | tick rest ih =>
    obtain ⟨k1, k2⟩ := ih (tick_ready hw)
    exact ⟨k1, k2.pops, k2.ok, k2.songs⟩

theorem Tells.back (hw : Ready env sc w) (hs : Still env sc.rel w w') {j : Nat} {t : Frame} {r : Row} (h : Tells sc w' j t r) :
    Tells sc w j t r :=
  h.of hs.pops.symm fun o _ hx => ((hs.songs hw.stocks o).mem_iff).1 hx

/-! ### The records of a run -/

/-- **C126** In any run of the stories of steps 2 to 4, an execution of a story writes only in the log of that story:
one table, with one record for each user who acts, in the order of the users; or nothing at all if nobody acts. -/
theorem C126_who (hsem : env.sem = AnyGen.sem env.R) (hw : Ready env sc w) {e1 e2 : List (Int × Event)} {d : Int} {j : Nat}
    {logs : Logs} (h : Played env (sc.chains env) w (e1 ++ (d, .exec j logs) :: e2) w') :
    ∃ u s, Played env (sc.chains env) w e1 u ∧ u.stories[j]? = some s ∧ u.clock.current = d ∧
      (∀ id, id ≠ sc.logOf j → tablesOf id logs = []) ∧
      ((actingRows s = [] ∧ logs = []) ∨ ∃ t, tablesOf (sc.logOf j) logs = [t] ∧ t.index = (actingRows s).map (·.idx) ∧
        t.index.Nodup) := by
  obtain ⟨u, u', ops, h1, hi, hx, -, hd⟩ := played_at h rfl
  have hu := (along hsem h1 hw).1
  obtain ⟨s, hs, hd'⟩ := did hsem hu hi hx
  refine ⟨u, s, h1, hs, hd.symm, hd'.other, hd'.acting.imp_right ?_⟩
  rintro ⟨t, k1, k2, -⟩
  refine ⟨t, k1, k2, ?_⟩
  rw [k2]
  exact (acting_names (hu.ids s (List.mem_of_getElem? hs)) (hu.fields s (List.mem_of_getElem? hs))).2.1

/-- **C126** In any run of the stories of steps 2 to 4, each record has the fields of its log, and tells of a user with
its names, of a genre and of a song of that genre; in step 4 of the attributes of that song; and a share tells of the
user it is shared to: all of them as they are in the beginning. -/
theorem C126_records (hsem : env.sem = AnyGen.sem env.R) (hw : Ready env sc w) {e1 e2 : List (Int × Event)} {d : Int}
    {j : Nat} {logs : Logs} (h : Played env (sc.chains env) w (e1 ++ (d, .exec j logs) :: e2) w') :
    ∀ t ∈ tablesOf (sc.logOf j) logs, t.cols = sc.fieldsOf j ∧ ∀ r ∈ t.rows, Tells sc w j t r := by
  obtain ⟨u, u', ops, h1, hi, hx, hd, -⟩ := played_at h rfl
  obtain ⟨hu, hs⟩ := along hsem h1 hw
  obtain ⟨s, -, hd'⟩ := did hsem hu hi hx
  intro t ht
  rcases hd'.acting with ⟨-, rfl⟩ | ⟨t', k1, -, k3, k4⟩
  · simp [tablesOf] at ht
  · rw [k1, List.mem_singleton] at ht
    subst ht
    exact ⟨k3, fun r hr => (k4 r hr).back hw hs⟩

/-- **C126** The populations and the songs of the genres never change. -/
theorem C126_constant (hsem : env.sem = AnyGen.sem env.R) (hw : Ready env sc w)
    (h : Played env (sc.chains env) w evs w') : w'.pops = w.pops ∧ ∀ o, (stockAt o w' sc.rel).Perm (stockAt o w sc.rel) :=
  ⟨(along hsem h hw).2.pops, (along hsem h hw).2.songs hw.stocks⟩

/-! ### What is built -/

theorem opened {R : List (List (Val × Val))} {L : List (Val × Val)} {q : Population} {P : List Population}
    {S : List (String × String)}
    {D G : Dict String Nat} {p : Params} {b a u : SeqGen} {x : Attribute} {qu : Population}
    (hs : Site env R P S D G c) (hR : R[sc.rel]? = some L) (hP : P[sc.repo]? = some q) (hS : ∀ x ∈ S, x.2 = "UID") (hpos : 0 < p.nSongs)
    (hq : q.ids = idsFrom b p.nGenres) (hx : attributeOf q "genre_name" x)
    (hxt : x.table = (idsFrom b p.nGenres).zip (p.genreNames.map Cell.str))
    (hu : P[sc.users]? = some qu) (hui : qu.ids = idsFrom u p.nUsers)
    (hL : L.map Prod.snd = idsFrom a (p.nGenres * p.nSongs)) (hL' : ∀ g ∈ q.ids, countFor g L = p.nSongs)
    (hg : ∃ pr r, Began env c.world (.ref sc.genres) (.choice q.ids pr r))
    (hc : sc.kind ≠ .alone → ∃ pr r, Began env c.world (.ref sc.choice) (.choice qu.ids pr r))
    (hd : sc.kind = .detailed → ∃ songs, P[sc.songs]? = some songs ∧
      Catalogue p.nSongs a ((idsFrom b p.nGenres).zip (p.genreNames.map Cell.str)) L songs ∧
      Whole songs "recording_year" ∧ Whole songs "duration_seconds") (hm : Moderate c.world) :
    Ready env sc c.world ∧ Opening p b a u sc c.world := by
  have r0 := stage_stock hs.stage hR
  have hh : ∀ o g, held o c.world sc.rel g = countFor g L := fun o g => (r0.2 o).countP_eq _
  have hp := hs.stage.pops
  have h0 : c.world.pops[sc.repo]? = some q := by rw [hp]; exact hP
  refine ⟨⟨hp ▸ hs.stage.wf, hs.stage.ids, fun s hm => ?_, ?_, ?_, fun hk => ?_, fun o g hm => ?_⟩,
    ⟨⟨q, x, h0, hq, hx, hxt⟩, ⟨qu, by rw [hp]; exact hu, hui⟩, fun o => ?_,
    fun o g hm => ?_, fun hk => ?_, hm⟩⟩
  · refine hS (s.name, s.idField) ?_
    rw [← hs.stage.stories]
    exact List.mem_map_of_mem (f := fun s : Story σ => (s.name, s.idField)) hm
  · intro i hi
    obtain rfl := List.mem_singleton.1 hi
    exact r0.1
  · obtain ⟨pr, r, hb⟩ := hg
    exact ⟨q, pr, r, h0, hb⟩
  · obtain ⟨pr, r, hb⟩ := hc hk
    exact ⟨qu, pr, r, by rw [hp]; exact hu, hb⟩
  · obtain ⟨q', hq', hm⟩ := hm
    rw [h0] at hq'
    cases hq'
    have := hL' g hm
    rw [← hh o g] at this
    have h1 : 0 < held o c.world sc.rel g := by omega
    rw [held, List.countP_pos_iff] at h1
    obtain ⟨⟨y, t⟩, hy, e⟩ := h1
    obtain rfl : y = g := by simpa using e
    exact ⟨t, hy⟩
  · rw [← hL]
    exact (r0.2 o).map _
  · rw [hh]
    exact hL' g (hq ▸ hm)
  · obtain ⟨songs, h1, h2⟩ := hd hk
    exact ⟨L, songs, by rw [hp]; exact h1, r0.2, h2⟩

theorem seq_ids (hsem : env.sem = AnyGen.sem env.R) {n : Nat} {ids : List Val} {b : SeqGen} {g : AnyGen σ} (hb : g = .seq b)
    (hids : n = 0 ∧ ids = [] ∨ ∃ cells x, env.sem.generate g (n : Rat) = .ok (cells, x) ∧ cells.mapM Cell.asVal = .ok ids) :
    ids = idsFrom b n := by
  rcases hids with ⟨e, rfl⟩ | ⟨cells, x, k1, k2⟩
  · rw [e]
    rfl
  · rw [hb] at k1
    exact (Snd.seq_drawn hsem k1 k2).1

theorem table_new {n : Nat} {ids : List Val} {values : List Cell} {a : Attribute} (h : Attribute.new n ids values = .ok a)
    (hn : n = 0 → ids = []) : a.table = ids.zip values := by
  by_cases hz : n = 0
  · rw [hn hz]
    rw [Attribute.new, if_pos hz] at h
    cases h
    rfl
  · exact ((new_holds h hn).2.2 hz).2

theorem length_idsFrom (a : SeqGen) (n : Nat) : (idsFrom a n).length = n := by simp [idsFrom]

/-- **C126** Steps 2 to 4, when they succeed and the genres have songs: the stories are those of the records above, and
each genre has its songs; in step 4 they are the members of a population, with their attributes. -/
theorem C126_built (hsem : env.sem = AnyGen.sem env.R) {p : Params} {g : Parts (AnyGen σ)} {b a u : SeqGen}
    (hg : g.Usual b a u) (hpos : 0 < p.nSongs) {name : String} {seed start step : Int}
    (hnew : Circus.new env.R name seed start step = .ok c) {sh : Show}
    {chains : List (List (Op (World σ (AnyGen σ))))} (h : sh.build env p g c = .ok chains c') :
    ∃ sc : Scene, sc.kind = sh ∧ sc.users = sh.users ∧ chains = sc.chains env ∧ Ready env sc c'.world ∧
      Opening p b a u sc c'.world := by
  obtain ⟨s0, l0, -, -, -⟩ := new_site (env := env) hnew
  have start : ∀ {u1 : Unit} {c1 : Circus σ (AnyGen σ)}, addRepo env p g c = .ok u1 c1 → ∃ x,
      x.table = (idsFrom b p.nGenres).zip (p.genreNames.map Cell.str) ∧ x.table.map Prod.fst = idsFrom b p.nGenres ∧
      Site env [[]] [⟨idsFrom b p.nGenres, p.nGenres, [("genre_name", x)], [("songs", 0)]⟩] []
        [("music_repository", 0)] [] c1 ∧ c1.world.gens.length = 1 := by
    intro u1 c1 h1
    obtain ⟨ids, x, hids, hx, s1, a1⟩ := addRepo_site s0 l0 h1
    obtain rfl := seq_ids hsem hg.genres hids
    have ht := table_new hx fun e => by rw [e]; rfl
    refine ⟨x, ht, ?_, s1, by rw [a1.len, l0]⟩
    by_cases hz : p.nGenres = 0
    · rw [ht, hz]
      rfl
    · rw [ht, List.map_fst_zip (((new_holds hx fun e => absurd e hz).2.2 hz).1.ge)]
  have early : ∀ {u1 u2 u3 : Unit} {c1 c2 c3 : Circus σ (AnyGen σ)}, addRepo env p g c = .ok u1 c1 →
      addSongIds env p g c1 = .ok u2 c2 → addListener env p g c2 = .ok u3 c3 → ∃ x L a1 a2,
      x.table = (idsFrom b p.nGenres).zip (p.genreNames.map Cell.str) ∧
      L.map Prod.snd = idsFrom a (p.nGenres * p.nSongs) ∧ (∀ g ∈ idsFrom b p.nGenres, countFor g L = p.nSongs) ∧
      Site env [L] [⟨idsFrom b p.nGenres, p.nGenres, [("genre_name", x)], [("songs", 0)]⟩,
        ⟨idsFrom u p.nUsers, p.nUsers, [("FIRST_NAME", a1), ("LAST_NAME", a2)], []⟩] []
        [("music_repository", 0), ("user", 1)] [] c3 := by
    intro u1 u2 u3 c1 c2 c3 h1 h2 h3
    obtain ⟨x, hx, -, s1, l1⟩ := start h1
    obtain ⟨arrays, j1, j2, s2, a2⟩ := addSongIds_site hsem rfl s1 hg.songs h2
    have l2 := a2.len
    obtain ⟨ids, a1, a2, hids, s3, -⟩ := addListener_site s2 (by omega) h3
    obtain rfl := seq_ids hsem hg.users hids
    obtain ⟨z1, z2, -⟩ := zip_items j1
    refine ⟨x, _, a1, a2, hx, z1.trans ?_, z2 (idsFrom_nodup _ _), s3⟩
    rw [j2]
    show idsFrom a ((idsFrom b p.nGenres).length * _) = _
    rw [length_idsFrom]
  cases sh with
  | alone =>
    change step2 env p g c = _ at h
    rw [step2] at h
    obtain ⟨u1, c1, h1, h⟩ := Act.bind_eq_ok.1 h
    obtain ⟨u2, c2, h2, h⟩ := Act.bind_eq_ok.1 h
    obtain ⟨u3, c3, h3, h⟩ := Act.bind_eq_ok.1 h
    obtain ⟨ops, c4, h4, h⟩ := Act.bind_eq_ok.1 h
    obtain ⟨rfl, rfl⟩ := Act.pure_eq_ok.1 h
    obtain ⟨x, L, a1, a2, hx, hL, hL', s3⟩ := early h1 h2 h3
    obtain ⟨y, sd, rfl, b4, hm, s4, -⟩ := addListen_site rfl s3 h4
    obtain ⟨r, hr⟩ := hg.choice (idsFrom b p.nGenres) none sd
    refine ⟨⟨.alone, 1, y, 0, 0, 0, 1⟩, rfl, rfl, rfl, ?_⟩
    exact opened s4 rfl rfl (by simp) hpos rfl (by simp [attributeOf]) hx rfl rfl hL hL' ⟨none, r, hr ▸ b4⟩ (fun hk => absurd rfl hk) (by simp) hm
  | both =>
    change step3 env p g c = _ at h
    rw [step3] at h
    obtain ⟨u1, c1, h1, h⟩ := Act.bind_eq_ok.1 h
    obtain ⟨u2, c2, h2, h⟩ := Act.bind_eq_ok.1 h
    obtain ⟨u3, c3, h3, h⟩ := Act.bind_eq_ok.1 h
    obtain ⟨x, L, a1, a2, hx, hL, hL', s3⟩ := early h1 h2 h3
    obtain ⟨y, z, sd, sd', rfl, b4, b5, hm, s4, -⟩ := addListenAndShare_site rfl s3 h
    obtain ⟨r, hr⟩ := hg.choice (idsFrom b p.nGenres) none sd
    obtain ⟨r', hr'⟩ := hg.choice (idsFrom u p.nUsers) none sd'
    refine ⟨⟨.both, 1, y, z, 0, 0, 1⟩, rfl, rfl, rfl, ?_⟩
    exact opened s4 rfl rfl (by simp) hpos rfl (by simp [attributeOf]) hx rfl rfl hL hL' ⟨none, r, hr ▸ b4⟩ (fun _ => ⟨none, r', hr' ▸ b5⟩) (by simp) hm
  | detailed =>
    change step4 env p g c = _ at h
    rw [step4] at h
    obtain ⟨u1, c1, h1, h⟩ := Act.bind_eq_ok.1 h
    obtain ⟨u2, c2, h2, h⟩ := Act.bind_eq_ok.1 h
    obtain ⟨u3, c3, h3, h⟩ := Act.bind_eq_ok.1 h
    obtain ⟨x, hx, hk, s1, l1⟩ := start h1
    obtain ⟨L, songs, hcat, hint, s2, a0⟩ := addSongs_site hsem rfl rfl s1 l1 hg.songs h2
    have l2 := a0.len
    obtain ⟨ids, a1, a2, hids, s3, -⟩ := addListener_site s2 (by omega) h3
    obtain rfl := seq_ids hsem hg.users hids
    obtain ⟨y, z, sd, sd', rfl, b4, b5, hm, s4, -⟩ := addDetailed_site (ks := 1) (ku := 2) rfl rfl rfl rfl rfl rfl s3 h
    obtain ⟨r, hr⟩ := hg.choice (idsFrom b p.nGenres) none sd
    obtain ⟨r', hr'⟩ := hg.choice (idsFrom u p.nUsers) none sd'
    refine ⟨⟨.detailed, 2, y, z, 0, 0, 1⟩, rfl, rfl, rfl, ?_⟩
    have hlen : x.table.length = p.nGenres := by
      have := congrArg List.length hk
      rwa [List.length_map, length_idsFrom] at this
    refine opened s4 rfl rfl (by simp) hpos rfl (by simp [attributeOf]) hx rfl rfl (by rw [hcat.ids, hlen]) (fun g hm => hcat.count g (hk ▸ hm))
      ⟨none, r, hr ▸ b4⟩ (fun _ => ⟨none, r', hr' ▸ b5⟩) (fun _ => ⟨songs, rfl, ?_, hint⟩) hm
    rw [← hx]
    exact hcat

/-! ### Runs of what is built -/

/-- **C126** In a run of a step, each record tells of one of the first ids of the users, of the genres and of the songs. -/
theorem C126_ids (hsem : env.sem = AnyGen.sem env.R) {p : Params} {b a u : SeqGen} (hw : Ready env sc w)
    (ho : Opening p b a u sc w) {e1 e2 : List (Int × Event)} {d : Int} {j : Nat} {logs : Logs}
    (h : Played env (sc.chains env) w (e1 ++ (d, .exec j logs) :: e2) w') :
    ∀ t ∈ tablesOf (sc.logOf j) logs, ∀ r ∈ t.rows, ∃ genre ∈ idsFrom b p.nGenres,
      ∃ song ∈ idsFrom a (p.nGenres * p.nSongs), cell t r "GENRE" = .scalar genre ∧ cell t r "SONG_ID" = .scalar song ∧
        (j = 1 → ∃ v ∈ idsFrom u p.nUsers, cell t r "SHARED_TO_UID" = .scalar v) := by
  intro t ht r hr
  have hT := (C126_records hsem hw h t ht).2 r hr
  obtain ⟨genre, song, h1, ⟨q, h2, h3⟩, h4, h5, -⟩ := hT.song
  obtain ⟨q', x, k1, k2, -, -⟩ := ho.genres
  rw [h2] at k1
  cases k1
  refine ⟨genre, k2 ▸ h3, song, ?_, h1, h4, fun hj => ?_⟩
  · exact (ho.songs env.orders).mem_iff.1 (List.mem_map_of_mem (f := Prod.snd) (h5 env.orders))
  · obtain ⟨v, m1, q2, m2, m3⟩ := hT.shared hj
    obtain ⟨q3, n1, n2⟩ := ho.users
    rw [m2] at n1
    cases n1
    exact ⟨v, n2 ▸ m3, m1⟩

/-- **C126** In a run of step 4, the song of a record is a member of the population of the songs, and its `song_genre` is
the name of the genre of the record. -/
theorem C126_genre (hsem : env.sem = AnyGen.sem env.R) {p : Params} {b a u : SeqGen} (hw : Ready env sc w)
    (ho : Opening p b a u sc w) (hk : sc.kind = .detailed) {e1 e2 : List (Int × Event)} {d : Int} {j : Nat} {logs : Logs}
    (h : Played env (sc.chains env) w (e1 ++ (d, .exec j logs) :: e2) w') :
    ∀ t ∈ tablesOf (sc.logOf j) logs, ∀ r ∈ t.rows, ∃ genre song name, cell t r "GENRE" = .scalar genre ∧
      cell t r "SONG_ID" = .scalar song ∧ MemberOf w sc.songs song ∧ ValueOf w sc.repo "genre_name" genre name ∧
      ValueOf w sc.songs "song_genre" song name := by
  intro t ht r hr
  obtain ⟨genre, song, h1, -, h4, h5, -⟩ := ((C126_records hsem hw h t ht).2 r hr).song
  obtain ⟨L, songs, k1, k2, k3, -⟩ := ho.details hk
  have hm := (k2 env.orders).mem_iff.1 (h5 env.orders)
  obtain ⟨name, m1, x, m2, m3⟩ := k3.genre _ hm
  obtain ⟨q, y, n1, -, n2, n3⟩ := ho.genres
  refine ⟨genre, song, name, h1, h4, ⟨songs, k1, (k3.members song).2 (List.mem_map_of_mem (f := Prod.snd) hm)⟩,
    ⟨q, y, n1, n2, ?_⟩, ⟨songs, x, k1, m2, m3⟩⟩
  show (genre, name) ∈ y.table
  rw [n3]
  exact m1

/-- **C126** In a run of step 4, the year and the duration of a record are integers. -/
theorem C126_integers (hsem : env.sem = AnyGen.sem env.R) {p : Params} {b a u : SeqGen} (hw : Ready env sc w)
    (ho : Opening p b a u sc w) (hk : sc.kind = .detailed) {e1 e2 : List (Int × Event)} {d : Int} {j : Nat} {logs : Logs}
    (h : Played env (sc.chains env) w (e1 ++ (d, .exec j logs) :: e2) w') :
    ∀ t ∈ tablesOf (sc.logOf j) logs, ∀ r ∈ t.rows, ∃ year duration : Int, cell t r "SONG_YEAR" = .num (year : Rat) ∧
      cell t r "SONG_DURATION" = .num (duration : Rat) := by
  intro t ht r hr
  obtain ⟨genre, song, -, -, -, -, h6⟩ := ((C126_records hsem hw h t ht).2 r hr).song
  obtain ⟨-, -, ⟨q, x, m1, m2, m3⟩, ⟨q', x', n1, n2, n3⟩⟩ := h6 hk
  obtain ⟨L, songs, k1, -, -, k2, k3⟩ := ho.details hk
  rw [k1] at m1 n1
  cases m1
  cases n1
  obtain ⟨y, hy⟩ := k2 x m2 _ _ m3
  obtain ⟨z, hz⟩ := k3 x' n2 _ _ n3
  exact ⟨y, z, hy, hz⟩

/-- **C126** In a run of a step, the activities of the users remain between 10 and 30. -/
theorem C126_activity {p : Params} {b a u : SeqGen} (ho : Opening p b a u sc w)
    (h : Played env (sc.chains env) w evs w') : Moderate w' := by
  have hm := ho.activity
  clear ho
  induction h with
  | nil w => exact hm
  | @exec w w1 w' l i ops logs hi h rest ih =>
    refine ih fun s hs => ?_
    obtain ⟨k, hk⟩ := List.getElem?_of_mem hs
    obtain ⟨s0, h1, h2⟩ := forall₂_exists_left (execute_sameStories (music_builtIn hi (F := fun _ => True)) h) hs
    rw [h2.1]
    exact hm s0 h1
  | tick rest ih => exact ih hm

/-! ### Non-vacuity -/

def exParams : Params where
  nGenres := 2
  genreNames := ["blues", "jazz"]
  nSongs := 2
  nUsers := 2
  nArtists := 2

def exParts : Parts (AnyGen Nat) where
  genreIds := .seq ⟨0, "GENRE_", 3⟩
  userIds := .seq ⟨0, "user_", 3⟩
  firstNames seed := .choice [.str "A", .str "B"] none (Rng.counter.seed seed)
  lastNames seed := .choice [.str "C", .str "D"] none (Rng.counter.seed seed)
  timer seed := .cyclic ⟨Rng.counter.seed seed, 1, [(0, 1)]⟩
  activity seed := .uniform 10 30 (Rng.counter.seed seed)
  songIds := .seq ⟨0, "S_", 3⟩
  unusedIds := .seq ⟨0, "SONG_", 3⟩
  names seed := .choice [.str "E", .str "F"] none (Rng.counter.seed seed)
  titles seed := .choice [.str "G", .str "H"] none (Rng.counter.seed seed)
  dates seed := .uniform 1910 2018 (Rng.counter.seed seed)
  year c := .ok c
  durations seed := .uniform 60 600 (Rng.counter.seed seed)
  choice l p seed := .choice l p (Rng.counter.seed seed)

theorem exUsual : exParts.Usual ⟨0, "GENRE_", 3⟩ ⟨0, "S_", 3⟩ ⟨0, "user_", 3⟩ := ⟨rfl, rfl, rfl, fun _ _ _ => ⟨_, rfl⟩⟩

def exBuild (sh : Show) : Option (List (List (Op (World Nat (AnyGen Nat)))) × Circus Nat (AnyGen Nat)) :=
  match Circus.new Rng.counter "music" 1234 0 (3600 * nsPerSec) with
  | .ok c => match sh.build Trumania.exEnv exParams exParts c with
    | .ok chains c' => some (chains, c')
    | .error _ _ => none
  | .error _ => none

/-- the records of a log in a run: genre, song, and user it is shared to -/
def exRecords (sh : Show) (id : String) (which : List (Option Nat)) : Option (List (List Cell)) :=
  (exBuild sh).bind fun x => (Snd.play exEnv x.1 which x.2.world).map fun r =>
    (tablesOf id (emitted r.1)).flatMap fun t => t.rows.map fun r => [cell t r "UID", cell t r "GENRE",
      cell t r "SONG_ID", cell t r "SHARED_TO_UID"]

theorem exShares : exRecords .detailed "share_events" [some 0, some 1, none] =
    some [[.str "user_000", .str "GENRE_000", .str "S_001", .str "user_001"],
      [.str "user_001", .str "GENRE_001", .str "S_003", .str "user_000"]] := by
  decide +kernel

/-- the hypotheses of C126 hold of this run of step 4 -/
example : ∃ sc c c' evs w', sc.kind = .detailed ∧ Circus.new exEnv.R "music" 1234 0 (3600 * nsPerSec) = .ok c ∧
    Show.detailed.build exEnv exParams exParts c = .ok (sc.chains exEnv) c' ∧ Ready exEnv sc c'.world ∧
    Opening exParams ⟨0, "GENRE_", 3⟩ ⟨0, "S_", 3⟩ ⟨0, "user_", 3⟩ sc c'.world ∧
    Played exEnv (sc.chains exEnv) c'.world evs w' ∧ tablesOf "share_events" (emitted evs) ≠ [] := by
  obtain ⟨⟨chains, c'⟩, h1, h2⟩ := Option.bind_eq_some_iff.1 exShares
  obtain ⟨⟨evs, w'⟩, h3, h4⟩ := Option.map_eq_some_iff.1 h2
  rw [exBuild] at h1
  split at h1
  · rename_i c hc
    split at h1
    · rename_i hb
      cases h1
      obtain ⟨sc, k0, -, rfl, k1, k2⟩ := C126_built (env := exEnv) rfl exUsual (by decide) hc hb
      refine ⟨sc, c, _, evs, w', k0, hc, hb, k1, k2, Snd.play_played h3, fun e => ?_⟩
      simp only [e] at h4
      cases h4
    · cases h1
  · cases h1

end Music
end Trumania
