import Verif.Proofs.MusicBuilds

/-!
# C139: the steps of examples/tutorial/example3.py never raise, from the creation of the circus to the end of the run
-/

namespace Trumania
namespace Builds
open Spec World Circus Cdr
open Shop (Site onWorld_ok)
open Music (Show)
variable {σ : Type} {env : Env σ (AnyGen σ)} {w w' : World σ (AnyGen σ)} {c c' : Circus σ (AnyGen σ)}

/-- the genres and the users of the example, and the songs of its steps 1 to 3 -/
structure Tuned (env : Env σ (AnyGen σ)) (p : Music.Params) (g : Music.Parts (AnyGen σ)) : Prop where
  names : p.genreNames.length = p.nGenres
  first : ∀ seed, AlwaysGives env (g.firstNames seed) fun _ => True
  last : ∀ seed, AlwaysGives env (g.lastNames seed) fun _ => True
  lively : Lively env g

theorem repo_ends (hsem : env.sem = AnyGen.sem env.R) {p : Music.Params} {g : Music.Parts (AnyGen σ)} {b a u : SeqGen}
    (hg : g.Usual b a u) (hn : p.genreNames.length = p.nGenres) {name : String} {seed start step : Int}
    (hnew : Circus.new env.R name seed start step = .ok c) : ∃ x c1, Music.addRepo env p g c = .ok () c1 ∧
      Site env [[]] [⟨idsFrom b p.nGenres, p.nGenres, [("genre_name", x)], [("songs", 0)]⟩] []
        [("music_repository", 0)] [] c1 ∧ c1.world.gens.length = 1 ∧ Music.Ones c1.world := by
  obtain ⟨s0, l0, -⟩ := Shop.new_site (env := env) hnew
  have o0 : Music.Ones c.world := fun r hr => by
    have h1 := s0.stage.rels
    cases hl : c.world.rels with
    | nil => rw [hl] at hr; cases hr
    | cons r l => rw [hl] at h1; cases h1
  obtain ⟨u1, c1, h1⟩ := ends_addRepo hsem hg.genres hn s0 l0
  obtain ⟨ids, x, hids, -, s1, k1⟩ := Music.addRepo_site s0 l0 h1
  obtain rfl := Music.seq_ids hsem hg.genres hids
  exact ⟨x, c1, h1, s1, by rw [k1.len, l0], k1.ones o0⟩

/-- **C139** Step 1, which creates the genres and the identifiers of their songs, is always built. -/
theorem C139_step1_build (hsem : env.sem = AnyGen.sem env.R) {p : Music.Params} {g : Music.Parts (AnyGen σ)}
    {b a u : SeqGen} (hg : g.Usual b a u) (hn : p.genreNames.length = p.nGenres)
    {name : String} {seed start step : Int} (hnew : Circus.new env.R name seed start step = .ok c) :
    ∃ chains c', Music.step1 env p g c = .ok chains c' := by
  obtain ⟨x, c1, h1, s1, -⟩ := repo_ends hsem hg hn hnew
  obtain ⟨u2, c2, h2⟩ := ends_addSongIds (p := p) hsem rfl s1 hg.songs
  exact ⟨_, _, by
    rw [Music.step1, Act.bind_ok h1, Act.bind_ok h2]
    rfl⟩

/-- **C139** So are steps 2 to 4, with any number of genres, songs and users; in step 4 there must be an artist. -/
theorem C139_songs_build (hsem : env.sem = AnyGen.sem env.R) {p : Music.Params} {g : Music.Parts (AnyGen σ)}
    {b a u : SeqGen} (hg : g.Usual b a u) (ht : Tuned env p g) {sh : Show} (hrec : sh = .detailed → Recorded env p g)
    {name : String} {seed start step : Int} (hnew : Circus.new env.R name seed start step = .ok c) :
    ∃ chains c', sh.build env p g c = .ok chains c' := by
  obtain ⟨x, c1, h1, s1, l1, o1⟩ := repo_ends hsem hg ht.names hnew
  have early : sh ≠ .detailed → ∃ c2 c3 L a1 a2, Music.addSongIds env p g c1 = .ok () c2 ∧
      Music.addListener env p g c2 = .ok () c3 ∧
      Site env [L] [⟨idsFrom b p.nGenres, p.nGenres, [("genre_name", x)], [("songs", 0)]⟩,
        ⟨idsFrom u p.nUsers, p.nUsers, [("FIRST_NAME", a1), ("LAST_NAME", a2)], []⟩] []
        [("music_repository", 0), ("user", 1)] [] c3 := by
    intro _
    obtain ⟨u2, c2, h2⟩ := ends_addSongIds (p := p) hsem rfl s1 hg.songs
    obtain ⟨arrays, -, -, s2, k2⟩ := Music.addSongIds_site hsem rfl s1 hg.songs h2
    have l2 := k2.len
    obtain ⟨u3, c3, h3⟩ := ends_addListener (p := p) hsem hg.users (by rfl) ht.first ht.last s2
    obtain ⟨ids, a1, a2, hids, s3, -⟩ := Music.addListener_site s2 (by omega) h3
    obtain rfl := Music.seq_ids hsem hg.users hids
    exact ⟨c2, c3, _, a1, a2, h2, h3, s3⟩
  cases sh with
  | alone =>
    obtain ⟨c2, c3, L, a1, a2, h2, h3, s3⟩ := early (by simp)
    obtain ⟨ops, c4, h4⟩ := ends_addListen ht.lively rfl (by exact Music.length_idsFrom _ _) s3
    exact ⟨_, _, by
      change Music.step2 env p g c = _
      rw [Music.step2, Act.bind_ok h1, Act.bind_ok h2, Act.bind_ok h3, Act.bind_ok h4]
      rfl⟩
  | both =>
    obtain ⟨c2, c3, L, a1, a2, h2, h3, s3⟩ := early (by simp)
    obtain ⟨ops, c4, h4⟩ := ends_addListenAndShare ht.lively rfl (by exact Music.length_idsFrom _ _) s3
    exact ⟨_, _, by
      change Music.step3 env p g c = _
      rw [Music.step3, Act.bind_ok h1, Act.bind_ok h2, Act.bind_ok h3]
      exact h4⟩
  | detailed =>
    obtain ⟨u2, c2, h2⟩ := ends_addSongs hsem rfl rfl s1 l1 o1 hg.songs hg.choice (hrec rfl)
    obtain ⟨L, songs, -, -, s2, k2⟩ := Music.addSongs_site hsem rfl rfl s1 l1 hg.songs h2
    have l2 := k2.len
    obtain ⟨u3, c3, h3⟩ := ends_addListener (p := p) hsem hg.users (by rfl) ht.first ht.last s2
    obtain ⟨ids, a1, a2, hids, s3, -⟩ := Music.addListener_site s2 (by omega) h3
    obtain rfl := Music.seq_ids hsem hg.users hids
    obtain ⟨ops, c4, h4⟩ := ends_addDetailed (name := "song") (kr := 0) (ks := 1) (ku := 2) (rel := 0) ht.lively
      (q := ⟨idsFrom b p.nGenres, p.nGenres, [("genre_name", x)], [("songs", 0)]⟩) rfl (by rfl) rfl (by rfl) (by rfl) rfl
      (by exact Music.length_idsFrom _ _) s3
    exact ⟨_, _, by
      change Music.step4 env p g c = _
      rw [Music.step4, Act.bind_ok h1, Act.bind_ok h2, Act.bind_ok h3]
      exact h4⟩

/-- **C139** A step never raises, from the creation of the circus to the end of its run, if there are a genre, songs for each
genre and, in steps 3 and 4, a user. -/
theorem C139_songs (hsem : env.sem = AnyGen.sem env.R) {p : Music.Params} {g : Music.Parts (AnyGen σ)}
    {b a u : SeqGen} (hg : g.Usual b a u) (ht : Tuned env p g) {sh : Show} (hrec : sh = .detailed → Recorded env p g)
    (hp : p.Enough sh) (name : String) (seed start : Int) {step : Int} (hstep : 0 < step)
    (text : Cell → Text) {folder : Path} (so : SetOrder String) (fuel d : Nat) (duration : Int) (delete : Bool) {fs : FS}
    (htree : Tree fs) (hroot : At fs [] .dir) (hne : folder ≠ [])
    (hc : ∀ q t, Below q folder → At fs q (.file t) → q = folder) (hdepth : DepthBelow fs folder d) (hfuel : d < fuel)
    (hdel : delete = true ∨ Absent fs folder) :
    ∃ c chains c' s', Circus.new env.R name seed start step = .ok c ∧ sh.build env p g c = .ok chains c' ∧
      Sys.run env text folder so fuel chains duration delete ⟨c', fs⟩ = .ok () s' := by
  obtain ⟨c, hnew⟩ := new_ends_ok env name seed start step
  obtain ⟨chains, c', hbuild⟩ := C139_songs_build hsem hg ht hrec hnew
  obtain ⟨s', h⟩ := Music.C132_music_runs hsem hg ht.lively.timer hstep hnew hp hbuild (text := text) so fuel d duration
    delete htree hroot hne hc hdepth hfuel hdel
  exact ⟨c, chains, c', s', hnew, hbuild, h⟩

/-- **C139** So does step 1, with any number of genres and songs. -/
theorem C139_step1 (hsem : env.sem = AnyGen.sem env.R) {p : Music.Params} {g : Music.Parts (AnyGen σ)}
    {b a u : SeqGen} (hg : g.Usual b a u) (hn : p.genreNames.length = p.nGenres)
    (name : String) (seed start : Int) {step : Int} (hstep : 0 < step)
    (text : Cell → Text) {folder : Path} (so : SetOrder String) (fuel d : Nat) (duration : Int) (delete : Bool) {fs : FS}
    (htree : Tree fs) (hroot : At fs [] .dir) (hne : folder ≠ [])
    (hc : ∀ q t, Below q folder → At fs q (.file t) → q = folder) (hdepth : DepthBelow fs folder d) (hfuel : d < fuel)
    (hdel : delete = true ∨ Absent fs folder) :
    ∃ c chains c' s', Circus.new env.R name seed start step = .ok c ∧ Music.step1 env p g c = .ok chains c' ∧
      Sys.run env text folder so fuel chains duration delete ⟨c', fs⟩ = .ok () s' := by
  obtain ⟨c, hnew⟩ := new_ends_ok env name seed start step
  obtain ⟨chains, c', hbuild⟩ := C139_step1_build hsem hg hn hnew
  obtain ⟨s', h⟩ := Music.C132_music_step1_runs hsem hg hstep hnew hbuild (text := text) so fuel d duration
    delete htree hroot hne hc hdepth hfuel hdel
  exact ⟨c, chains, c', s', hnew, hbuild, h⟩

/-- **C139** The genres must have as many names: otherwise no step is built. -/
theorem C139_names (hsem : env.sem = AnyGen.sem env.R) {p : Music.Params} {g : Music.Parts (AnyGen σ)}
    {b a u : SeqGen} (hg : g.Usual b a u) (hp : 0 < p.nGenres) (hn : p.genreNames.length ≠ p.nGenres)
    {name : String} {seed start step : Int} (hnew : Circus.new env.R name seed start step = .ok c)
    (chains : List (List (Op (World σ (AnyGen σ))))) :
    Music.step1 env p g c ≠ .ok chains c' ∧ ∀ sh : Show, sh.build env p g c ≠ .ok chains c' := by
  have key : ∀ (u1 : Unit) (c1 : Circus σ (AnyGen σ)), Music.addRepo env p g c ≠ .ok u1 c1 := by
    intro u1 c1 h1
    obtain ⟨s0, l0, -⟩ := Shop.new_site (env := env) hnew
    obtain ⟨ids, x, hids, hx, -⟩ := Music.addRepo_site s0 l0 h1
    obtain rfl := Music.seq_ids hsem hg.genres hids
    rw [Attribute.new, if_neg hp.ne', Music.length_idsFrom, List.length_map, if_pos hn] at hx
    cases hx
  refine ⟨fun h => ?_, fun sh h => ?_⟩
  · rw [Music.step1] at h
    obtain ⟨u1, c1, h1, -⟩ := Act.bind_eq_ok.1 h
    exact key _ _ h1
  · cases sh with
    | alone =>
      change Music.step2 env p g c = _ at h
      rw [Music.step2] at h
      obtain ⟨u1, c1, h1, -⟩ := Act.bind_eq_ok.1 h
      exact key _ _ h1
    | both =>
      change Music.step3 env p g c = _ at h
      rw [Music.step3] at h
      obtain ⟨u1, c1, h1, -⟩ := Act.bind_eq_ok.1 h
      exact key _ _ h1
    | detailed =>
      change Music.step4 env p g c = _ at h
      rw [Music.step4] at h
      obtain ⟨u1, c1, h1, -⟩ := Act.bind_eq_ok.1 h
      exact key _ _ h1

/-- **C139** There must be an artist: without any, step 4 is not built. -/
theorem C139_no_artist_raises : (match Circus.new Rng.counter "music" 1234 0 (3600 * nsPerSec) with
    | .ok c => match Show.detailed.build exEnv { Music.exParams with nArtists := 0 } Music.exParts c with
      | .ok _ _ => some true
      | .error _ _ => some false
    | .error _ => none) = some false := by decide +kernel

/-! ### Non-vacuity -/

theorem given {l : List Val} (hl : l ≠ []) (s : Nat) : AlwaysGives exEnv (.choice l none s) fun _ => True := by
  intro x hx k
  obtain ⟨cells, x', k1, k2, -⟩ := gives_choice (env := exEnv) rfl hl x hx k
  exact ⟨cells, x', k1, k2, fun _ _ => trivial⟩

/-- as many songs, users and artists as one wants, any seed and any duration -/
example (sh : Show) (n m k : Nat) (seed duration : Int) : ∃ c chains c' s',
    Circus.new exEnv.R "music" seed 0 (3600 * nsPerSec) = .ok c ∧
      sh.build exEnv ⟨2, ["blues", "jazz"], n + 1, m + 1, k + 1⟩
        { Music.exParts with
          activity := fun seed => .choice [.num 12, .num 40] none (Rng.counter.seed seed)
          dates := fun seed => .choice [.num 1910, .num 2018] none (Rng.counter.seed seed)
          durations := fun seed => .choice [.num 60, .num (601/2)] none (Rng.counter.seed seed) } c = .ok chains c' ∧
      Sys.run exEnv exFmt ["logs"] (SetOrder.dedup String) 1 chains duration false ⟨c', [([], .dir)]⟩ = .ok () s' := by
  have num : ∀ (x y : Rat) (s : Nat), AlwaysGives exEnv (.choice [.num x, .num y] none s) fun c => ∃ q, c = .num q := by
    intro x y s g hg j
    obtain ⟨cells, x', k1, k2, k3⟩ := gives_choice (env := exEnv) rfl (a := [.num x, .num y]) (by simp) g hg j
    refine ⟨cells, x', k1, k2, fun z hz => ?_⟩
    obtain ⟨v, rfl, hv⟩ := k3 z hz
    simp only [List.mem_cons, List.not_mem_nil, or_false] at hv
    rcases hv with rfl | rfl
    · exact ⟨x, rfl⟩
    · exact ⟨y, rfl⟩
  exact C139_songs (env := exEnv) rfl (b := ⟨0, "GENRE_", 3⟩) (a := ⟨0, "S_", 3⟩) (u := ⟨0, "user_", 3⟩)
    ⟨rfl, rfl, rfl, fun _ _ _ => ⟨_, rfl⟩⟩
    ⟨rfl, fun _ => given (by simp) _, fun _ => given (by simp) _, fun _ => answers_cyclic rfl _, fun _ => num _ _ _⟩
    (fun _ => ⟨⟨_, rfl⟩, Nat.succ_pos k, fun _ x hx j => by
        obtain ⟨cells, x', k1, k2, k3⟩ := gives_choice (env := exEnv) rfl (a := [.str "E", .str "F"]) (by simp) x hx j
        refine ⟨cells, x', k1, k2, fun z hz => ?_⟩
        obtain ⟨v, rfl, -⟩ := k3 z hz
        exact ⟨v, rfl, trivial⟩,
      fun _ => given (by simp) _, ⟨_, fun _ => num _ _ _, fun c hc => ⟨c, rfl, hc⟩⟩, fun _ => num _ _ _⟩)
    ⟨Nat.succ_pos n, Nat.succ_pos 1, fun _ => Nat.succ_pos m⟩ _ _ _ (by decide) _ _ _ 0 _ _ ⟨by decide +kernel, by simp [At]⟩
    (by simp [At]) (by simp) (by simp [At]) (by simp [DepthBelow, At]) (by omega) (.inr (by simp [Absent, At]))

end Builds
end Trumania
