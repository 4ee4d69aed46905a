import Verif.Spec.Shop
import Verif.Model.Music
import Verif.Props.Derived

/-!
# What the logs of the example of the listeners (examples/tutorial/example3.py) should tell
-/

namespace Trumania
namespace Music
open Spec Cdr
variable {σ γ : Type}

/-- the stories of step 2 (listening), of step 3 (listening and sharing) and of step 4 (with the details of the songs) -/
inductive Show where
  | alone
  | both
  | detailed
deriving DecidableEq

/-- The stories of a step, with the population of the users, the generators that draw a genre and a user, the
population of the genres, the relationship with their songs, and the population of the songs (in step 4). -/
structure Scene where
  kind : Show
  users : Nat
  genres : Nat
  choice : Nat
  repo : Nat := 0
  rel : Nat := 0
  songs : Nat := 1

/-- the operations of the stories -/
def Scene.chains (env : Env σ γ) (s : Scene) : List (List (Op (World σ γ))) :=
  match s.kind with
  | .alone => [listenOps env 0 s.users s.rel (.ref s.genres)]
  | .both => [listenedOps env 0 (genreAndSong env s.users s.rel (.ref s.genres)),
      sharedOps env 1 (genreAndSong env s.users s.rel (.ref s.genres)) (.ref s.choice)]
  | .detailed => [listenedOps env 0 (genreAndDetails env s.users s.rel s.songs (.ref s.genres)),
      sharedOps env 1 (genreAndDetails env s.users s.rel s.songs (.ref s.genres)) (.ref s.choice)]

/-- the log of each story -/
def Scene.logOf (s : Scene) (j : Nat) : String :=
  match s.kind, j with
  | .alone, _ => "events"
  | _, 0 => "listen_events"
  | _, _ => "share_events"

/-- the fields of the records of each story -/
def Scene.fieldsOf (s : Scene) (j : Nat) : List String :=
  ["UID", "USER_FIRST_NAME", "USER_LAST_NAME", "GENRE", "SONG_ID"] ++
    (if s.kind = .detailed then ["SONG_ARTIST", "SONG_TITLE", "SONG_YEAR", "SONG_DURATION"] else []) ++
    (if j = 1 then ["SHARED_TO_UID"] else [])

/-- somebody or something is in a population -/
def MemberOf (w : World σ γ) (k : Nat) (v : Val) : Prop := ∃ p, w.pops[k]? = some p ∧ v ∈ p.ids

/-- A record of story `j` tells of a member of the users, with its names, of a genre and of a song of that genre; in
step 4, of the attributes of that song; for a share, of the user it is shared to. -/
structure Tells (s : Scene) (w : World σ γ) (j : Nat) (t : Frame) (r : Row) : Prop where
  user : cell t r "UID" = .scalar r.idx
  first : ValueOf w s.users "FIRST_NAME" r.idx (cell t r "USER_FIRST_NAME")
  last : ValueOf w s.users "LAST_NAME" r.idx (cell t r "USER_LAST_NAME")
  song : ∃ genre song, cell t r "GENRE" = .scalar genre ∧ MemberOf w s.repo genre ∧ cell t r "SONG_ID" = .scalar song ∧
    (∀ o, (genre, song) ∈ stockAt o w s.rel) ∧
    (s.kind = .detailed → ValueOf w s.songs "artist_name" song (cell t r "SONG_ARTIST") ∧
      ValueOf w s.songs "title" song (cell t r "SONG_TITLE") ∧ ValueOf w s.songs "recording_year" song (cell t r "SONG_YEAR") ∧
      ValueOf w s.songs "duration_seconds" song (cell t r "SONG_DURATION"))
  shared : j = 1 → ∃ u, cell t r "SHARED_TO_UID" = .scalar u ∧ MemberOf w s.users u

/-- a generator draws among the members of a population -/
def DrawsFrom (env : Env σ (AnyGen σ)) (w : World σ (AnyGen σ)) (g k : Nat) : Prop :=
  ∃ q p r, w.pops[k]? = some q ∧ Began env w (.ref g) (.choice q.ids p r)

/-- A world where the stories can be played: every genre has songs. -/
structure Ready (env : Env σ (AnyGen σ)) (s : Scene) (w : World σ (AnyGen σ)) : Prop where
  wf : ∀ p ∈ w.pops, Population.WF p
  ids : ∀ s ∈ w.stories, s.ids.Nodup
  fields : ∀ s ∈ w.stories, s.idField = "UID"
  stocks : StocksOk env [s.rel] w
  genres : DrawsFrom env w s.genres s.repo
  choice : s.kind ≠ .alone → DrawsFrom env w s.choice s.users
  full : ∀ o g, MemberOf w s.repo g → ∃ t, (g, t) ∈ stockAt o w s.rel

/-- the attributes of a song -/
def songAttributes : List String := ["artist_name", "song_genre", "title", "duration_seconds", "recording_year"]

/-- The songs, with the genre of each (the pairs `L`): `n` for each of the genres, whose ids and names are given, and
altogether the first ids of `a`, once each. They are the members of a population, with a value for each attribute, and
each has for `song_genre` the name of its genre. -/
structure Catalogue (n : Nat) (a : SeqGen) (genres : List (Val × Cell)) (L : List (Val × Val)) (songs : Population) :
    Prop where
  ids : L.map Prod.snd = idsFrom a (genres.length * n)
  count : ∀ g ∈ genres.map Prod.fst, (L.countP fun x => decide (x.1 = g)) = n
  genre : ∀ x ∈ L, ∃ c, (x.1, c) ∈ genres ∧ ∃ b, attributeOf songs "song_genre" b ∧ Holds b x.2 c
  members : ∀ i, i ∈ songs.ids ↔ i ∈ L.map Prod.snd
  known : ∀ name ∈ songAttributes, ∃ b, attributeOf songs name b ∧ ∀ i ∈ songs.ids, ∃ c, Holds b i c

/-- all the values of an attribute are integers -/
def Whole (songs : Population) (name : String) : Prop :=
  ∀ b, attributeOf songs name b → ∀ i c, Holds b i c → ∃ n : Int, c = .num (n : Rat)

/-- all the activities are between 10 and 30 -/
def Moderate (w : World σ γ) : Prop :=
  ∀ s ∈ w.stories, ∀ x ∈ s.params, ∀ y ∈ x.2, 10 ≤ y.2.activity ∧ y.2.activity ≤ 30

/-- the generators of the example: sequences for the ids, and choices that draw among the given values -/
structure Parts.Usual (g : Parts (AnyGen σ)) (b a u : SeqGen) : Prop where
  genres : g.genreIds = .seq b
  songs : g.songIds = .seq a
  users : g.userIds = .seq u
  choice : ∀ l p seed, ∃ r, g.choice l p seed = .choice l p r

/-- the step -/
def Show.build (env : Env σ γ) (p : Params) (g : Parts γ) : Show → Act (Circus σ γ) (List (List (Op (World σ γ))))
  | .alone => step2 env p g
  | .both => step3 env p g
  | .detailed => step4 env p g

/-- the population of the users -/
def Show.users : Show → Nat
  | .detailed => 2
  | _ => 1

/-- What a step has in the beginning: the genres, with their names, and the users, numbered in order; each genre has `n`
songs, and altogether these are the first ids of `a`, once each. In step 4 they have their attributes. -/
structure Opening (p : Params) (b a u : SeqGen) (s : Scene) (w : World σ γ) : Prop where
  genres : ∃ q c, w.pops[s.repo]? = some q ∧ q.ids = idsFrom b p.nGenres ∧ attributeOf q "genre_name" c ∧
    c.table = (idsFrom b p.nGenres).zip (p.genreNames.map Cell.str)
  users : ∃ q, w.pops[s.users]? = some q ∧ q.ids = idsFrom u p.nUsers
  songs : ∀ o, ((stockAt o w s.rel).map Prod.snd).Perm (idsFrom a (p.nGenres * p.nSongs))
  each : ∀ o, ∀ g ∈ idsFrom b p.nGenres, held o w s.rel g = p.nSongs
  details : s.kind = .detailed → ∃ L songs, w.pops[s.songs]? = some songs ∧ (∀ o, (stockAt o w s.rel).Perm L) ∧
    Catalogue p.nSongs a ((idsFrom b p.nGenres).zip (p.genreNames.map Cell.str)) L songs ∧
    Whole songs "recording_year" ∧ Whole songs "duration_seconds"
  activity : Moderate w

end Music
end Trumania
