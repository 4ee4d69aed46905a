import Verif.Model.Shop
import Verif.Model.Functions

/-!
# Model of the example `examples/tutorial/example3.py` (listeners of songs)

The functions of the example, and its steps 1 to 4 up to the call of `run`, in the order of the code since
they draw from the seeder of the circus. The sizes and the names of the genres are arguments. The objects of
the generator classes are given by `Parts`: those that take a seed are functions of it.
-/

namespace Trumania
namespace Music
open Circus
variable {σ γ : Type} (env : Env σ γ)

/-- 5 genres (examples/tutorial/example3.py:25-31), 1000 songs for each (examples/tutorial/example3.py:41, 253), 1000 users
(examples/tutorial/example3.py:55), 200 artists (examples/tutorial/example3.py:218) -/
structure Params where
  nGenres : Nat
  genreNames : List String
  nSongs : Nat
  nUsers : Nat
  nArtists : Nat

/-- the generator objects of the example -/
structure Parts (γ : Type) where
  genreIds : γ
  userIds : γ
  firstNames : Int → γ
  lastNames : Int → γ
  timer : Int → γ
  /-- the normal law of the activities, whose mean is given by the timer (examples/tutorial/example3.py:78-83) -/
  activity : Int → γ
  /-- `gen.SequencialGenerator(prefix="S_")` (examples/tutorial/example3.py:40, 210) -/
  songIds : γ
  /-- `gen.SequencialGenerator(prefix="SONG_")` (examples/tutorial/example3.py:200) -/
  unusedIds : γ
  names : Int → γ
  titles : Int → γ
  dates : Int → γ
  /-- `lambda d: d.year` (examples/tutorial/example3.py:232) -/
  year : Cell → Py Cell
  durations : Int → γ
  /-- a `NumpyRandomGenerator(method="choice", a=..., p=...)`: that of the artists (examples/tutorial/example3.py:214-219),
  and those that `PopulationOps.select_one` makes (population.py:415-419) -/
  choice : List Val → Option (List Rat) → Int → γ

/-- `ops.bound_value(lb=10, ub=30)` (examples/tutorial/example3.py:83) on one activity -/
def boundedActivity : Cell → Py Cell := fun c => do
  .ok (.num (bound_value (some 10) (some 30) (← c.asNum)))

/-- `add_music_repo` (examples/tutorial/example3.py:23-33) -/
def addRepo (p : Params) (g : Parts γ) : Act (Circus σ γ) Unit := do
  let ids ← onWorld (Snd.addGenerator g.genreIds)
  let repo ← createPopulation env "music_repository" (.generated ids p.nGenres)
  onWorld do
    let q ← World.getPop repo
    let q ← Act.ofPy (q.createAttribute "genre_name" (p.genreNames.map Cell.str))
    World.setPop repo q
    let _ ← createRelationship env repo "songs" none

/-- `add_songids_to_repos` (examples/tutorial/example3.py:36-49) -/
def addSongIds (p : Params) (g : Parts γ) : Act (Circus σ γ) Unit := do
  let repo ← Shop.popNamed "music_repository"
  onWorld do
    let gen ← Snd.addGenerator g.songIds
    let q ← World.getPop repo
    let added ← Shop.itemArrays env gen p.nSongs q.ids
    let songs ← Snd.relNamed repo "songs"
    addGroupedRelations env songs q.ids added

/-- `add_listener` (examples/tutorial/example3.py:52-65, examples/tutorial/example4.py:127-140) -/
def addListener (p : Params) (g : Parts γ) : Act (Circus σ γ) Unit := do
  let ids ← onWorld (Snd.addGenerator g.userIds)
  let users ← createPopulation env "user" (.generated ids p.nUsers)
  onWorld do
    let first ← Snd.seeded env g.firstNames
    Snd.createDrawn env users "FIRST_NAME" first
    let last ← Snd.seeded env g.lastNames
    Snd.createDrawn env users "LAST_NAME" last

/-! ### Stories -/

/-- examples/tutorial/example3.py:85-92, 139-155, 300-316 -/
def eventStory (name : String) (users : Nat) (timer activity : GenRef) : World.StoryConfig :=
  { name := name, population := users, idField := "UID", timerGen := timer, activity := activity }

/-- the attributes of the users that the records have (examples/tutorial/example3.py:98-104, 161-167, 323-329) -/
def lookupUser (users : Nat) : Op (World σ γ) :=
  Ops.lookup users "UID" [("FIRST_NAME", "USER_FIRST_NAME"), ("LAST_NAME", "USER_LAST_NAME")]

/-- a song of the genre (examples/tutorial/example3.py:110-112, 173-175, 335-337) -/
def selectSong (songs : Nat) : Op (World σ γ) := Ops.selectOne env songs "GENRE" "SONG_ID" false false false none

/-- `population.ops.select_one(named_as)` (population.py:383-421): the generator -/
def choiceIn (g : Parts γ) (pop : Nat) : Act (World σ γ) GenRef := do
  let q ← World.getPop pop
  let (a, p) ← Act.ofPy (q.selectOneParams none)
  Snd.seeded env (g.choice a p)

/-- examples/tutorial/example3.py:96-115, with the last operation that `set_operations` adds (story.py:80-86) -/
def listenOps (own users songs : Nat) (genres : GenRef) : List (Op (World σ γ)) :=
  Ops.setOperations env own
    [lookupUser users, Ops.randomValues env genres "GENRE" none, selectSong env songs, Ops.fieldLogger "events" [] []]

/-- `add_listen_story` (examples/tutorial/example3.py:68-115): the operations of the story -/
def addListen (g : Parts γ) : Act (Circus σ γ) (List (Op (World σ γ))) := do
  let users ← Shop.popNamed "user"
  let timer ← onWorld (Snd.seeded env g.timer)
  let activity ← onWorld (Snd.seeded env g.activity)
  let own ← createStory env (eventStory "listen_events" users timer (.mapped activity boundedActivity))
  let repo ← Shop.popNamed "music_repository"
  onWorld do
    let genres ← choiceIn env g repo
    let songs ← Snd.relNamed repo "songs"
    pure (listenOps env own users songs genres)

/-- `select_genre_and_song` (examples/tutorial/example3.py:159-176) -/
def genreAndSong (users songs : Nat) (genres : GenRef) : Op (World σ γ) :=
  World.chain env.logSet
    [lookupUser users, Ops.randomValues env genres "GENRE" none, selectSong env songs]

/-- `select_genre_and_song` with the details of the song (examples/tutorial/example3.py:321-349) -/
def genreAndDetails (users songs songPop : Nat) (genres : GenRef) : Op (World σ γ) :=
  World.chain env.logSet
    [lookupUser users, Ops.randomValues env genres "GENRE" none, selectSong env songs,
     Ops.lookup songPop "SONG_ID" [("artist_name", "SONG_ARTIST"), ("title", "SONG_TITLE"),
       ("recording_year", "SONG_YEAR"), ("duration_seconds", "SONG_DURATION")]]

/-- examples/tutorial/example3.py:178-181, 351-354 -/
def listenedOps (own : Nat) (select : Op (World σ γ)) : List (Op (World σ γ)) :=
  Ops.setOperations env own [select, Ops.fieldLogger "listen_events" [] []]

/-- examples/tutorial/example3.py:183-193, 356-366 -/
def sharedOps (own : Nat) (select : Op (World σ γ)) (choice : GenRef) : List (Op (World σ γ)) :=
  Ops.setOperations env own
    [select, Ops.randomValues env choice "SHARED_TO_UID" none, Ops.fieldLogger "share_events" [] []]

/-- the two stories of `add_listen_and_share_stories` and of `add_listen_and_share_stories_with_details`, which are built
alike (examples/tutorial/example3.py:118-155, 278-316): the users and the two stories -/
def addStories (g : Parts γ) : Act (Circus σ γ) (Nat × Nat × Nat) := do
  let users ← Shop.popNamed "user"
  let timer ← onWorld (Snd.seeded env g.timer)
  let activity ← onWorld (Snd.seeded env g.activity)
  let listen ← createStory env (eventStory "listen_events" users timer (.mapped activity boundedActivity))
  let share ← createStory env (eventStory "share_events" users timer (.mapped activity boundedActivity))
  pure (users, listen, share)

/-- `add_listen_and_share_stories` (examples/tutorial/example3.py:118-193): the operations of the two stories -/
def addListenAndShare (g : Parts γ) : Act (Circus σ γ) (List (List (Op (World σ γ)))) := do
  let (users, listen, share) ← addStories env g
  let repo ← Shop.popNamed "music_repository"
  onWorld do
    let genres ← choiceIn env g repo
    let songs ← Snd.relNamed repo "songs"
    let select := genreAndSong env users songs genres
    let choice ← choiceIn env g users
    pure [listenedOps env listen select, sharedOps env share select choice]

/-- `add_listen_and_share_stories_with_details` (examples/tutorial/example3.py:278-366, examples/tutorial/example4.py:143-227):
the operations of the two stories; `name` is that of the population of the songs -/
def addDetailed (name : String) (g : Parts γ) : Act (Circus σ γ) (List (List (Op (World σ γ)))) := do
  let (users, listen, share) ← addStories env g
  let repo ← Shop.popNamed "music_repository"
  let songPop ← Shop.popNamed name
  onWorld do
    let genres ← choiceIn env g repo
    let songs ← Snd.relNamed repo "songs"
    let select := genreAndDetails env users songs songPop genres
    let choice ← choiceIn env g users
    pure [listenedOps env listen select, sharedOps env share select choice]

/-! ### Songs as a population -/

/-- `songs.create_attribute(name)` without any value (population.py:111-113, attribute.py:28-36): accepted for a
population of size 0 only -/
def createEmpty (pop : Nat) (name : String) : Act (World σ γ) Unit := do
  let p ← World.getPop pop
  if p.size = 0 then do
    let p ← Act.ofPy (p.createAttribute name [])
    World.setPop pop p
  else throw .valueError

/-- the generators of the attributes of the songs -/
structure SongGens where
  ids : GenRef
  artists : GenRef
  titles : GenRef
  years : GenRef
  durations : GenRef

/-- `init_attribute` (examples/tutorial/example3.py:244-250) -/
def initOps (s : SongGens) (genre : Cell) : List (Op (World σ γ)) :=
  [Ops.randomValues env s.artists "artist_name" none,
   Ops.randomValues env s.titles "title" none,
   Ops.randomValues env s.years "recording_year" none,
   Ops.randomValues env s.durations "duration_seconds" none,
   Ops.randomValues env (.constant genre) "song_genre" none]

/-- the songs of one genre (examples/tutorial/example3.py:241-271) -/
def addSongsOf (n : Nat) (rel songs : Nat) (s : SongGens) (genre : Val × Cell) : Act (World σ γ) Unit := do
  let cells ← World.generate env s.ids (n : Rat)
  let ids ← Act.ofPy (cells.mapM Cell.asVal)
  addGroupedRelations env rel [genre.1] [ids]
  let (f, _) ← World.chain env.logSet (initOps env s genre.2) (Story.initStoryData "SONG_ID" ids)
  let f ← Act.ofPy (f.select (f.cols.filter fun c => decide (c ≠ "SONG_ID")))
  let p ← World.getPop songs
  let p ← Act.ofPy (p.update f)
  World.setPop songs p

/-- `int` on a cell; the strings that `int` reads are left out -/
def toInt : Cell → Py Cell
  | .scalar (.num q) => .ok (.num ((q.num.tdiv q.den : Int) : Rat))
  | _ => .error .valueError

/-- `songs.get_attribute(name).transform_inplace(int)` (attribute.py:84-88, examples/tutorial/example3.py:274-275) -/
def makeInt (songs : Nat) (name : String) : Act (World σ γ) Unit := do
  let p ← World.getPop songs
  let a ← Act.ofPy (p.getAttribute name)
  let table ← Act.ofPy (a.table.mapM fun kv => do .ok (kv.1, ← toInt kv.2))
  World.setPop songs { p with attributes := p.attributes.set name ⟨table⟩ }

/-- `add_song_populations` (examples/tutorial/example3.py:196-275) -/
def addSongs (p : Params) (g : Parts γ) : Act (Circus σ γ) Unit := do
  let unused ← onWorld (Snd.addGenerator g.unusedIds)
  let songs ← createPopulation env "song" (.generated unused 0)
  onWorld do
    createEmpty songs "artist_name"
    createEmpty songs "song_genre"
    createEmpty songs "title"
    createEmpty songs "duration_seconds"
    createEmpty songs "recording_year"
  let ids ← onWorld (Snd.addGenerator g.songIds)
  let names ← onWorld (Snd.seeded env g.names)
  let artists ← onWorld do
    let cells ← World.generate env names (p.nArtists : Rat)
    let l ← Act.ofPy (cells.mapM Cell.asVal)
    Snd.seeded env (g.choice l none)
  let titles ← onWorld (Snd.seeded env g.titles)
  let dates ← onWorld (Snd.seeded env g.dates)
  let durations ← onWorld (Snd.seeded env g.durations)
  let repo ← Shop.popNamed "music_repository"
  onWorld do
    let q ← World.getPop repo
    let names ← Act.ofPy (q.getAttribute "genre_name")
    let rel ← Snd.relNamed repo "songs"
    Act.forEach (addSongsOf env p.nSongs rel songs ⟨ids, artists, titles, .mapped dates g.year, durations⟩) names.table
    makeInt songs "recording_year"
    makeInt songs "duration_seconds"

/-! ### The steps, before `run` -/

/-- `step1` (examples/tutorial/example3.py:377-381): a circus without stories -/
def step1 (p : Params) (g : Parts γ) : Act (Circus σ γ) (List (List (Op (World σ γ)))) := do
  addRepo env p g
  addSongIds env p g
  pure []

/-- `step2` (examples/tutorial/example3.py:384-390): the operations of the stories, in order of creation -/
def step2 (p : Params) (g : Parts γ) : Act (Circus σ γ) (List (List (Op (World σ γ)))) := do
  addRepo env p g
  addSongIds env p g
  addListener env p g
  let listen ← addListen env g
  pure [listen]

/-- `step3` (examples/tutorial/example3.py:393-398) -/
def step3 (p : Params) (g : Parts γ) : Act (Circus σ γ) (List (List (Op (World σ γ)))) := do
  addRepo env p g
  addSongIds env p g
  addListener env p g
  addListenAndShare env g

/-- `step4` (examples/tutorial/example3.py:402-410) -/
def step4 (p : Params) (g : Parts γ) : Act (Circus σ γ) (List (List (Op (World σ γ)))) := do
  addRepo env p g
  addSongs env p g
  addListener env p g
  addDetailed env "song" g

end Music
end Trumania
