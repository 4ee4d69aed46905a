import Verif.Model.Music
import Verif.Model.Namespace

/-!
# Model of the populations saved on their own, and of the example `examples/tutorial/example4.py` (listeners of songs,
with persistence)

The steps of the example, up to the call of `run`. The sizes and the names of the genres are arguments, as in the model of
example3.py, and the dates of the circus too.
-/

namespace Trumania
open Circus

/-- an action on objects that are not the files: `s` is their state before; its state after is returned with its result -/
def Act.aside {W S α : Type} (a : Act S α) (s : S) : Act W (α × S) :=
  match a s with
  | .ok r s' => pure (r, s')
  | .error e _ => throw e

namespace Db
variable {σ γ : Type} (D : DbFormat γ)

/-- `save_population` (db.py:24-25, 136-137) of the population of reference `k` -/
def savePopulation (so : SetOrder String) (fuel : Nat) (orders : Orders) (db : Path) (w : World σ γ) (k : Nat)
    (ns id : String) : Act FS Unit :=
  match w.pops[k]? with
  | some p => p.saveTo D.text so fuel orders w.rels (populationsFolder db ns ++ [id])
  | none => throw .attributeError

/-- `Circus.load_population` (circus.py:53-66, db.py:28-29): a population of that name is replaced -/
def loadPopulation (so : SetOrder String) (R : Rng σ) (orders : Orders) (db : Path) (c : Circus σ γ) (ns id : String) :
    Act FS (Circus σ γ) := do
  let fs ← get
  let l ← Act.ofPy (Population.loadFrom D.text so R orders fs (populationsFolder db ns ++ [id]))
  pure (attachLoaded c id l)

end Db

namespace Music
variable {σ γ : Type} (env : Env σ γ)

/-- a population "detached" from any circus (examples/tutorial/example4.py:21-24, 37-40): a new object -/
def detached (ids : GenRef) (n : Nat) : Act (World σ γ) Nat := do
  let q ← newPopulation env (.generated ids n)
  appendPop q

/-- `build_music_repo` (examples/tutorial/example4.py:18-32) -/
def buildRepo (p : Params) (g : Parts γ) : Act (World σ γ) Nat := do
  let ids ← Snd.addGenerator g.genreIds
  let repo ← detached env ids p.nGenres
  let q ← World.getPop repo
  let q ← Act.ofPy (q.createAttribute "genre_name" (p.genreNames.map Cell.str))
  World.setPop repo q
  let _ ← createRelationship env repo "songs" (some 18)
  pure repo

/-- `add_song_to_repo` (examples/tutorial/example4.py:35-116): the seeds are given -/
def addSongToRepo (p : Params) (g : Parts γ) (repo : Nat) : Act (World σ γ) Nat := do
  let unused ← Snd.addGenerator g.unusedIds
  let songs ← detached env unused 0
  createEmpty songs "artist_name"
  createEmpty songs "song_genre"
  createEmpty songs "title"
  createEmpty songs "duration_seconds"
  createEmpty songs "recording_year"
  let ids ← Snd.addGenerator g.songIds
  let names ← Snd.addGenerator (g.names 1234)
  let cells ← World.generate env names (p.nArtists : Rat)
  let l ← Act.ofPy (cells.mapM Cell.asVal)
  let artists ← Snd.addGenerator (g.choice l none 5678)
  let titles ← Snd.addGenerator (g.titles 78961)
  let dates ← Snd.addGenerator (g.dates 184)
  let durations ← Snd.addGenerator (g.durations 9874)
  let q ← World.getPop repo
  let genres ← Act.ofPy (q.getAttribute "genre_name")
  let rel ← Snd.relNamed repo "songs"
  Act.forEach (addSongsOf env p.nSongs rel songs ⟨ids, artists, titles, .mapped dates g.year, durations⟩) genres.table
  makeInt songs "recording_year"
  makeInt songs "duration_seconds"
  pure songs

/-- the objects that are in no circus, at first none. There is no clock nor seeder: those are not used. -/
def noCircus : World σ γ :=
  { clock := Clock.new env.R 0 1 0, seeder := env.R.seed 0, rels := [], pops := [], stories := [] }

/-- the two populations (examples/tutorial/example4.py:233-234, 256-257) -/
def makeSongs (p : Params) (g : Parts γ) : Act (World σ γ) (Nat × Nat) := do
  let repo ← buildRepo env p g
  let songs ← addSongToRepo env p g repo
  pure (repo, songs)

/-- where the example runs: how files are written, the folder of the database, and the dates of the circus -/
structure Place (γ : Type) where
  format : DbFormat γ
  so : SetOrder String
  fuel : Nat
  db : Path
  start : Int
  step : Int

/-- `step1` of example4.py (examples/tutorial/example4.py:230-250): the circus -/
def savedStep1 (o : Place γ) (p : Params) (g : Parts γ) : Act FS (Circus σ γ) := do
  let ((repo, songs), w) ← Act.aside (makeSongs env p g) (noCircus env)
  Db.removeNamespace o.so o.fuel o.db "tutorial_example4"
  Db.savePopulation o.format o.so o.fuel env.orders o.db w repo "tutorial_example4" "music_repository"
  Db.savePopulation o.format o.so o.fuel env.orders o.db w songs "tutorial_example4" "songs"
  let c ← Act.ofPy (Circus.new env.R "example4_circus" 12345 o.start o.step)
  let c ← Db.loadPopulation o.format o.so env.R env.orders o.db c "tutorial_example4" "music_repository"
  let c ← Db.loadPopulation o.format o.so env.R env.orders o.db c "tutorial_example4" "songs"
  let (_, c) ← Act.aside (addListener env p g) c
  pure c

/-- `step2` of example4.py (examples/tutorial/example4.py:253-287), before `run`: the operations of the stories, in order
of creation, and the circus that will run -/
def savedStep2 (o : Place γ) (p : Params) (g : Parts γ) :
    Act FS (List (List (Op (World σ γ))) × Circus σ γ) := do
  let c ← savedStep1 env o p g
  Db.saveToDb o.format o.so o.fuel env.orders o.db true c
  let fs ← get
  let c ← Act.ofPy (Db.loadFromDb o.format o.so env.R env.orders fs o.db "example4_circus")
  Act.aside (addDetailed env "songs" g) c

end Music
end Trumania
