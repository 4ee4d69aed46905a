import Verif.Model.Db

/-!
# Model of the empirical discrete generators of `trumania/components/db.py`

A distribution on given values, kept in a CSV file, and the generator that draws from it. The distribution
is an array of numbers (a `pd.Series`, that pandas would align with the values, is not modelled).
-/

namespace Trumania
namespace Db
variable {σ : Type} (F : TextFormat)

/-- `csv_item_path` (db.py:150-151) -/
def csvItemPath (folder : Path) (itemId : String) : Path := folder ++ [itemId ++ ".csv"]

/-- `_empirical_discrete_gen_folder` (db.py:164-167) -/
def empiricalFolder (db : Path) (name : String) : Path :=
  generatorsFolder db name ++ ["empirical_discrete_gens"]

/-- the file of a distribution (db.py:92-96): the values are the index of the table -/
def empiricalText (distribution : List Rat) (values : List Val) : Text :=
  writeCsv true ["x".toList, "px".toList] ((values.zip distribution).map fun x => [F.val x.1, F.num x.2])

/-- `save_empirical_discrete_generator` (db.py:85-96). pandas refuses an index and a column of different
lengths. -/
def saveEmpirical (db : Path) (distribution : List Rat) (values : List Val) (name genId : String) :
    Act FS Unit :=
  if distribution.sum - 1 < 1 / 1000000 then do
    FS.ensureFolderExists (empiricalFolder db name)
    if distribution.length = values.length then
      FS.writeFile (csvItemPath (empiricalFolder db name) genId) (empiricalText F distribution values)
    else throw .valueError
  else throw .assertionError

/-- column of a table read: `df[name]` -/
def readColumn (file : List Text × List (List Text)) (name : Text) : Py (List Val) :=
  if name ∈ file.1 then
    .ok (F.infer (file.2.map fun row => row.getD (file.1.findIdx fun c => c == name) []))
  else .error .keyError

/-- `load_empirical_discrete_generator` (db.py:99-110). A probability that is missing or no number is an
error here: in the code it is one at the first draw. -/
def loadEmpirical (R : Rng σ) (fs : FS) (db : Path) (name genId : String) (seed : Int) :
    Py (AnyGen σ) := do
  let t ← fs.read (csvItemPath (empiricalFolder db name) genId)
  let file ← readCsv t
  let a ← readColumn F file "x".toList
  let px ← readColumn F file "px".toList
  let p ← px.mapM F.toFloat
  .ok (.choice a (some p) (R.seed seed))

end Db
end Trumania
