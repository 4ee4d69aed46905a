import Verif.Model.Db

/-!
# Model of `load_all_logs`
-/

namespace Trumania

/-- name of column `j` of a CSV file: an empty name becomes "Unnamed: j"
(pandas/_libs/parsers.pyx, `_get_header`) -/
def columnName (x : Text × Nat) : String :=
  if x.1 = [] then "Unnamed: " ++ toString x.2 else String.ofList x.1

/-- the table made of the lines of a file: each column gets its own type, the index is the rank -/
def tableOf (F : TextFormat) (cols : List Text) (rows : List (List Text)) : Frame :=
  let columns := (List.range cols.length).map fun j => F.infer (rows.map fun r => r.getD j [])
  ⟨cols.zipIdx.map columnName,
    rows.zipIdx.map fun x => ⟨.num (x.2 : Rat), columns.map fun c => .scalar (c.getD x.2 .na)⟩⟩

/-- `pd.read_csv(full_path, index_col=None)` (util_functions.py:238). The renaming of duplicated names
of columns is not modelled: they are rejected. -/
def readLog (F : TextFormat) (t : Text) : Py Frame := do
  let file ← readCsv t
  if (file.1.zipIdx.map columnName).Nodup then .ok (tableOf F file.1 file.2) else .error .valueError

/-- `load_all_logs` (util_functions.py:228-243); `so` is the order of `os.listdir` -/
def loadAllLogs (F : TextFormat) (so : SetOrder String) (fs : FS) (folder : Path) :
    Py (Dict String Frame) := do
  let names ← FS.list so fs folder
  let logs ← names.mapM fun name => do
    let t ← fs.read (folder ++ [name])
    let log ← readLog F t
    .ok (stem name, log)
  .ok (Dict.ofPairs logs)

end Trumania
