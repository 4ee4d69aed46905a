import Verif.Model.Db

/-!
# Model of the namespaces of `trumania/components/db.py` and of the parameters kept with a circus

Names contain no `/`.
-/

namespace Trumania
namespace Db
variable {σ γ : Type}

/-- `is_namespace_existing` (db.py:113-114) -/
def isNamespaceExisting (fs : FS) (db : Path) (name : String) : Bool :=
  fs.pathExists (namespaceFolder db name)

/-- `create_namespace` (db.py:121-125) -/
def createNamespace (db : Path) (name : String) : Act FS Path := do
  let folder := namespaceFolder db name
  let fs ← get
  if fs.pathExists folder then pure folder
  else do
    FS.makedirs folder
    pure folder

/-- `remove_namespace` (db.py:128-129) -/
def removeNamespace (so : SetOrder String) (fuel : Nat) (db : Path) (name : String) : Act FS Unit :=
  FS.ensureNonExistingDir so fuel (namespaceFolder db name)

/-- `Circus.save_params_to_db` (circus.py:256-266); `t` is the text of `json.dump(params)` (parameters that
json refuses leave a part of the file: this is not modelled) -/
def saveParams (db : Path) (c : Circus σ γ) (type : String) (t : Text) : Act FS Unit :=
  FS.writeFile (namespaceFolder db c.name ++ ["params_" ++ type ++ ".json"]) t

end Db
end Trumania
