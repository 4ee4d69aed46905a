import Verif.Model.Frame

/-!
# Model of the file system calls and of `ensure_folder_exists`, `ensure_non_existing_dir`

A path is the list of its components, from the root. The file system has directories and regular
files only (no symbolic link, no permissions, no concurrent access).
-/

namespace Trumania

/-- a `for` loop -/
def Act.forEach {W α : Type} (f : α → Act W Unit) : List α → Act W Unit
  | [] => pure ()
  | a :: l => do
    f a
    Act.forEach f l

/-- the characters of a text -/
abbrev Text := List Char

abbrev Path := List String

/-- what is at a path -/
inductive Node where
  | dir
  | file (content : Text)
deriving DecidableEq, Repr

abbrev FS := Dict Path Node

namespace FS

/-- `os.path.exists(p)` -/
def pathExists (fs : FS) (p : Path) : Bool := fs.contains p

/-- `os.path.isfile(p)` -/
def isFile (fs : FS) (p : Path) : Bool :=
  match fs.get? p with
  | some (.file _) => true
  | _ => false

/-- `os.path.isdir(p)` -/
def isDir (fs : FS) (p : Path) : Bool :=
  match fs.get? p with
  | some .dir => true
  | _ => false

/-- the last component of `q` if `q` is directly in the directory `p` -/
def childName (p q : Path) : Option String :=
  if q.dropLast = p then q.getLast? else none

/-- the entries of the directory `p` -/
def children (fs : FS) (p : Path) : List String := fs.keys.filterMap (childName p)

/-- `os.listdir(p)`, in an arbitrary order -/
def listdir (so : SetOrder String) (p : Path) : Act FS (List String) := do
  let fs ← get
  if fs.isDir p then pure (so.order (fs.children p)) else throw .environmentError

/-- `os.remove(p)` -/
def remove (p : Path) : Act FS Unit := do
  let fs ← get
  if fs.isFile p then set (Dict.del fs p) else throw .environmentError

/-- `os.rmdir(p)`: only empty directories can be removed -/
def rmdir (p : Path) : Act FS Unit := do
  let fs ← get
  if fs.isDir p ∧ fs.children p = [] then set (Dict.del fs p) else throw .environmentError

/-- `os.mkdir(p)`: refused if `p` exists or if its parent is no directory -/
def mkdir (p : Path) : Act FS Unit := do
  let fs ← get
  if ¬ fs.pathExists p ∧ p ≠ [] ∧ fs.isDir p.dropLast then set (Dict.set fs p Node.dir)
  else throw .environmentError

/-- the loop of `os.makedirs`: creates the missing directories, the outermost first -/
def mkdirs : List Path → Act FS Unit
  | [] => pure ()
  | p :: ps => do
    let fs ← get
    if fs.pathExists p then mkdirs ps
    else do
      mkdir p
      mkdirs ps

/-- `os.makedirs(p)`: refused if `p` exists -/
def makedirs (p : Path) : Act FS Unit := do
  let fs ← get
  if fs.pathExists p then throw .environmentError else mkdirs p.inits

/-- the whole content of a file -/
def readFile (p : Path) : Act FS Text := do
  let fs ← get
  match fs.get? p with
  | some (.file t) => pure t
  | _ => throw .environmentError

/-- `open(p, "w")`, `write`, `close` -/
def writeFile (p : Path) (t : Text) : Act FS Unit := do
  let fs ← get
  if p ≠ [] ∧ ¬ fs.isDir p ∧ fs.isDir p.dropLast then set (Dict.set fs p (Node.file t))
  else throw .environmentError

/-- `open(p, "a")`, `write`, `close` -/
def appendFile (p : Path) (t : Text) : Act FS Unit := do
  let fs ← get
  match fs.get? p with
  | some (.file t0) => set (Dict.set fs p (Node.file (t0 ++ t)))
  | _ => writeFile p t

/-- `ensure_folder_exists` (util_functions.py:180-182) -/
def ensureFolderExists (p : Path) : Act FS Unit := do
  let fs ← get
  if fs.pathExists p then pure () else makedirs p

/-- `ensure_non_existing_dir` (util_functions.py:185-201). `fuel` bounds the depth of the recursion;
exhausting it is an error of its own, shown not to occur when `fuel` exceeds the depth of the tree. -/
def ensureNonExistingDir (so : SetOrder String) : Nat → Path → Act FS Unit
  | 0, _ => throw .recursionError
  | fuel + 1, p => do
    let fs ← get
    if fs.pathExists p then
      if fs.isFile p then remove p
      else do
        let names ← listdir so p
        Act.forEach (fun f => ensureNonExistingDir so fuel (p ++ [f])) names
        rmdir p
    else pure ()

end FS

end Trumania
