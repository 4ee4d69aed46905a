import Verif.Model.FileSystem

/-!
# Vocabulary of the properties on files
-/

namespace Trumania
namespace Spec

/-- `q` is `p` or something in the tree of `p` -/
def Below (p q : Path) : Prop := ∃ r, q = p ++ r

/-- what the file system has at `q` -/
def At (fs : FS) (q : Path) (n : Node) : Prop := (q, n) ∈ fs

/-- nothing at `q` -/
def Absent (fs : FS) (q : Path) : Prop := ∀ n, ¬ At fs q n

/-- a tree: one thing per path, and everything but the root is in a directory -/
structure Tree (fs : FS) : Prop where
  unique : (fs.map Prod.fst).Nodup
  parent : ∀ p name n, At fs (p ++ [name]) n → At fs p .dir

/-- the same content at `q` -/
def SameAt (fs fs' : FS) (q : Path) : Prop := ∀ n, At fs' q n ↔ At fs q n

/-- `d` bounds the depth of what is below `p` -/
def DepthBelow (fs : FS) (p : Path) (d : Nat) : Prop :=
  ∀ r n, At fs (p ++ r) n → r.length ≤ d

end Spec
end Trumania
