import Verif.Proofs.FileSystem

/-!
# C62: `ensure_non_existing_dir` deletes exactly one tree
-/

namespace Trumania
open Spec

/-- C62. On any tree of files, for any order of the directory listings, the deletion succeeds: nothing is
left at or below the path, every other path is as before, and the files are still a tree. The fuel is
only the bound of the recursion: any value above the depth of the folder will do. -/
theorem C62_deletes_one_tree (so : SetOrder String) (fuel d : Nat) (p : Path) (fs : FS)
    (h : Tree fs) (hd : DepthBelow fs p d) (hfuel : d < fuel) :
    ∃ fs', FS.ensureNonExistingDir so fuel p fs = .ok () fs' ∧
      (∀ q, Below p q → Absent fs' q) ∧ (∀ q, ¬ Below p q → SameAt fs fs' q) ∧ Tree fs' := by
  refine ⟨_, FS.ensureNonExistingDir_eq so h (fun r n hr => Nat.lt_of_le_of_lt (hd r n hr) hfuel)
    (by omega), ?_, ?_, FS.without_tree h p⟩
  · intro q hq n hn
    exact (FS.mem_without.1 hn).2 hq
  · intro q hq n
    rw [FS.mem_without]
    exact ⟨fun h => h.1, fun h => ⟨h, hq⟩⟩

/-- C62. Every tree has a depth: with enough fuel the deletion always ends. -/
theorem C62_terminates (fs : FS) (p : Path) : ∃ d, DepthBelow fs p d := by
  induction fs with
  | nil => exact ⟨0, fun r n h => absurd h List.not_mem_nil⟩
  | cons x fs ih =>
    obtain ⟨d, hd⟩ := ih
    refine ⟨d + x.1.length, ?_⟩
    intro r n hr
    rcases List.mem_cons.1 hr with h | h
    · have := congrArg (fun y : Path × Node => y.1.length) h
      simp only [List.length_append] at this
      omega
    · have := hd r n h
      omega

/-- C62. Deleting again changes nothing. -/
theorem C62_idempotent (so so' : SetOrder String) (fuel fuel' d : Nat) (p : Path) (fs fs' : FS)
    (h : Tree fs) (hd : DepthBelow fs p d) (hfuel : d < fuel) (hfuel' : 0 < fuel')
    (hrun : FS.ensureNonExistingDir so fuel p fs = .ok () fs') :
    FS.ensureNonExistingDir so' fuel' p fs' = .ok () fs' := by
  obtain ⟨fs1, h1, h2, -, h4⟩ := C62_deletes_one_tree so fuel d p fs h hd hfuel
  rw [h1] at hrun
  cases hrun
  rw [FS.ensureNonExistingDir_eq so' h4 (fun r n hr => absurd hr (h2 _ ⟨r, rfl⟩ n)) hfuel']
  congr 1
  rw [FS.without, List.filter_eq_self]
  rintro ⟨q, n⟩ hq
  rw [Bool.not_eq_true', Bool.eq_false_iff, ne_eq, List.isPrefixOf_iff_prefix]
  rintro ⟨r, hr⟩
  exact h2 q ⟨r, hr.symm⟩ n hq

/-- a folder with a nested folder and files, beside another one whose name has the same beginning -/
def exampleFiles : FS :=
  [([], .dir), (["a"], .dir), (["a", "f.csv"], .file ['x']), (["a", "b"], .dir),
   (["a", "b", "g.csv"], .file ['y']), (["ab"], .dir), (["ab", "f.csv"], .file ['z'])]

theorem exampleFiles_tree : Tree exampleFiles := by
  constructor
  · decide +kernel
  · intro p name n h
    have h' : (p ++ [name]) ∈ exampleFiles.map Prod.fst := List.mem_map_of_mem (f := Prod.fst) h
    have hp : p = (p ++ [name]).dropLast := by simp
    have hne : p ++ [name] ≠ [] := by simp
    generalize p ++ [name] = q at h' hp hne
    subst hp
    simp only [exampleFiles, List.map_cons, List.map_nil, List.mem_cons, List.not_mem_nil,
      or_false] at h'
    rcases h' with rfl | rfl | rfl | rfl | rfl | rfl | rfl <;> first
      | exact absurd rfl hne
      | (simp [At, exampleFiles])

theorem exampleFiles_depth : DepthBelow exampleFiles ["a"] 2 := by
  intro r n h
  simp only [At, exampleFiles, List.mem_cons, List.not_mem_nil, or_false, Prod.mk.injEq] at h
  rcases h with h | h | h | h | h | h | h <;> simp_all

example : Tree exampleFiles ∧ DepthBelow exampleFiles ["a"] 2 ∧
    At exampleFiles ["a", "b", "g.csv"] (.file ['y']) :=
  ⟨exampleFiles_tree, exampleFiles_depth, by simp [At, exampleFiles]⟩

end Trumania
