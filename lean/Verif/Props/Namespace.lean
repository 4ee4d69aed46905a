import Verif.Model.Namespace
import Verif.Proofs.DbFrame
import Verif.Props.Db
import Verif.Props.FileSystem

/-!
# Namespaces, and the parameters kept with a circus
-/

namespace Trumania
open Spec Act

namespace Db
variable {σ γ : Type} {D : DbFormat γ}

/-! ### C128 -/

theorem isNamespaceExisting_iff {fs : FS} {db : Path} {name : String} :
    isNamespaceExisting fs db name = true ↔ ∃ n, At fs (db ++ [name]) n := by
  rw [isNamespaceExisting, FS.pathExists, Dict.contains, Option.isSome_iff_ne_none, Ne, FS.get?_none_iff,
    namespaceFolder, Absent]
  push Not
  exact Iff.rfl

/-- **C128** Creating a namespace succeeds when nothing on its way is a file, and returns its folder: it is
then existing, with the folders on its way; all that was there is kept, and nothing else appears. -/
theorem C128_create (db : Path) (name : String) (fs : FS) (ht : Tree fs)
    (hc : Creatable fs (db ++ [name])) :
    ∃ fs', createNamespace db name fs = .ok (db ++ [name]) fs' ∧ Tree fs' ∧
      isNamespaceExisting fs' db name = true ∧
      ∀ q n, At fs' q n ↔ At fs q n ∨ (n = .dir ∧ Below q (db ++ [name]) ∧ Absent fs q) := by
  have hw := FS.way_of_creatable ht hc
  obtain ⟨fs1, h1, v1⟩ := FS.ensureFolderExists_view hw (by
    rintro he q ⟨r, hr⟩
    by_cases hr0 : r = []
    · rw [hr0, List.append_nil] at hr
      rw [← hr]; exact he
    · exact (FS.get?_iff ht.unique).2 (FS.tree_ancestor ht hr0 (by
        rw [← hr]; exact Dict.get?_mem he)))
  obtain ⟨ht1, h2⟩ := FS.ensureFolderExists_ok ht h1
  refine ⟨fs1, ?_, ht1, ?_, h2⟩
  · rw [createNamespace, namespaceFolder, Act.bind_ok (FS.get_ok fs)]
    rw [FS.ensureFolderExists, Act.bind_ok (FS.get_ok fs)] at h1
    split at h1
    · next h =>
      rw [if_pos h]
      obtain ⟨-, rfl⟩ := Act.pure_eq_ok.1 h1
      rfl
    · next h =>
      rw [if_neg h, Act.bind_ok h1]
      rfl
  · exact isNamespaceExisting_iff.2 ⟨.dir, Dict.get?_mem ((v1 _).1 (FS.below_refl _))⟩

/-- **C128** Creating a namespace that exists changes nothing. -/
theorem C128_create_again (db : Path) (name : String) (fs : FS)
    (h : isNamespaceExisting fs db name = true) :
    createNamespace db name fs = .ok (db ++ [name]) fs := by
  rw [isNamespaceExisting] at h
  rw [createNamespace, Act.bind_ok (FS.get_ok fs), if_pos h]
  rfl

/-- **C128** Removing a namespace, existing or not, succeeds: nothing is left at its folder or below, it is
not existing any more, and all the rest is kept, the other namespaces among it. -/
theorem C128_remove (so : SetOrder String) (fuel d : Nat) (db : Path) (name : String) (fs : FS)
    (ht : Tree fs) (hd : DepthBelow fs (db ++ [name]) d) (hf : d < fuel) :
    ∃ fs', removeNamespace so fuel db name fs = .ok () fs' ∧ Tree fs' ∧
      isNamespaceExisting fs' db name = false ∧
      (∀ r, Absent fs' (db ++ name :: r)) ∧
      (∀ q, ¬ Below (db ++ [name]) q → SameAt fs fs' q) ∧
      ∀ other, other ≠ name → isNamespaceExisting fs' db other = isNamespaceExisting fs db other := by
  obtain ⟨fs', h1, h2, h3, h4⟩ := C62_deletes_one_tree so fuel d (db ++ [name]) fs ht hd hf
  refine ⟨fs', h1, h4, ?_, fun r => h2 _ ⟨r, by simp⟩, h3, fun other ho => ?_⟩
  · rw [Bool.eq_false_iff, Ne, isNamespaceExisting_iff]
    rintro ⟨n, hn⟩
    exact h2 _ (FS.below_refl _) n hn
  · rw [Bool.eq_iff_iff, isNamespaceExisting_iff, isNamespaceExisting_iff]
    have hs := h3 (db ++ [other]) (by
      rintro ⟨r, hr⟩
      rw [List.append_assoc] at hr
      have := List.append_cancel_left hr
      rw [List.singleton_append, List.cons.injEq] at this
      exact ho this.1)
    exact exists_congr fun n => hs n

/-- **C128** Parameters can only be saved in a namespace that exists: otherwise the call raises and nothing
is written. -/
theorem C128_params_refused (db : Path) (c : Circus σ γ) (type : String) (t : Text) (fs : FS)
    (h : ¬ At fs (db ++ [c.name]) .dir) :
    saveParams db c type t fs = .error .environmentError fs := by
  rw [saveParams, FS.writeFile, Act.bind_ok (FS.get_ok fs), if_neg]
  · rfl
  · rintro ⟨-, -, h1⟩
    rw [List.dropLast_concat, FS.isDir] at h1
    split at h1
    · next hg => exact h (Dict.get?_mem hg)
    · cases h1

/-- **C128** In a namespace that exists, the parameters of each type are in a file of their own, that holds
the last ones saved; nothing else changes. -/
theorem C128_params_saved (db : Path) (c : Circus σ γ) (type : String) (t : Text) (fs : FS) (ht : Tree fs)
    (h : At fs (db ++ [c.name]) .dir) (hn : ¬ At fs (db ++ [c.name, "params_" ++ type ++ ".json"]) .dir) :
    ∃ fs', saveParams db c type t fs = .ok () fs' ∧ Tree fs' ∧
      At fs' (db ++ [c.name, "params_" ++ type ++ ".json"]) (.file t) ∧
      ∀ q, q ≠ db ++ [c.name, "params_" ++ type ++ ".json"] → SameAt fs fs' q := by
  have e : namespaceFolder db c.name ++ ["params_" ++ type ++ ".json"] =
      db ++ [c.name, "params_" ++ type ++ ".json"] := by simp [namespaceFolder]
  rw [← e] at hn ⊢
  rcases FS.writeFile_cases ht (namespaceFolder db c.name ++ ["params_" ++ type ++ ".json"]) t with h1 | h1
  · exfalso
    rw [FS.writeFile, Act.bind_ok (FS.get_ok fs), if_pos ⟨by simp, fun hd =>
      hn ((FS.isDir_iff ht.unique).1 hd), by
        rw [List.dropLast_concat]; exact (FS.isDir_iff ht.unique).2 h⟩] at h1
    cases h1
  · obtain ⟨h2, -, h3, h4⟩ := h1
    have ht' := FS.set_tree ht (n := .file t) h3 fun _ => h2
    refine ⟨_, h4, ht', ?_, ?_⟩
    · exact Dict.get?_mem ((Dict.get?_set _ _ _ _).trans (if_pos rfl))
    · intro q hq n
      rw [← FS.get?_iff ht'.unique, ← FS.get?_iff ht.unique, Dict.get?_set, if_neg (Ne.symm hq)]

/-- saving below `ns ++ [x]` leaves the other entries of `ns` alone -/
theorem other_entry {ns : Path} {x y : String} (hxy : y ≠ x) {fs fs' : FS}
    (h : NamespaceOnly (ns ++ [x]) fs fs') (r : Path) :
    Dict.get? fs' (ns ++ y :: r) = Dict.get? fs (ns ++ y :: r) := by
  have hne : ∀ r r' : Path, ns ++ y :: r ≠ ns ++ ([x] ++ r') := by
    intro r r' hh
    have := List.append_cancel_left hh
    rw [List.singleton_append, List.cons.injEq] at this
    exact hxy this.1
  rcases h.out (ns ++ y :: r) (by
    rintro ⟨r', hr'⟩
    rw [List.append_assoc] at hr'
    exact hne _ _ hr') with h1 | ⟨-, -, r', hr'⟩
  · exact h1
  · exfalso
    have := congrArg (fun l => l.drop ns.length) hr'
    simp only [List.append_assoc, List.drop_left] at this
    rw [List.cons_append, List.cons.injEq] at this
    exact hxy this.1.symm

/-- **C128** Saving a circus with `overwrite` leaves nothing in its folder but its configuration, its
populations and its generators: parameters saved before are lost. -/
theorem C128_overwritten (so : SetOrder String) (fuel d : Nat) (env : Orders) (db : Path)
    (c : Circus σ γ) (fs fs' : FS) (ht : Tree fs) (hd : DepthBelow fs (db ++ [c.name]) d) (hf : d < fuel)
    (h : saveToDb D so fuel env db true c fs = .ok () fs') (y : String) (r : Path) (n : Node)
    (hy : At fs' (db ++ c.name :: y :: r) n) :
    y = "circus_config.json" ∨ y = "populations" ∨ y = "generators" := by
  by_contra hno
  push Not at hno
  obtain ⟨hy1, hy2, hy3⟩ := hno
  have key : ∀ fs1 : FS, Tree fs1 → (∀ q, Below (db ++ [c.name]) q → Absent fs1 q) →
      saveAll D so fuel env db c fs1 = .ok () fs' → False := by
    intro fs1 ht1 hab hs
    obtain ⟨u1, fs2, h1, hs⟩ := Act.bind_eq_ok.1 hs
    obtain ⟨ht2, hv2⟩ := FS.ensureFolderExists_ok ht1 h1
    obtain ⟨u2, fs3, h2, hs⟩ := Act.bind_eq_ok.1 hs
    obtain ⟨u3, fs4, h3, h4⟩ := Act.bind_eq_ok.1 hs
    have e : db ++ c.name :: y :: r = (namespaceFolder db c.name) ++ y :: r := by simp [namespaceFolder]
    have g2 : Dict.get? fs2 (namespaceFolder db c.name ++ y :: r) = none := by
      rw [FS.get?_none_iff]
      intro m hm
      rcases (hv2 _ _).1 hm with hm | ⟨-, ⟨r', hr'⟩, -⟩
      · exact hab _ (FS.below_append _ _) m hm
      · have := congrArg List.length hr'
        simp at this
    have g3 : Dict.get? fs3 (namespaceFolder db c.name ++ y :: r) = none ∧ Tree fs3 := by
      rcases FS.writeFile_cases ht2 (configFile db c.name) (D.dumpConfig c.masterSeed c.start c.step)
        with h5 | ⟨h5, -, h6, h7⟩
      · rw [h5] at h2; cases h2
      · rw [h7] at h2; cases h2
        refine ⟨?_, FS.set_tree ht2 h6 fun _ => h5⟩
        refine (Dict.get?_set _ _ _ _).trans ?_
        rw [if_neg, g2]
        intro hh
        have := List.append_cancel_left hh
        rw [List.cons.injEq] at this
        exact hy1 this.1.symm
    have n4 : NamespaceOnly (namespaceFolder db c.name ++ ["populations"]) fs3 fs4 := by
      have hk : Keeps (NamespaceOnly (namespaceFolder db c.name ++ ["populations"]) fs3)
          (savePopulations D so fuel env db c) := by
        refine Keeps.forEach fun x => ?_
        split
        · exact NamespaceOnly.saveTo D.text so fuel env _ (FS.below_append _ _) _
        · exact fun _ h => h
      have := hk fs3 ⟨g3.2.unique, fun _ _ => .inl rfl⟩
      rwa [Act.after_ok h3] at this
    have n5 : NamespaceOnly (namespaceFolder db c.name ++ ["generators"]) fs4 fs' := by
      have hk : Keeps (NamespaceOnly (namespaceFolder db c.name ++ ["generators"]) fs4)
          (saveGenerators D db c) := by
        refine Keeps.forEach fun x => ?_
        split
        · exact Keeps.bind (NamespaceOnly.ensureFolderExists (FS.below_append _ _)) fun _ =>
            Keeps.bind (NamespaceOnly.ofPy _) fun t => NamespaceOnly.writeFile t (FS.below_append _ _)
        · exact fun _ h => h
      have := hk fs4 ⟨n4.wf, fun _ _ => .inl rfl⟩
      rwa [Act.after_ok h4] at this
    have g5 : Dict.get? fs' (db ++ c.name :: y :: r) = none := by
      rw [e, other_entry hy3 n5, other_entry hy2 n4, g3.1]
    rw [(FS.get?_iff n5.wf).2 hy] at g5
    cases g5
  rw [saveToDb, Act.bind_ok (FS.get_ok fs)] at h
  split at h
  · rw [if_pos rfl] at h
    obtain ⟨fs1, h1, h2, -, h4⟩ := C62_deletes_one_tree so fuel d (db ++ [c.name]) fs ht hd hf
    rw [namespaceFolder, Act.bind_ok h1] at h
    exact key fs1 h4 h2 h
  · next he =>
    refine key fs ht ?_ h
    rintro q ⟨s, rfl⟩ m hm
    have hx : ∃ n', At fs (db ++ [c.name]) n' := by
      by_cases hs : s = []
      · rw [hs, List.append_nil] at hm
        exact ⟨m, hm⟩
      · exact ⟨.dir, FS.tree_ancestor ht hs hm⟩
    exact he (isNamespaceExisting_iff.2 hx)

/-! ### Cases -/

/-- the parameters of the example are saved with it, and lost when it is saved again -/
def exParams (overwrite : Bool) : FS :=
  let fs := (saveToDb exFormat (SetOrder.dedup String) 10 Orders.a ["db"] false exCircus).after exDisk
  let fs := (saveParams ["db"] exCircus "build" "{}".toList).after fs
  if overwrite then (saveToDb exFormat (SetOrder.dedup String) 10 Orders.a ["db"] true exCircus).after fs else fs

example : Dict.get? (exParams false) ["db", exCircus.name, "params_build.json"] = some (.file "{}".toList) ∧
    Dict.get? (exParams true) ["db", exCircus.name, "params_build.json"] = none ∧
    (Dict.get? (exParams true) ["db", exCircus.name, "circus_config.json"]).isSome := by decide +kernel

example : (saveParams ["db"] exCircus "build" "{}".toList).raised? exDisk = some .environmentError := by
  decide +kernel

example : isNamespaceExisting exDisk ["db"] "other" = true ∧
    isNamespaceExisting ((createNamespace ["db"] "new").after exDisk) ["db"] "new" = true ∧
    isNamespaceExisting ((removeNamespace (SetOrder.dedup String) 5 ["db"] "other").after exDisk) ["db"] "other" = false := by
  decide +kernel

end Db
end Trumania
