import Verif.Spec.FileSystem
import Verif.Proofs.Act
import Mathlib.Data.List.Infix

/-! Helper lemmas: file system. -/

namespace Trumania
open Spec
namespace FS

theorem get?_iff {fs : FS} (h : (fs.map Prod.fst).Nodup) {p : Path} {n : Node} :
    Dict.get? fs p = some n ↔ At fs p n := Dict.get?_eq_some_iff h

theorem pathExists_iff {fs : FS} (h : (fs.map Prod.fst).Nodup) {p : Path} :
    fs.pathExists p = true ↔ ∃ n, At fs p n := by
  rw [pathExists, Dict.contains, Option.isSome_iff_exists]
  simp only [get?_iff h]

theorem isDir_iff {fs : FS} (h : (fs.map Prod.fst).Nodup) {p : Path} :
    fs.isDir p = true ↔ At fs p .dir := by
  rw [← get?_iff h, isDir]
  split
  · next h => simp [h]
  · next h => simpa using h

theorem isFile_iff {fs : FS} (h : (fs.map Prod.fst).Nodup) {p : Path} :
    fs.isFile p = true ↔ ∃ t, At fs p (.file t) := by
  simp only [← get?_iff h, isFile]
  split
  · next h => simp [h]
  · next h =>
    simp only [Bool.false_eq_true, false_iff, not_exists]
    intro t ht
    exact h t ht

theorem childName_iff {p q : Path} {s : String} : childName p q = some s ↔ q = p ++ [s] := by
  rw [childName]
  constructor
  · split
    · next h =>
      intro hl
      have hne : q ≠ [] := by rintro rfl; simp at hl
      rw [List.getLast?_eq_some_getLast hne, Option.some.injEq] at hl
      rw [← h, ← hl, List.dropLast_append_getLast]
    · intro h; cases h
  · rintro rfl
    simp

theorem mem_children {fs : FS} {p : Path} {s : String} :
    s ∈ fs.children p ↔ ∃ n, At fs (p ++ [s]) n := by
  simp only [children, List.mem_filterMap, childName_iff, Dict.keys, List.mem_map, At]
  constructor
  · rintro ⟨q, ⟨⟨q', n⟩, h1, rfl⟩, h2⟩
    exact ⟨n, h2 ▸ h1⟩
  · rintro ⟨n, h⟩
    exact ⟨_, ⟨_, h, rfl⟩, rfl⟩

/-- the file system without the tree of `p` -/
def without (fs : FS) (p : Path) : FS := fs.filter fun x => !p.isPrefixOf x.1

theorem mem_without {fs : FS} {p q : Path} {n : Node} :
    At (without fs p) q n ↔ At fs q n ∧ ¬ Below p q := by
  rw [At, without, List.mem_filter]
  simp only [Bool.not_eq_eq_eq_not, Bool.not_true, Bool.eq_false_iff, ne_eq, List.isPrefixOf_iff_prefix]
  constructor
  · rintro ⟨h1, h2⟩
    refine ⟨h1, fun ⟨r, hr⟩ => h2 ⟨r, hr.symm⟩⟩
  · rintro ⟨h1, h2⟩
    exact ⟨h1, fun ⟨r, hr⟩ => h2 ⟨r, hr.symm⟩⟩

theorem without_tree {fs : FS} (h : Tree fs) (p : Path) : Tree (without fs p) := by
  constructor
  · exact h.unique.sublist (List.filter_sublist.map _)
  · intro q name n hq
    rw [mem_without] at hq ⊢
    refine ⟨h.parent q name n hq.1, ?_⟩
    rintro ⟨r, rfl⟩
    exact hq.2 ⟨r ++ [name], by simp⟩

/-- everything up a path of a tree is a directory -/
theorem tree_ancestor {fs : FS} (h : Tree fs) {p r : Path} {n : Node} (hr : r ≠ [])
    (hn : At fs (p ++ r) n) : At fs p .dir := by
  induction r using List.reverseRecOn generalizing n with
  | nil => exact absurd rfl hr
  | append_singleton r x ih =>
    rw [← List.append_assoc] at hn
    have hd := h.parent _ _ _ hn
    by_cases hr' : r = []
    · simpa [hr'] using hd
    · exact ih hr' hd

theorem del_eq_filter {fs : FS} (h : (fs.map Prod.fst).Nodup) (p : Path) :
    Dict.del fs p = fs.filter fun x => decide (x.1 ≠ p) := by
  induction fs with
  | nil => rfl
  | cons y fs ih =>
    obtain ⟨k, v⟩ := y
    rw [List.map_cons, List.nodup_cons] at h
    rw [Dict.del]
    by_cases hk : k = p
    · subst hk
      rw [if_pos rfl, List.filter_cons_of_neg (by simp), List.filter_eq_self.2]
      intro x hx
      have : x.1 ≠ k := by
        rintro rfl
        exact h.1 (List.mem_map.2 ⟨x, hx, rfl⟩)
      simpa using this
    · rw [if_neg hk, List.filter_cons_of_pos (by simpa using hk), ih h.2]

/-- deleting a path below which there is nothing else removes its tree -/
theorem del_eq_without {fs : FS} (h : Tree fs) {p : Path}
    (hb : ∀ r n, At fs (p ++ r) n → r = []) : Dict.del fs p = without fs p := by
  rw [del_eq_filter h.unique, without]
  apply List.filter_congr
  intro x hx
  rw [Bool.eq_iff_iff]
  simp only [decide_eq_true_eq, Bool.not_eq_eq_eq_not, Bool.not_true, Bool.eq_false_iff, ne_eq,
    List.isPrefixOf_iff_prefix, not_iff_not]
  constructor
  · rintro rfl
    exact List.prefix_refl _
  · rintro ⟨r, hr⟩
    have := hb r x.2 (by rw [hr]; exact hx)
    simpa [this] using hr.symm

theorem get_ok {W : Type} (w : W) : (get : Act W W) w = .ok w w := rfl

theorem set_ok {W : Type} (w w' : W) : (set w' : Act W PUnit) w = .ok ⟨⟩ w' := rfl

theorem mem_foldl_without {l : List Path} {fs : FS} {q : Path} {n : Node} :
    At (l.foldl without fs) q n ↔ At fs q n ∧ ∀ p ∈ l, ¬ Below p q := by
  induction l generalizing fs with
  | nil => simp
  | cons p l ih =>
    rw [List.foldl_cons, ih, mem_without]
    simp [and_assoc]

theorem foldl_without_eq_filter {l : List Path} {fs : FS} :
    l.foldl without fs = fs.filter fun x => l.all fun p => !p.isPrefixOf x.1 := by
  induction l generalizing fs with
  | nil => exact (List.filter_eq_self.2 (by simp)).symm
  | cons p l ih =>
    rw [List.foldl_cons, ih, without, List.filter_filter]
    apply List.filter_congr
    intro x _
    simp [Bool.and_comm]

/-- `ensure_non_existing_dir` removes exactly the tree of its argument -/
theorem ensureNonExistingDir_eq (so : SetOrder String) {fuel : Nat} {p : Path} {fs : FS}
    (h : Tree fs) (hf : ∀ r n, At fs (p ++ r) n → r.length < fuel) (hf0 : 0 < fuel) :
    ensureNonExistingDir so fuel p fs = .ok () (without fs p) := by
  induction fuel generalizing p fs with
  | zero => exact absurd hf0 (lt_irrefl _)
  | succ fuel ih =>
    rw [ensureNonExistingDir, Act.bind_ok (get_ok fs)]
    by_cases he : fs.pathExists p = true
    · rw [if_pos he]
      by_cases hfile : fs.isFile p = true
      · rw [if_pos hfile, remove, Act.bind_ok (get_ok fs), if_pos hfile, set_ok]
        rw [del_eq_without h]
        intro r n hr
        by_contra hne
        obtain ⟨t, ht⟩ := (isFile_iff h.unique).1 hfile
        have hd := tree_ancestor h hne hr
        have := (get?_iff h.unique).2 hd
        rw [(get?_iff h.unique).2 ht] at this
        cases this
      · rw [if_neg hfile]
        have hdir : At fs p .dir := by
          obtain ⟨n, hn⟩ := (pathExists_iff h.unique).1 he
          cases n with
          | dir => exact hn
          | file t => exact absurd ((isFile_iff h.unique).2 ⟨t, hn⟩) hfile
        have hls : listdir so p fs = .ok (so.order (fs.children p)) fs := by
          rw [listdir, Act.bind_ok (get_ok fs), if_pos ((isDir_iff h.unique).2 hdir)]
          rfl
        rw [Act.bind_ok hls]
        have hloop : ∀ (names : List String) (g : FS), Tree g →
            (∀ s ∈ names, ∀ r n, At g (p ++ [s] ++ r) n → r.length < fuel) →
            (∀ s ∈ names, 0 < fuel) →
            Act.forEach (fun f => ensureNonExistingDir so fuel (p ++ [f])) names g =
              .ok () ((names.map fun s => p ++ [s]).foldl without g) := by
          intro names
          induction names with
          | nil => intro g _ _ _; rfl
          | cons s names ihn =>
            intro g hg hd h0
            rw [Act.forEach, Act.bind_ok (ih (p := p ++ [s]) hg (hd s (by simp))
              (h0 s (by simp)))]
            rw [ihn (without g (p ++ [s])) (without_tree hg _)]
            · rfl
            · intro s' hs' r n hr
              exact hd s' (by simp [hs']) r n (mem_without.1 hr).1
            · intro s' hs'
              exact h0 s' (by simp [hs'])
        have hsub : ∀ s ∈ so.order (fs.children p), ∃ n, At fs (p ++ [s]) n := by
          intro s hs
          exact mem_children.1 ((so.mem _ _).1 hs)
        rw [Act.bind_ok (hloop _ fs h (by
            intro s hs r n hr
            have := hf (s :: r) n (by simpa using hr)
            simpa using this) (by
            intro s hs
            obtain ⟨n, hn⟩ := hsub s hs
            have := hf [s] n hn
            simp only [List.length_singleton] at this
            omega))]
        -- the directory is now empty
        generalize hg : ((so.order (fs.children p)).map fun s => p ++ [s]).foldl without fs = g
        have hgt : Tree g := by
          rw [← hg]
          generalize ((so.order (fs.children p)).map fun s => p ++ [s]) = l
          clear * - h
          induction l generalizing fs with
          | nil => exact h
          | cons q l ih => exact ih (without_tree h q)
        have hpg : At g p .dir := by
          rw [← hg, mem_foldl_without]
          refine ⟨hdir, ?_⟩
          intro q hq
          obtain ⟨s, -, rfl⟩ := List.mem_map.1 hq
          rintro ⟨r, hr⟩
          have := congrArg List.length hr
          simp at this
        have hempty : ∀ r n, At g (p ++ r) n → r = [] := by
          intro r n hr
          cases r with
          | nil => rfl
          | cons s r =>
            exfalso
            rw [← hg, mem_foldl_without] at hr
            obtain ⟨m, hm⟩ : ∃ m, At fs (p ++ [s]) m := by
              by_cases hr0 : r = []
              · exact ⟨n, by simpa [hr0] using hr.1⟩
              · refine ⟨_, tree_ancestor h hr0 (n := n) ?_⟩
                simpa using hr.1
            refine hr.2 (p ++ [s]) ?_ ⟨r, by simp⟩
            exact List.mem_map.2 ⟨s, (so.mem _ _).2 (mem_children.2 ⟨m, hm⟩), rfl⟩
        have hch : g.children p = [] := by
          rw [List.eq_nil_iff_forall_not_mem]
          intro s hs
          obtain ⟨n, hn⟩ := mem_children.1 hs
          exact absurd (hempty [s] n hn) (by simp)
        rw [rmdir, Act.bind_ok (get_ok g), if_pos ⟨(isDir_iff hgt.unique).2 hpg, hch⟩, set_ok,
          del_eq_without hgt hempty, ← hg]
        congr 1
        rw [foldl_without_eq_filter, without, without, List.filter_filter]
        apply List.filter_congr
        intro x _
        rw [Bool.eq_iff_iff]
        simp only [Bool.and_eq_true, Bool.not_eq_eq_eq_not, Bool.not_true, Bool.eq_false_iff, ne_eq,
          List.isPrefixOf_iff_prefix, List.all_eq_true, List.mem_map, forall_exists_index, and_imp,
          forall_apply_eq_imp_iff₂, and_iff_left_iff_imp]
        rintro hx s _ ⟨r, hr⟩
        exact hx ⟨s :: r, by rw [← hr]; simp⟩
    · rw [if_neg he]
      have : without fs p = fs := by
        rw [without, List.filter_eq_self]
        intro x hx
        simp only [Bool.not_eq_eq_eq_not, Bool.not_true, Bool.eq_false_iff, ne_eq,
          List.isPrefixOf_iff_prefix]
        rintro ⟨r, hr⟩
        apply he
        rw [pathExists_iff h.unique]
        by_cases hr0 : r = []
        · subst hr0
          rw [List.append_nil] at hr
          exact ⟨x.2, hr ▸ hx⟩
        · exact ⟨.dir, tree_ancestor h hr0 (n := x.2) (hr ▸ hx)⟩
      rw [this]
      rfl

end FS
end Trumania
