import Verif.Proofs.DbText
import Verif.Proofs.Run
import Verif.Props.Persistence

/-!
# What the saving functions write and what the loading functions read

`fs.get? q` is what is at `q`. A folder is described by what it has at each relative path.
-/

namespace Trumania
open Spec

namespace Dict
variable {κ ν : Type} [DecidableEq κ]

theorem get?_append (a b : Dict κ ν) (k : κ) : get? (a ++ b) k = (get? a k).or (get? b k) := by
  induction a with
  | nil => simp
  | cons x a ih =>
    obtain ⟨k', v⟩ := x
    simp only [List.cons_append, get?_cons]
    split
    · rfl
    · exact ih

theorem set_new {d : Dict κ ν} {k : κ} {v : ν} (h : k ∉ d.keys) : d.set k v = d ++ [(k, v)] := by
  induction d with
  | nil => rfl
  | cons x d ih =>
    obtain ⟨k', v'⟩ := x
    simp only [keys_cons, List.mem_cons, not_or] at h
    rw [set, if_neg (fun e => h.1 e.symm), ih h.2]
    rfl

theorem ofPairs_nodup {l : List (κ × ν)} (h : (l.map Prod.fst).Nodup) : ofPairs l = l := by
  have key : ∀ (l d : List (κ × ν)), ((d ++ l).map Prod.fst).Nodup →
      l.foldl (fun d kv => Dict.set d kv.1 kv.2) d = d ++ l := by
    intro l
    induction l with
    | nil => intro d _; simp
    | cons x l ih =>
      intro d hd
      have hx : x.1 ∉ Dict.keys d := by
        intro hm
        rw [List.map_append, List.nodup_append] at hd
        exact hd.2.2 x.1 hm x.1 (by simp) rfl
      rw [List.foldl_cons, set_new hx, ih]
      · simp
      · simpa using hd
  exact key l [] (by simpa using h)

end Dict

namespace FS

theorem get?_none_iff {fs : FS} {q : Path} : Dict.get? fs q = none ↔ Absent fs q := by
  rw [Dict.get?_eq_none_iff]
  constructor
  · intro h n hn
    exact h (List.mem_map.2 ⟨_, hn, rfl⟩)
  · intro h hm
    obtain ⟨⟨q', n⟩, hn, rfl⟩ := List.mem_map.1 hm
    exact h n hn

theorem isDir_of {fs : FS} {q : Path} (h : Dict.get? fs q = some .dir) : fs.isDir q = true := by
  rw [isDir, h]

theorem pathExists_of {fs : FS} {q : Path} {n : Node} (h : Dict.get? fs q = some n) :
    fs.pathExists q = true := by
  rw [pathExists, Dict.contains, h]; rfl

theorem not_pathExists_of {fs : FS} {q : Path} (h : Dict.get? fs q = none) :
    fs.pathExists q = false := by
  rw [pathExists, Dict.contains, h]; rfl

theorem mem_children_get? {fs : FS} {p : Path} {s : String} :
    s ∈ fs.children p ↔ Dict.get? fs (p ++ [s]) ≠ none := by
  rw [mem_children, Ne, get?_none_iff, Absent]
  simp

theorem read_of {fs : FS} {q : Path} {t : Text} (h : Dict.get? fs q = some (.file t)) :
    fs.read q = .ok t := by
  rw [read, h]

theorem mkdir_view {fs : FS} {p : Path} (h : Dict.get? fs p = none) (hp : p ≠ [])
    (hd : Dict.get? fs p.dropLast = some .dir) :
    ∃ fs', mkdir p fs = .ok () fs' ∧
      ∀ q, Dict.get? fs' q = if p = q then some .dir else Dict.get? fs q := by
  refine ⟨Dict.set fs p .dir, ?_, fun q => Dict.get?_set fs p .dir q⟩
  rw [mkdir, Act.bind_ok (get_ok fs), if_pos ⟨by simp [not_pathExists_of h], hp, isDir_of hd⟩]
  rfl

theorem writeFile_view {fs : FS} {p : Path} {t : Text} (h : Dict.get? fs p = none) (hp : p ≠ [])
    (hd : Dict.get? fs p.dropLast = some .dir) :
    ∃ fs', writeFile p t fs = .ok () fs' ∧
      ∀ q, Dict.get? fs' q = if p = q then some (.file t) else Dict.get? fs q := by
  refine ⟨Dict.set fs p (.file t), ?_, fun q => Dict.get?_set fs p (.file t) q⟩
  have hnd : ¬ fs.isDir p = true := by rw [isDir, h]; simp
  rw [writeFile, Act.bind_ok (get_ok fs), if_pos ⟨hp, hnd, isDir_of hd⟩]
  rfl

/-- nothing on the way to `p` is a file -/
def Way (fs : FS) (p : Path) : Prop :=
  Dict.get? fs [] = some .dir ∧ ∀ q, Below q p → Dict.get? fs q = some .dir ∨ Dict.get? fs q = none

theorem way_of_creatable {fs : FS} {p : Path} (h : Tree fs) (hc : Creatable fs p) : Way fs p := by
  refine ⟨(get?_iff h.unique).2 hc.1, fun q hq => ?_⟩
  cases hg : Dict.get? fs q with
  | none => exact .inr rfl
  | some n => rw [hc.2 q n hq (Dict.get?_mem hg)]; exact .inl rfl

theorem below_refl (p : Path) : Below p p := ⟨[], by simp⟩

theorem below_append (p r : Path) : Below p (p ++ r) := ⟨r, rfl⟩

theorem below_trans {p q r : Path} (h1 : Below p q) (h2 : Below q r) : Below p r := by
  obtain ⟨a, rfl⟩ := h1
  obtain ⟨b, rfl⟩ := h2
  exact ⟨a ++ b, by simp⟩

theorem below_snoc {p q : Path} {x : String} (h : Below q (p ++ [x])) : q = p ++ [x] ∨ Below q p := by
  obtain ⟨r, hr⟩ := h
  rcases List.eq_nil_or_concat r with rfl | ⟨r', y, rfl⟩
  · left; simpa using hr.symm
  · right
    rw [List.concat_eq_append, ← List.append_assoc] at hr
    exact ⟨r', (List.append_inj' hr rfl).1⟩

theorem not_below_snoc (p : Path) (x : String) : ¬ Below (p ++ [x]) p := by
  rintro ⟨r, hr⟩
  have := congrArg List.length hr
  simp at this

/-- creating the missing folders on the way to `p` -/
theorem mkdirs_view {p : Path} : ∀ {fs : FS}, Way fs p →
    ∃ fs', mkdirs p.inits fs = .ok () fs' ∧
      ∀ q, (Below q p → Dict.get? fs' q = some .dir) ∧ (¬ Below q p → Dict.get? fs' q = Dict.get? fs q) := by
  have hsplit : ∀ (l l' : List Path) (fs fs1 : FS), mkdirs l fs = .ok () fs1 →
      mkdirs (l ++ l') fs = mkdirs l' fs1 := by
    intro l
    induction l with
    | nil => intro l' fs fs1 h; cases h; rfl
    | cons p l ih =>
      intro l' fs fs1 h
      rw [mkdirs, Act.bind_ok (get_ok fs)] at h
      rw [List.cons_append, mkdirs, Act.bind_ok (get_ok fs)]
      by_cases he : fs.pathExists p = true
      · rw [if_pos he] at h ⊢
        exact ih l' fs fs1 h
      · rw [if_neg he] at h ⊢
        obtain ⟨a, s, h1, h2⟩ := Act.bind_eq_ok.1 h
        exact (Act.bind_ok h1).trans (ih l' s fs1 h2)
  induction p using List.reverseRecOn with
  | nil =>
    intro fs hw
    refine ⟨fs, ?_, ?_⟩
    · show mkdirs [[]] fs = _
      rw [mkdirs, Act.bind_ok (get_ok fs), if_pos (pathExists_of hw.1)]
      rfl
    · intro q
      refine ⟨?_, fun _ => rfl⟩
      rintro ⟨r, hr⟩
      have : q = [] := (List.append_eq_nil_iff.1 hr.symm).1
      rw [this]; exact hw.1
  | append_singleton p x ih =>
    intro fs hw
    obtain ⟨fs1, h1, hv1⟩ := ih ⟨hw.1, fun q hq => hw.2 q (below_trans hq (below_append p [x]))⟩
    have hin : (p ++ [x]).inits = p.inits ++ [p ++ [x]] := by simp
    rw [hin, hsplit _ _ _ _ h1]
    have hpx : Dict.get? fs1 (p ++ [x]) = Dict.get? fs (p ++ [x]) := (hv1 _).2 (not_below_snoc p x)
    rcases hw.2 _ (below_refl _) with hd | hn
    · refine ⟨fs1, ?_, ?_⟩
      · rw [mkdirs, Act.bind_ok (get_ok fs1), if_pos (pathExists_of (hpx.trans hd))]
        rfl
      · intro q
        constructor
        · intro hq
          rcases below_snoc hq with rfl | hq
          · rw [hpx, hd]
          · exact (hv1 q).1 hq
        · intro hq
          exact (hv1 q).2 fun h => hq (below_trans h (below_append p [x]))
    · obtain ⟨fs2, h2, hv2⟩ := mkdir_view (fs := fs1) (p := p ++ [x]) (hpx.trans hn) (by simp)
        (by rw [List.dropLast_concat]; exact (hv1 p).1 (below_refl p))
      refine ⟨fs2, ?_, ?_⟩
      · rw [mkdirs, Act.bind_ok (get_ok fs1), if_neg (by simp [not_pathExists_of (hpx.trans hn)])]
        exact (Act.bind_ok h2).trans rfl
      · intro q
        rw [hv2]
        constructor
        · intro hq
          split
          · rfl
          · next hne =>
            rcases below_snoc hq with rfl | hq
            · exact absurd rfl hne
            · exact (hv1 q).1 hq
        · intro hq
          rw [if_neg (by rintro rfl; exact hq (below_refl _))]
          exact (hv1 q).2 fun h => hq (below_trans h (below_append p [x]))

theorem makedirs_view {p : Path} {fs : FS} (hw : Way fs p) (hn : Dict.get? fs p = none) :
    ∃ fs', makedirs p fs = .ok () fs' ∧
      ∀ q, (Below q p → Dict.get? fs' q = some .dir) ∧ (¬ Below q p → Dict.get? fs' q = Dict.get? fs q) := by
  obtain ⟨fs', h, hv⟩ := mkdirs_view hw
  refine ⟨fs', ?_, hv⟩
  rw [makedirs, Act.bind_ok (get_ok fs), if_neg (by simp [not_pathExists_of hn])]
  exact h

theorem ensureFolderExists_view {p : Path} {fs : FS} (hw : Way fs p)
    (hall : Dict.get? fs p = some .dir → ∀ q, Below q p → Dict.get? fs q = some .dir) :
    ∃ fs', ensureFolderExists p fs = .ok () fs' ∧
      ∀ q, (Below q p → Dict.get? fs' q = some .dir) ∧ (¬ Below q p → Dict.get? fs' q = Dict.get? fs q) := by
  rcases hw.2 p (below_refl p) with hd | hn
  · refine ⟨fs, ?_, fun q => ⟨hall hd q, fun _ => rfl⟩⟩
    rw [ensureFolderExists, Act.bind_ok (get_ok fs), if_pos (pathExists_of hd)]
    rfl
  · obtain ⟨fs', h, hv⟩ := makedirs_view hw hn
    refine ⟨fs', ?_, hv⟩
    rw [ensureFolderExists, Act.bind_ok (get_ok fs), if_neg (by simp [not_pathExists_of hn])]
    exact h

end FS
end Trumania
