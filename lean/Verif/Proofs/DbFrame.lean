import Verif.Proofs.DbLoad
import Verif.Proofs.Run

/-!
# Saving a circus only writes in its namespace
-/

namespace Trumania
open Spec

theorem Act.Keeps.getBind {W α : Type} {P : W → Prop} {k : W → Act W α}
    (h : ∀ w, P w → P ((k w).after w)) : Act.Keeps P (get >>= k) := fun w hw => h w hw

/-- out of `ns`, nothing but folders created on the way to `ns` -/
structure NamespaceOnly (ns : Path) (fs0 fs : FS) : Prop where
  wf : (fs.map Prod.fst).Nodup
  out : ∀ q, ¬ Below ns q → Dict.get? fs q = Dict.get? fs0 q ∨
    (Dict.get? fs0 q = none ∧ Dict.get? fs q = some .dir ∧ Below q ns)

namespace NamespaceOnly
open Act
variable {ns : Path} {fs0 fs : FS} {α : Type}

theorem set (h : NamespaceOnly ns fs0 fs) {p : Path} (n : Node) (hp : Below ns p) :
    NamespaceOnly ns fs0 (Dict.set fs p n) := by
  refine ⟨Dict.WF.set h.wf p n, fun q hq => ?_⟩
  rw [Dict.get?_set, if_neg (by rintro rfl; exact hq hp)]
  exact h.out q hq

theorem del (h : NamespaceOnly ns fs0 fs) {p : Path} (hp : Below ns p) :
    NamespaceOnly ns fs0 (Dict.del fs p) := by
  refine ⟨Dict.WF.del h.wf p, fun q hq => ?_⟩
  rw [Dict.get?_del h.wf, if_neg (by rintro rfl; exact hq hp)]
  exact h.out q hq

theorem mkdir {p : Path} (hp : Below ns p ∨ Below p ns) : Keeps (NamespaceOnly ns fs0) (FS.mkdir p) := by
  intro fs h
  rw [Act.after, FS.mkdir, Act.bind_ok (FS.get_ok fs)]
  by_cases hc : ¬ fs.pathExists p = true ∧ p ≠ [] ∧ fs.isDir p.dropLast = true
  · rw [if_pos hc, FS.set_ok]
    refine ⟨Dict.WF.set h.wf p .dir, fun q hq => ?_⟩
    rw [Dict.get?_set]
    by_cases e : p = q
    · subst e
      rw [if_pos rfl]
      have hn : Dict.get? fs p = none := by
        cases hg : Dict.get? fs p with
        | none => rfl
        | some n => exact absurd (FS.pathExists_of hg) hc.1
      rcases h.out p hq with h1 | ⟨-, h1, -⟩
      · exact .inr ⟨h1.symm.trans hn, rfl, hp.resolve_left hq⟩
      · rw [hn] at h1
        cases h1
    · rw [if_neg e]
      exact h.out q hq
  · rw [if_neg hc]
    exact h

theorem mkdirs {l : List Path} (hl : ∀ p ∈ l, Below ns p ∨ Below p ns) :
    Keeps (NamespaceOnly ns fs0) (FS.mkdirs l) := by
  induction l with
  | nil => exact Keeps.pure _
  | cons p l ih =>
    intro fs h
    rw [Act.after, FS.mkdirs, Act.bind_ok (FS.get_ok fs)]
    by_cases hc : fs.pathExists p = true
    · rw [if_pos hc]
      exact ih (fun q hq => hl q (List.mem_cons_of_mem _ hq)) fs h
    · rw [if_neg hc]
      exact (Keeps.bind (mkdir (hl p (by simp))) fun _ => ih fun q hq => hl q (List.mem_cons_of_mem _ hq)) fs h

theorem inits {p : Path} (hp : Below ns p) : ∀ q ∈ p.inits, Below ns q ∨ Below q ns := by
  intro q hq
  rw [List.mem_inits] at hq
  obtain ⟨r, rfl⟩ := hp
  rcases List.prefix_or_prefix_of_prefix hq (List.prefix_append ns r) with ⟨s, hs⟩ | ⟨s, hs⟩
  · exact .inr ⟨s, hs.symm⟩
  · exact .inl ⟨s, hs.symm⟩

theorem makedirs {p : Path} (hp : Below ns p) : Keeps (NamespaceOnly ns fs0) (FS.makedirs p) := by
  intro fs h
  rw [Act.after, FS.makedirs, Act.bind_ok (FS.get_ok fs)]
  by_cases hc : fs.pathExists p = true
  · rw [if_pos hc]
    exact h
  · rw [if_neg hc]
    exact mkdirs (inits hp) fs h

theorem ensureFolderExists {p : Path} (hp : Below ns p) :
    Keeps (NamespaceOnly ns fs0) (FS.ensureFolderExists p) := by
  intro fs h
  rw [Act.after, FS.ensureFolderExists, Act.bind_ok (FS.get_ok fs)]
  by_cases hc : fs.pathExists p = true
  · rw [if_pos hc]
    exact h
  · rw [if_neg hc]
    exact makedirs hp fs h

theorem writeFile {p : Path} (t : Text) (hp : Below ns p) :
    Keeps (NamespaceOnly ns fs0) (FS.writeFile p t) := by
  refine Keeps.getBind fun fs h => ?_
  split
  · exact h.set _ hp
  · exact h

theorem ensureNonExistingDir (so : SetOrder String) (fuel : Nat) {p : Path} (hp : Below ns p) :
    Keeps (NamespaceOnly ns fs0) (FS.ensureNonExistingDir so fuel p) := by
  induction fuel generalizing p with
  | zero => exact fun _ h => h
  | succ fuel ih =>
    refine Keeps.getBind fun fs h => ?_
    split
    · split
      · refine Keeps.getBind (P := NamespaceOnly ns fs0) (fun fs h => ?_) fs h
        split
        · exact h.del hp
        · exact h
      · refine (Keeps.bind (P := NamespaceOnly ns fs0) ?_ fun names => Keeps.bind
          (Keeps.forEach fun f => ih (FS.below_trans hp (FS.below_append p [f]))) fun _ => ?_) fs h
        · refine Keeps.getBind fun fs h => ?_
          split <;> exact h
        · refine Keeps.getBind fun fs h => ?_
          split
          · exact h.del hp
          · exact h
    · exact h

theorem ofPy (x : Py α) : Keeps (NamespaceOnly ns fs0) (Act.ofPy x) := by
  intro fs h
  cases x <;> exact h

theorem saveItems {folder : Path} (hp : Below ns folder) (items : List (String × Py Text)) :
    Keeps (NamespaceOnly ns fs0) (Population.saveItems folder items) := by
  rw [Population.saveItems]
  split
  · exact Keeps.pure _
  · exact Keeps.bind (mkdir (.inl hp)) fun _ => Keeps.forEach fun x =>
      Keeps.bind (ofPy _) fun t => writeFile t (FS.below_trans hp (FS.below_append _ _))

theorem saveTo {σ : Type} (F : TextFormat) (so : SetOrder String) (fuel : Nat) (env : Orders)
    (rels : List (Relationship σ)) {folder : Path} (hp : Below ns folder) (p : Population) :
    Keeps (NamespaceOnly ns fs0) (p.saveTo F so fuel env rels folder) := by
  have hb : ∀ s, Below ns (folder ++ [s]) := fun s => FS.below_trans hp (FS.below_append _ _)
  exact Keeps.bind (ensureNonExistingDir so fuel hp) fun _ => Keeps.bind (makedirs hp) fun _ =>
    Keeps.bind (writeFile _ (hb _)) fun _ => Keeps.bind (saveItems (hb _) _) fun _ => saveItems (hb _) _

variable {σ γ : Type} (D : DbFormat γ)

theorem saveAll (so : SetOrder String) (fuel : Nat) (env : Orders) (db : Path) (c : Circus σ γ) :
    Keeps (NamespaceOnly (Db.namespaceFolder db c.name) fs0) (Db.saveAll D so fuel env db c) := by
  have hb : ∀ r, Below (Db.namespaceFolder db c.name) (Db.namespaceFolder db c.name ++ r) :=
    fun r => FS.below_append _ _
  refine Keeps.bind (ensureFolderExists (FS.below_refl _)) fun _ => Keeps.bind (writeFile _ (hb _)) fun _ =>
    Keeps.bind (Keeps.forEach fun x => ?_) fun _ => Keeps.forEach fun x => ?_
  · split
    · refine saveTo D.text so fuel env _ ?_ _
      rw [Db.populationsFolder, List.append_assoc]
      exact hb _
    · exact fun _ h => h
  · split
    · refine Keeps.bind (ensureFolderExists ?_) fun _ => Keeps.bind (ofPy _) fun t => writeFile t ?_
      · rw [Db.generatorsFolder, List.append_assoc]
        exact hb _
      · rw [Db.generatorsFolder, List.append_assoc]
        exact hb _
    · exact fun _ h => h

theorem saveToDb (so : SetOrder String) (fuel : Nat) (env : Orders) (db : Path) (overwrite : Bool)
    (c : Circus σ γ) :
    Keeps (NamespaceOnly (Db.namespaceFolder db c.name) fs0) (Db.saveToDb D so fuel env db overwrite c) := by
  refine Keeps.getBind fun fs h => ?_
  split
  · split
    · exact (Keeps.bind (ensureNonExistingDir so fuel (FS.below_refl _)) fun _ => saveAll D so fuel env db c) fs h
    · exact h
  · exact saveAll D so fuel env db c fs h

end NamespaceOnly

namespace Db
variable {σ γ : Type} {D : DbFormat γ}

/-- all that is written by `save_to_db` when it is not refused -/
theorem saveToDb_spec (so : SetOrder String) {fuel : Nat} (hf : 0 < fuel) (env : Orders) (db : Path)
    (overwrite : Bool) (c : Circus σ γ) {l : List (String × (Path → Option Node))}
    {gl : List (String × String × Text)}
    (hl : PopViews D env c l c.populations) (hgl : GenTexts D c gl c.generators)
    (hn : (c.populations.map Prod.fst).Nodup) (hgn : (c.generators.map Prod.fst).Nodup) (fs : FS)
    (ht : Tree fs) (hc : Creatable fs db)
    (hd : ∀ r n, At fs (namespaceFolder db c.name ++ r) n → r.length < fuel)
    (ho : Absent fs (namespaceFolder db c.name) ∨ overwrite = true) :
    ∃ fs', saveToDb D so fuel env db overwrite c fs = .ok () fs' ∧
      (∀ r, Dict.get? fs' (namespaceFolder db c.name ++ r) =
        circusView (D.dumpConfig c.masterSeed c.start c.step) l gl r) := by
  have hw := FS.way_of_creatable ht hc
  -- the files after the namespace has been removed
  have key : ∀ fs1 : FS, (∀ q, ¬ Below (namespaceFolder db c.name) q → Dict.get? fs1 q = Dict.get? fs q) →
      (∀ r, Dict.get? fs1 (namespaceFolder db c.name ++ r) = none) →
      ∃ fs', saveAll D so fuel env db c fs1 = .ok () fs' ∧
      (∀ r, Dict.get? fs' (namespaceFolder db c.name ++ r) =
        circusView (D.dumpConfig c.masterSeed c.start c.step) l gl r) := by
    intro fs1 h1 h2
    have hnot : ∀ q, Below q db → ¬ Below (namespaceFolder db c.name) q := by
      intro q hq h
      exact FS.not_below_snoc db c.name (FS.below_trans h hq)
    obtain ⟨fs', h3, h4, -⟩ := saveAll_spec (D := D) so hf env db c hl hgl hn hgn fs1 (by
      refine ⟨?_, ?_⟩
      · rw [h1 [] (hnot [] ⟨db, rfl⟩)]
        exact hw.1
      · intro q hq
        rcases FS.below_snoc hq with rfl | hq
        · right
          have := h2 []
          rwa [List.append_nil] at this
        · rw [h1 q (hnot q hq)]
          exact hw.2 q hq) h2
    exact ⟨fs', h3, h4⟩
  rw [saveToDb, Act.bind_ok (FS.get_ok fs)]
  cases hg : Dict.get? fs (namespaceFolder db c.name) with
  | none =>
    rw [if_neg (by simp [FS.not_pathExists_of hg])]
    refine key fs (fun _ _ => rfl) fun r => ?_
    induction r using List.reverseRecOn with
    | nil => rw [List.append_nil]; exact hg
    | append_singleton r x ih =>
      rw [FS.get?_none_iff]
      intro n hn
      rw [← List.append_assoc] at hn
      exact FS.get?_none_iff.1 ih _ (ht.parent _ _ _ hn)
  | some n =>
    have ho' : overwrite = true := by
      rcases ho with ho | ho
      · exact absurd (Dict.get?_mem hg) (ho n)
      · exact ho
    rw [if_pos (FS.pathExists_of hg), if_pos ho', Act.bind_ok (FS.ensureNonExistingDir_eq so ht hd hf)]
    have ht' := FS.without_tree ht (namespaceFolder db c.name)
    refine key _ (fun q hq => ?_) fun r => ?_
    · apply Option.ext
      intro n
      rw [FS.get?_iff ht'.unique, FS.get?_iff ht.unique, FS.mem_without]
      exact ⟨fun h => h.1, fun h => ⟨h, hq⟩⟩
    · rw [FS.get?_none_iff]
      intro n hn
      exact (FS.mem_without.1 hn).2 (FS.below_append _ _)

end Db
end Trumania
