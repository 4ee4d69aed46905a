import Verif.Spec.Run
import Verif.Proofs.OpsDate

/-! Helper lemmas: runs and logs. -/

namespace Trumania
open Spec

namespace FS

theorem mem_set {fs : FS} (h : (fs.map Prod.fst).Nodup) {p q : Path} {n m : Node} :
    At (Dict.set fs p n) q m ↔ (q = p ∧ m = n) ∨ (q ≠ p ∧ At fs q m) := by
  have h' : (Dict.set fs p n).WF := Dict.WF.set (d := fs) h p n
  rw [At, ← Dict.get?_eq_some_iff h', Dict.get?_set]
  by_cases hq : p = q
  · subst hq
    simp [eq_comm]
  · rw [if_neg hq, Dict.get?_eq_some_iff (d := fs) h]
    simp [At, Ne.symm hq]

theorem at_unique {fs : FS} (h : (fs.map Prod.fst).Nodup) {p : Path} {n m : Node} (h1 : At fs p n)
    (h2 : At fs p m) : n = m := by
  rw [← get?_iff h] at h1 h2
  exact Option.some.inj (h1.symm.trans h2)

/-- adding something new, or replacing a file, in an existing directory -/
theorem set_tree {fs : FS} (h : Tree fs) {p : Path} {n : Node} (hp : At fs p.dropLast .dir)
    (hnd : n ≠ .dir → ¬ At fs p .dir) : Tree (Dict.set fs p n) := by
  constructor
  · exact Dict.WF.set (d := fs) h.unique p n
  · intro q name m hm
    rw [mem_set h.unique] at hm ⊢
    have hpar : At fs q .dir := by
      rcases hm with ⟨h1, -⟩ | ⟨-, h1⟩
      · rw [← h1, List.dropLast_concat] at hp
        exact hp
      · exact h.parent q name m h1
    by_cases hq : q = p
    · left
      refine ⟨hq, ?_⟩
      by_contra hn
      exact hnd (Ne.symm hn) (hq ▸ hpar)
    · exact .inr ⟨hq, hpar⟩

theorem throw_apply {W α : Type} (e : Err) (w : W) : (throw e : Act W α) w = .error e w := rfl

theorem mkdir_cases {fs : FS} (h : Tree fs) (p : Path) :
    (mkdir p fs = .error .environmentError fs) ∨
    (Absent fs p ∧ p ≠ [] ∧ At fs p.dropLast .dir ∧ mkdir p fs = .ok () (Dict.set fs p .dir)) := by
  rw [mkdir, Act.bind_ok (get_ok fs)]
  split
  · next hc =>
    right
    refine ⟨?_, hc.2.1, (isDir_iff h.unique).1 hc.2.2, rfl⟩
    intro n hn
    exact hc.1 ((pathExists_iff h.unique).2 ⟨n, hn⟩)
  · left
    rfl

/-- what `mkdirs` can do, whether it succeeds or not -/
theorem mkdirs_after {l : List Path} : ∀ {fs : FS}, Tree fs →
    Tree ((mkdirs l).after fs) ∧
    (∀ q n, At fs q n → At ((mkdirs l).after fs) q n) ∧
    (∀ q n, At ((mkdirs l).after fs) q n → At fs q n ∨ (n = .dir ∧ q ∈ l ∧ Absent fs q)) := by
  induction l with
  | nil => intro fs h; exact ⟨h, fun _ _ h => h, fun _ _ h => .inl h⟩
  | cons p l ih =>
    intro fs h
    have hex : ∀ b : Bool, fs.pathExists p = b → (mkdirs (p :: l)).after fs =
        ((if b then mkdirs l else (do mkdir p; mkdirs l)) : Act FS Unit).after fs := by
      intro b hb
      rw [Act.after, Act.after, mkdirs, Act.bind_ok (get_ok fs), hb]
    cases hb : fs.pathExists p with
    | true =>
      rw [hex true hb]
      simp only [if_true]
      obtain ⟨h1, h2, h3⟩ := ih h
      refine ⟨h1, h2, ?_⟩
      intro q n hq
      rcases h3 q n hq with h | ⟨h4, h5, h6⟩
      · exact .inl h
      · exact .inr ⟨h4, List.mem_cons_of_mem _ h5, h6⟩
    | false =>
      rw [hex false hb]
      simp only [Bool.false_eq_true, if_false]
      rcases mkdir_cases h p with he | ⟨ha, hne, hd, hok⟩
      · rw [Act.after, Act.bind_err he]
        exact ⟨h, fun _ _ h => h, fun _ _ h => .inl h⟩
      · have ht := set_tree h (n := .dir) hd (fun h => absurd rfl h)
        rw [Act.after, Act.bind_ok hok]
        obtain ⟨h1, h2, h3⟩ := ih ht
        refine ⟨h1, ?_, ?_⟩
        · intro q n hq
          apply h2
          rw [mem_set h.unique]
          refine .inr ⟨?_, hq⟩
          rintro rfl
          exact ha n hq
        · intro q n hq
          rcases h3 q n hq with h4 | ⟨h4, h5, h6⟩
          · rw [mem_set h.unique] at h4
            rcases h4 with ⟨rfl, rfl⟩ | ⟨-, h4⟩
            · exact .inr ⟨rfl, List.mem_cons_self, ha⟩
            · exact .inl h4
          · refine .inr ⟨h4, List.mem_cons_of_mem _ h5, ?_⟩
            intro m hm
            apply h6 m
            rw [mem_set h.unique]
            refine .inr ⟨?_, hm⟩
            rintro rfl
            exact ha m hm

/-- when `mkdirs` succeeds, all the paths exist -/
theorem mkdirs_exist {l : List Path} : ∀ {fs fs' : FS}, Tree fs → mkdirs l fs = .ok () fs' →
    ∀ q ∈ l, ∃ n, At fs' q n := by
  induction l with
  | nil => intro fs fs' _ _ q hq; cases hq
  | cons p l ih =>
    intro fs fs' h hrun q hq
    rw [mkdirs, Act.bind_ok (get_ok fs)] at hrun
    split at hrun
    · next he =>
      rcases List.mem_cons.1 hq with rfl | hq
      · obtain ⟨n, hn⟩ := (pathExists_iff h.unique).1 he
        have := (mkdirs_after (l := l) h).2.1 _ n hn
        rw [Act.after_ok hrun] at this
        exact ⟨n, this⟩
      · exact ih h hrun q hq
    · rcases mkdir_cases h p with he | ⟨ha, hne, hd, hok⟩
      · rw [Act.bind_err he] at hrun
        cases hrun
      · rw [Act.bind_ok hok] at hrun
        have ht := set_tree h (n := .dir) hd (fun h => absurd rfl h)
        rcases List.mem_cons.1 hq with rfl | hq
        · have := (mkdirs_after (l := l) ht).2.1 q .dir ((mem_set h.unique).2 (.inl ⟨rfl, rfl⟩))
          rw [Act.after_ok hrun] at this
          exact ⟨_, this⟩
        · exact ih ht hrun q hq

theorem makedirs_ok {p : Path} {fs fs' : FS} (h : Tree fs) (hrun : makedirs p fs = .ok () fs') :
    Absent fs p ∧ Tree fs' ∧ ∀ q n, At fs' q n ↔ At fs q n ∨ (n = .dir ∧ Below q p ∧ Absent fs q) := by
  rw [makedirs, Act.bind_ok (get_ok fs)] at hrun
  split at hrun
  · cases hrun
  · next he =>
    have hm := mkdirs_after (l := p.inits) h
    rw [Act.after_ok hrun] at hm
    obtain ⟨h1, h2, h3⟩ := hm
    refine ⟨fun n hn => he ((pathExists_iff h.unique).2 ⟨n, hn⟩), h1, ?_⟩
    intro q n
    constructor
    · intro hq
      rcases h3 q n hq with h4 | ⟨h4, h5, h6⟩
      · exact .inl h4
      · rw [List.mem_inits] at h5
        obtain ⟨r, hr⟩ := h5
        exact .inr ⟨h4, ⟨r, hr.symm⟩, h6⟩
    · rintro (h4 | ⟨rfl, ⟨r, hr⟩, h6⟩)
      · exact h2 q n h4
      · obtain ⟨m, hm⟩ := mkdirs_exist h hrun q (by rw [List.mem_inits]; exact ⟨r, hr.symm⟩)
        rcases h3 q m hm with h4 | ⟨rfl, -, -⟩
        · exact absurd h4 (h6 m)
        · exact hm

theorem writeFile_cases {fs : FS} (h : Tree fs) (p : Path) (t : Text) :
    (writeFile p t fs = .error .environmentError fs) ∨
    (¬ At fs p .dir ∧ p ≠ [] ∧ At fs p.dropLast .dir ∧
      writeFile p t fs = .ok () (Dict.set fs p (.file t))) := by
  rw [writeFile, Act.bind_ok (get_ok fs)]
  split
  · next hc =>
    right
    exact ⟨fun hd => hc.2.1 ((isDir_iff h.unique).2 hd), hc.1, (isDir_iff h.unique).1 hc.2.2, rfl⟩
  · left
    rfl

theorem appendFile_cases {fs : FS} (h : Tree fs) (p : Path) (t : Text) (he : ∃ n, At fs p n) :
    (appendFile p t fs = .error .environmentError fs) ∨
    (∃ t0, At fs p (.file t0) ∧ appendFile p t fs = .ok () (Dict.set fs p (.file (t0 ++ t)))) := by
  rw [appendFile, Act.bind_ok (get_ok fs)]
  obtain ⟨n, hn⟩ := he
  have hg := (get?_iff h.unique).2 hn
  rw [hg]
  cases n with
  | file t0 => exact .inr ⟨t0, hn, rfl⟩
  | dir =>
    left
    rcases writeFile_cases h p t with h1 | ⟨h1, -⟩
    · exact h1
    · exact absurd hn h1

theorem ensureFolderExists_ok {p : Path} {fs fs' : FS} (h : Tree fs)
    (hrun : ensureFolderExists p fs = .ok () fs') :
    Tree fs' ∧ ∀ q n, At fs' q n ↔ At fs q n ∨ (n = .dir ∧ Below q p ∧ Absent fs q) := by
  rw [ensureFolderExists, Act.bind_ok (get_ok fs)] at hrun
  split at hrun
  · next he =>
    obtain ⟨-, rfl⟩ := Act.pure_eq_ok.1 hrun
    refine ⟨h, fun q n => ⟨.inl, ?_⟩⟩
    rintro (h1 | ⟨rfl, ⟨r, hr⟩, ha⟩)
    · exact h1
    · obtain ⟨n, hn⟩ := (pathExists_iff h.unique).1 he
      by_cases hr0 : r = []
      · subst hr0
        rw [List.append_nil] at hr
        subst hr
        exact absurd hn (ha n)
      · subst hr
        exact tree_ancestor h hr0 hn
  · exact (makedirs_ok h hrun).2

end FS

namespace Sys

theorem csvOf_inj {folder : Path} {a b : String} (h : csvOf folder a = csvOf folder b) : a = b := by
  have h1 := List.append_cancel_left h
  have h2 : a ++ ".csv" = b ++ ".csv" := by simpa using h1
  have h3 := congrArg String.toList h2
  simp only [String.toList_append] at h3
  exact String.toList_injective (List.append_cancel_right h3)

theorem csvOf_not_below {folder : Path} {a : String} : ¬ Below (csvOf folder a) folder := by
  rintro ⟨r, hr⟩
  have := congrArg List.length hr
  simp [csvOf] at this

theorem tablesOf_append (id : String) (L M : Logs) :
    tablesOf id (L ++ M) = tablesOf id L ++ tablesOf id M := by
  simp [tablesOf]

theorem loggedRows_append (id : String) (L M : Logs) :
    loggedRows id (L ++ M) = loggedRows id L ++ loggedRows id M := by
  simp [loggedRows, tablesOf_append]

theorem loggedRows_single (id id' : String) (f : Frame) :
    loggedRows id [(id', f)] = if id' = id then f.rows else [] := by
  rw [loggedRows, tablesOf]
  by_cases h : id' = id <;> simp [h]

theorem headerOf_append_left (id : String) (L M : Logs) (h : loggedRows id L ≠ []) :
    headerOf id (L ++ M) = headerOf id L := by
  rw [headerOf, headerOf, tablesOf_append, List.find?_append]
  cases hf : (tablesOf id L).find? (fun f => !f.rows.isEmpty) with
  | some f => rfl
  | none =>
    exfalso
    apply h
    rw [loggedRows, List.flatMap_eq_nil_iff]
    intro f hm
    have := List.find?_eq_none.1 hf f hm
    simpa using this

theorem headerOf_append_right (id : String) (L M : Logs) (h : loggedRows id L = []) :
    headerOf id (L ++ M) = headerOf id M := by
  rw [headerOf, headerOf, tablesOf_append, List.find?_append]
  have : (tablesOf id L).find? (fun f => !f.rows.isEmpty) = none := by
    rw [List.find?_eq_none]
    intro f hm
    rw [loggedRows, List.flatMap_eq_nil_iff] at h
    simp [h f hm]
  rw [this, Option.none_or]

theorem headerOf_append_empty (id : String) (L M : Logs) (h : loggedRows id M = []) :
    headerOf id (L ++ M) = headerOf id L := by
  by_cases hL : loggedRows id L = []
  · rw [headerOf_append_right id L M hL]
    have hM : headerOf id ([] ++ M) = headerOf id M := rfl
    have h1 := headerOf_append_right id M [] h
    have h2 := headerOf_append_right id L [] hL
    rw [List.append_nil] at h1 h2
    rw [h1, h2]
  · exact headerOf_append_left id L M hL

theorem headerOf_single (id : String) (f : Frame) (h : f.rows ≠ []) :
    headerOf id [(id, f)] = f.cols := by
  have : f.rows.isEmpty = false := by simpa using h
  simp [headerOf, tablesOf, this]

theorem fullLog_append_empty (fmt : Cell → Text) (id : String) (L M : Logs) (h : loggedRows id M = []) :
    fullLog fmt id (L ++ M) = fullLog fmt id L := by
  rw [fullLog, fullLog, headerOf_append_empty id L M h, loggedRows_append, h, List.append_nil]

theorem fullLog_append (fmt : Cell → Text) (id : String) (L : Logs) (f : Frame)
    (h : loggedRows id L ≠ []) :
    fullLog fmt id (L ++ [(id, f)]) = fullLog fmt id L ++ logText fmt false f := by
  rw [fullLog, fullLog, headerOf_append_left id L _ h, loggedRows_append, loggedRows_single, if_pos rfl,
    logText, writeCsv, writeCsv, writeCsv]
  simp [cellTexts]

theorem fullLog_first (fmt : Cell → Text) (id : String) (L : Logs) (f : Frame)
    (h : loggedRows id L = []) (hf : f.rows ≠ []) :
    fullLog fmt id (L ++ [(id, f)]) = logText fmt true f := by
  rw [fullLog, headerOf_append_right id L _ h, headerOf_single id f hf, loggedRows_append, h, loggedRows_single,
    if_pos rfl, List.nil_append, logText, cellTexts]

/-- nothing is below a missing folder -/
theorem absent_below {fs : FS} (h : Tree fs) {folder q : Path} (ha : Absent fs folder)
    (hq : Below folder q) : Absent fs q := by
  obtain ⟨r, rfl⟩ := hq
  intro n hn
  by_cases hr : r = []
  · subst hr
    rw [List.append_nil] at hn
    exact ha n hn
  · exact ha _ (FS.tree_ancestor h hr hn)

variable {fmt : Cell → Text} {folder : Path} {fs0 : FS}

/-- `LogsWritten` once the folder exists -/
theorem written_folder {L : Logs} {fs fs1 : FS} (hw : LogsWritten fmt folder fs0 L fs)
    (hrun : FS.ensureFolderExists folder fs = .ok () fs1) :
    Tree fs1 ∧ ∀ q n, At fs1 q n ↔ At fs0 q n ∨ (n = .dir ∧ Below q folder ∧ Absent fs0 q) ∨
      ∃ id, q = csvOf folder id ∧ loggedRows id L ≠ [] ∧ n = .file (fullLog fmt id L) := by
  obtain ⟨ht, hc⟩ := FS.ensureFolderExists_ok hw.tree hrun
  refine ⟨ht, fun q n => ?_⟩
  rw [hc]
  constructor
  · rintro (h | ⟨rfl, h2, h3⟩)
    · rcases (hw.content q n).1 h with h | ⟨-, h2, h3, h4⟩ | h
      · exact .inl h
      · exact .inr (.inl ⟨h2, h3, h4⟩)
      · exact .inr (.inr h)
    · refine .inr (.inl ⟨rfl, h2, fun m hm => h3 m ((hw.content q m).2 (.inl hm))⟩)
  · rintro (h | ⟨rfl, h2, h3⟩ | h)
    · exact .inl ((hw.content q n).2 (.inl h))
    · by_cases he : ∃ m, At fs q m
      · obtain ⟨m, hm⟩ := he
        rcases (hw.content q m).1 hm with h | ⟨-, rfl, -, -⟩ | ⟨id, rfl, -⟩
        · exact absurd h (h3 m)
        · exact .inl hm
        · exact absurd h2 csvOf_not_below
      · exact .inr ⟨rfl, h2, fun m hm => he ⟨m, hm⟩⟩
    · exact .inl ((hw.content q n).2 (.inr (.inr h)))

theorem saveLogs_written {L : Logs} {fs fs' : FS} {id : String} {f : Frame} (h0 : Tree fs0)
    (ha : Absent fs0 folder) (hw : LogsWritten fmt folder fs0 L fs)
    (hrun : saveLogs fmt folder id f fs = .ok () fs') :
    LogsWritten fmt folder fs0 (L ++ [(id, f)]) fs' := by
  rw [saveLogs] at hrun
  obtain ⟨_, fs1, hr1, hr2⟩ := Act.bind_eq_ok.1 hrun
  obtain ⟨ht, hc⟩ := written_folder hw hr1
  have hne : L ++ [(id, f)] ≠ [] := by simp
  -- the case in which the file of `id` gets the new content
  have key : ∀ fs2, f.rows ≠ [] → fs2 = Dict.set fs1 (csvOf folder id)
      (.file (fullLog fmt id (L ++ [(id, f)]))) → Tree fs2 →
      LogsWritten fmt folder fs0 (L ++ [(id, f)]) fs2 := by
    rintro fs2 hf rfl ht2
    refine ⟨ht2, fun q n => ?_⟩
    rw [FS.mem_set ht.unique, hc]
    have hrows : loggedRows id (L ++ [(id, f)]) ≠ [] := by
      rw [loggedRows_append, loggedRows_single, if_pos rfl]
      simp [hf]
    have hother : ∀ id', id' ≠ id → loggedRows id' [(id, f)] = [] := by
      intro id' h
      rw [loggedRows_single, if_neg (Ne.symm h)]
    constructor
    · rintro (⟨rfl, rfl⟩ | ⟨hq, h | ⟨h1, h2, h3⟩ | ⟨id', rfl, h2, rfl⟩⟩)
      · exact .inr (.inr ⟨id, rfl, hrows, rfl⟩)
      · exact .inl h
      · exact .inr (.inl ⟨hne, h1, h2, h3⟩)
      · have hid : id' ≠ id := by rintro rfl; exact hq rfl
        refine .inr (.inr ⟨id', rfl, ?_, ?_⟩)
        · rw [loggedRows_append, hother id' hid, List.append_nil]
          exact h2
        · rw [fullLog_append_empty _ _ _ _ (hother id' hid)]
    · rintro (h | ⟨-, h1, h2, h3⟩ | ⟨id', rfl, h2, rfl⟩)
      · refine .inr ⟨?_, .inl h⟩
        rintro rfl
        exact absent_below h0 ha ⟨_, rfl⟩ n h
      · refine .inr ⟨?_, .inr (.inl ⟨h1, h2, h3⟩)⟩
        rintro rfl
        exact csvOf_not_below h2
      · by_cases hid : id' = id
        · subst hid
          exact .inl ⟨rfl, rfl⟩
        · refine .inr ⟨fun h => hid (csvOf_inj h), .inr (.inr ⟨id', rfl, ?_, ?_⟩)⟩
          · rwa [loggedRows_append, hother id' hid, List.append_nil] at h2
          · rw [fullLog_append_empty _ _ _ _ (hother id' hid)]
  rw [appendLogs] at hr2
  by_cases hf : f.rows = []
  · rw [if_neg (by simpa using hf)] at hr2
    obtain ⟨-, rfl⟩ := Act.pure_eq_ok.1 hr2
    refine ⟨ht, fun q n => ?_⟩
    rw [hc]
    have hemp : ∀ id', loggedRows id' [(id, f)] = [] := by
      intro id'
      rw [loggedRows_single, hf, ite_self]
    simp only [loggedRows_append, hemp, List.append_nil, fullLog_append_empty _ _ _ _ (hemp _)]
    simp
  · rw [if_pos hf, Act.bind_ok (FS.get_ok fs1)] at hr2
    by_cases he : fs1.pathExists (logFile folder id) = true
    · rw [if_neg (by simpa using he)] at hr2
      have hex := (FS.pathExists_iff ht.unique).1 he
      rcases FS.appendFile_cases ht _ (logText fmt false f) hex with h | ⟨t0, h1, h2⟩
      · rw [h] at hr2
        cases hr2
      · rw [h2] at hr2
        cases hr2
        have hold : loggedRows id L ≠ [] ∧ t0 = fullLog fmt id L := by
          rcases (hc _ _).1 h1 with h | ⟨h, -⟩ | ⟨id', h3, h4, h5⟩
          · exact absurd h (absent_below h0 ha ⟨_, rfl⟩ _)
          · cases h
          · obtain rfl := csvOf_inj h3
            exact ⟨h4, Node.file.inj h5⟩
        obtain ⟨ho, rfl⟩ := hold
        refine key _ hf ?_ ?_
        · rw [fullLog_append fmt id L f ho]
          rfl
        · refine FS.set_tree ht ?_ ?_
          · rw [logFile, List.dropLast_concat]
            exact ht.parent _ _ _ h1
          · intro _ hd
            exact absurd (FS.at_unique ht.unique hd h1) (by simp)
    · rw [if_pos he] at hr2
      rcases FS.writeFile_cases ht (logFile folder id) (logText fmt true f) with h | ⟨h1, -, h3, h4⟩
      · rw [h] at hr2
        cases hr2
      · rw [h4] at hr2
        cases hr2
        have hnone : loggedRows id L = [] := by
          by_contra hn
          apply he
          rw [FS.pathExists_iff ht.unique]
          exact ⟨_, (hc _ _).2 (.inr (.inr ⟨id, rfl, hn, rfl⟩))⟩
        refine key _ hf ?_ (FS.set_tree ht h3 fun _ => h1)
        rw [fullLog_first fmt id L f hnone hf]
        rfl

theorem saveAll_written {M : Logs} : ∀ {L : Logs} {fs fs' : FS}, Tree fs0 → Absent fs0 folder →
    LogsWritten fmt folder fs0 L fs → saveAll fmt folder M fs = .ok () fs' →
    LogsWritten fmt folder fs0 (L ++ M) fs' := by
  induction M with
  | nil =>
    intro L fs fs' _ _ hw hrun
    obtain ⟨-, rfl⟩ := Act.pure_eq_ok.1 hrun
    rwa [List.append_nil]
  | cons x M ih =>
    intro L fs fs' h0 ha hw hrun
    rw [saveAll, Act.forEach] at hrun
    obtain ⟨_, fs1, h1, h2⟩ := Act.bind_eq_ok.1 hrun
    have := ih h0 ha (saveLogs_written h0 ha hw h1) h2
    rwa [List.append_assoc] at this

theorem written_nil (h0 : Tree fs0) : LogsWritten fmt folder fs0 [] fs0 :=
  ⟨h0, fun q n => by simp [loggedRows, tablesOf]⟩

/-! ### Events of a run -/

section
variable {σ γ : Type} {env : Env σ γ} {chains : List (List (Op (World σ γ)))}

/-- the circus with another world -/
abbrev withWorld (c : Circus σ γ) (w : World σ γ) : Circus σ γ := { c with world := w }

theorem onWorld_eq_ok {α : Type} {a : Act (World σ γ) α} {s s' : Sys σ γ} {r : α} :
    onWorld a s = .ok r s' ↔
      ∃ w, a s.circus.world = .ok r w ∧ s' = ⟨withWorld s.circus w, s.fs⟩ := by
  rw [onWorld]
  cases h : a s.circus.world with
  | ok r' w =>
    constructor
    · intro h1
      cases h1
      exact ⟨w, rfl, rfl⟩
    · rintro ⟨w', h1, rfl⟩
      cases h1
      rfl
  | error e w =>
    constructor
    · intro h1
      cases h1
    · rintro ⟨w', h1, -⟩
      cases h1

theorem onFiles_eq_ok {α : Type} {a : Act FS α} {s s' : Sys σ γ} {r : α} :
    onFiles a s = .ok r s' ↔ ∃ fs, a s.fs = .ok r fs ∧ s' = ⟨s.circus, fs⟩ := by
  rw [onFiles]
  cases h : a s.fs with
  | ok r' w =>
    constructor
    · intro h1
      cases h1
      exact ⟨w, rfl, rfl⟩
    · rintro ⟨w', h1, rfl⟩
      cases h1
      rfl
  | error e w =>
    constructor
    · intro h1
      cases h1
    · rintro ⟨w', h1, -⟩
      cases h1

theorem played_append {w1 w2 w3 : World σ γ} {l m : List (Int × Event)}
    (h1 : Played env chains w1 l w2) (h2 : Played env chains w2 m w3) :
    Played env chains w1 (l ++ m) w3 := by
  induction h1 with
  | nil => exact h2
  | exec hi h _ ih => exact .exec hi h (ih h2)
  | tick _ ih => exact .tick (ih h2)

theorem saveAll_append {L M : Logs} : ∀ {fs fs1 fs2 : FS}, saveAll fmt folder L fs = .ok () fs1 →
    saveAll fmt folder M fs1 = .ok () fs2 → saveAll fmt folder (L ++ M) fs = .ok () fs2 := by
  induction L with
  | nil =>
    intro fs fs1 fs2 h1 h2
    obtain ⟨-, rfl⟩ := Act.pure_eq_ok.1 h1
    exact h2
  | cons x L ih =>
    intro fs fs1 fs2 h1 h2
    obtain ⟨_, fs3, h3, h4⟩ := Act.bind_eq_ok.1 h1
    exact Act.bind_eq_ok.2 ⟨_, fs3, h3, ih h4 h2⟩

theorem emitted_append (l m : List (Int × Event)) : emitted (l ++ m) = emitted l ++ emitted m :=
  List.flatMap_append

theorem keepsDate_fixes {op : Op (World σ γ)} (h : KeepsDate op) (d : Frame) :
    Act.Fixes World.date (op d) := fun w => Prod.ext (h d w).1 (h d w).2

/-- date and story of an event -/
def dated (e : Int × Event) : Int × Option Nat := (e.1, e.2.story)

theorem forEach_runStory_ok {l : List (List (Op (World σ γ)) × Nat)} :
    ∀ {s s' : Sys σ γ}, (∀ x ∈ l, chains[x.2]? = some x.1 ∧ ∀ op ∈ x.1, KeepsDate op) →
    Act.forEach (fun x : List (Op (World σ γ)) × Nat => runStory env fmt folder x.1 x.2) l s =
      .ok () s' →
    ∃ events w', Played env chains s.circus.world events w' ∧
      events.map dated = l.map (fun x => (s.circus.world.clock.current, some x.2)) ∧
      saveAll fmt folder (emitted events) s.fs = .ok () s'.fs ∧
      w'.date = s.circus.world.date ∧ s'.circus = withWorld s.circus w' := by
  induction l with
  | nil =>
    intro s s' _ hrun
    obtain ⟨-, rfl⟩ := Act.pure_eq_ok.1 hrun
    exact ⟨[], s.circus.world, .nil _, rfl, rfl, rfl, rfl⟩
  | cons x l ih =>
    intro s s' hl hrun
    obtain ⟨_, s1, h1, h2⟩ := Act.bind_eq_ok.1 hrun
    obtain ⟨logs, s2, h3, h4⟩ := Act.bind_eq_ok.1 h1
    obtain ⟨w, h5, rfl⟩ := onWorld_eq_ok.1 h3
    obtain ⟨fs, h6, rfl⟩ := onFiles_eq_ok.1 h4
    obtain ⟨events, w', e1, e2, e3, e4, e5⟩ := ih (fun y hy => hl y (List.mem_cons_of_mem _ hy)) h2
    have hx := hl x List.mem_cons_self
    have hd : w.date = s.circus.world.date := by
      have := execute_date (env := env) (fun op ho => keepsDate_fixes (hx.2 op ho)) x.2
        s.circus.world
      rwa [Act.after_ok h5] at this
    refine ⟨(s.circus.world.clock.current, .exec x.2 logs) :: events, w', .exec hx.1 h5 e1, ?_, ?_,
      e4.trans hd, e5⟩
    · rw [List.map_cons, e2, List.map_cons]
      have : w.clock.current = s.circus.world.clock.current := congrArg Prod.fst hd
      simp only [this]
      rfl
    · exact saveAll_append h6 e3

theorem schedule_succ (start step : Int) (n m : Nat) :
    schedule start step (n + 1) m =
      ((List.range m).map fun i => (start, some i)) ++ [(start, none)] ++
        schedule (start + step) step n m := by
  rw [schedule, List.range_succ_eq_map, List.flatMap_cons, List.flatMap_map, schedule]
  have : ∀ k : Nat, start + ((k + 1 : Nat) : Int) * step = start + step + (k : Int) * step := by
    intro k
    push_cast
    rw [Int.add_mul, Int.one_mul]
    omega
  simp only [Nat.succ_eq_add_one, this]
  simp

theorem runSteps_ok (hk : ∀ ops ∈ chains, ∀ op ∈ ops, KeepsDate op) : ∀ {n : Nat} {s s' : Sys σ γ},
    runSteps env fmt folder chains n s = .ok () s' →
    ∃ events w', Played env chains s.circus.world events w' ∧
      events.map dated = schedule s.circus.world.clock.current s.circus.world.clock.step n
        chains.length ∧
      saveAll fmt folder (emitted events) s.fs = .ok () s'.fs ∧
      w'.clock.current = s.circus.world.clock.current + n * s.circus.world.clock.step ∧
      w'.clock.step = s.circus.world.clock.step ∧ s'.circus = withWorld s.circus w' := by
  intro n
  induction n with
  | zero =>
    intro s s' hrun
    obtain ⟨-, rfl⟩ := Act.pure_eq_ok.1 hrun
    exact ⟨[], s.circus.world, .nil _, rfl, rfl, by simp, rfl, rfl⟩
  | succ n ih =>
    intro s s' hrun
    rw [runSteps] at hrun
    obtain ⟨_, s1, h1, h2⟩ := Act.bind_eq_ok.1 hrun
    obtain ⟨_, s2, h3, h4⟩ := Act.bind_eq_ok.1 h2
    obtain ⟨w2, h5, rfl⟩ := onWorld_eq_ok.1 h3
    have hw2 : w2 = nextStep env s1.circus.world := by
      cases h5
      rfl
    obtain ⟨ev1, w1, p1, p2, p3, p4, p5⟩ := forEach_runStory_ok (chains := chains) (fun x hx => by
      have := List.mem_zipIdx' hx
      refine ⟨List.getElem?_eq_some_iff.2 ⟨this.1, this.2.symm⟩, hk _ ?_⟩
      rw [this.2]
      exact List.getElem_mem _) h1
    obtain ⟨ev2, w', q1, q2, q3, q4, q5, q6⟩ := ih h4
    rw [p5] at hw2
    have hc : w1.clock.current = s.circus.world.clock.current := congrArg Prod.fst p4
    have hst : w1.clock.step = s.circus.world.clock.step := congrArg Prod.snd p4
    simp only at q1 q2 q4 q5 q6
    rw [hw2] at q1 q2 q4 q5
    simp only [nextStep, hc, hst] at q2 q4 q5
    refine ⟨ev1 ++ (w1.clock.current, .tick) :: ev2, w', played_append p1 (.tick q1), ?_, ?_, ?_, q5,
      ?_⟩
    · rw [List.map_append, List.map_cons, p2, q2, schedule_succ]
      have : (chains.zipIdx.map fun x => (s.circus.world.clock.current, some x.2)) =
          (List.range chains.length).map fun i => (s.circus.world.clock.current, some i) := by
        rw [List.range_eq_range', ← List.zipIdx_map_snd 0 chains, List.map_map]
        rfl
      rw [this, dated, hc]
      simp [Event.story]
    · rw [emitted_append]
      exact saveAll_append p3 q3
    · rw [q4]
      push_cast
      rw [Int.add_mul, Int.one_mul]
      omega
    · rw [q6, p5]

/-! ### Paths outside of the folder of the logs -/

/-- what a run may do out of its folder: nothing but creating the directories above it -/
structure OutsideKept (folder : Path) (fs0 fs : FS) : Prop where
  tree : Tree fs
  kept : ∀ q n, ¬ Below folder q → At fs0 q n → At fs q n
  new : ∀ q n, ¬ Below folder q → At fs q n → At fs0 q n ∨ (n = .dir ∧ Below q folder ∧ Absent fs0 q)

theorem OutsideKept.set {fs0 fs : FS} (h : OutsideKept folder fs0 fs) {p : Path} {n : Node}
    (hp : Below folder p) (ht : Tree (Dict.set fs p n)) : OutsideKept folder fs0 (Dict.set fs p n) := by
  refine ⟨ht, ?_, ?_⟩
  · intro q m hq hm
    rw [FS.mem_set h.tree.unique]
    refine .inr ⟨?_, h.kept q m hq hm⟩
    rintro rfl
    exact hq hp
  · intro q m hq hm
    rw [FS.mem_set h.tree.unique] at hm
    rcases hm with ⟨rfl, -⟩ | ⟨-, hm⟩
    · exact absurd hp hq
    · exact h.new q m hq hm

theorem ensureFolderExists_outside {fs : FS} (h : OutsideKept folder fs0 fs) :
    OutsideKept folder fs0 ((FS.ensureFolderExists folder).after fs) := by
  by_cases he : fs.pathExists folder = true
  · have : FS.ensureFolderExists folder fs = .ok () fs := by
      rw [FS.ensureFolderExists, Act.bind_ok (FS.get_ok fs), if_pos he]
      rfl
    rw [Act.after_ok this]
    exact h
  · have : (FS.ensureFolderExists folder).after fs = (FS.mkdirs folder.inits).after fs := by
      rw [Act.after, Act.after, FS.ensureFolderExists, Act.bind_ok (FS.get_ok fs), if_neg he,
        FS.makedirs, Act.bind_ok (FS.get_ok fs), if_neg he]
    rw [this]
    obtain ⟨h1, h2, h3⟩ := FS.mkdirs_after (l := folder.inits) h.tree
    refine ⟨h1, fun q n hq hn => h2 q n (h.kept q n hq hn), ?_⟩
    intro q n hq hn
    rcases h3 q n hn with h4 | ⟨rfl, h5, h6⟩
    · exact h.new q n hq h4
    · rw [List.mem_inits] at h5
      obtain ⟨r, hr⟩ := h5
      exact .inr ⟨rfl, ⟨r, hr.symm⟩, fun m hm => h6 m (h.kept q m hq hm)⟩

theorem appendLogs_outside {fs : FS} {id : String} {f : Frame} (h : OutsideKept folder fs0 fs) :
    OutsideKept folder fs0 ((appendLogs fmt folder id f).after fs) := by
  have hb : Below folder (logFile folder id) := ⟨_, rfl⟩
  rw [appendLogs]
  split
  · by_cases he : fs.pathExists (logFile folder id) = true
    · have hx := (FS.pathExists_iff h.tree.unique).1 he
      rw [Act.after, Act.bind_ok (FS.get_ok fs), if_neg (by simpa using he)]
      rcases FS.appendFile_cases h.tree (logFile folder id) (logText fmt false f) hx with
        h1 | ⟨t0, h1, h2⟩
      · rw [h1]
        exact h
      · rw [h2]
        refine h.set hb (FS.set_tree h.tree ?_ ?_)
        · rw [logFile, List.dropLast_concat]
          exact h.tree.parent _ _ _ h1
        · intro _ hd
          exact absurd (FS.at_unique h.tree.unique hd h1) (by simp)
    · rw [Act.after, Act.bind_ok (FS.get_ok fs), if_pos he]
      rcases FS.writeFile_cases h.tree (logFile folder id) (logText fmt true f) with
        h1 | ⟨h1, -, h3, h4⟩
      · rw [h1]
        exact h
      · rw [h4]
        exact h.set hb (FS.set_tree h.tree h3 fun _ => h1)
  · exact h

end

end Sys

/-! ### Invariants that hold whatever the outcome -/

/-- `x` preserves `P`, even when it raises -/
def Act.Keeps {W α : Type} (P : W → Prop) (x : Act W α) : Prop := ∀ w, P w → P (x.after w)

namespace Act
variable {W α β : Type} {P : W → Prop}

theorem Keeps.bind {x : Act W α} {k : α → Act W β} (hx : Keeps P x) (hk : ∀ a, Keeps P (k a)) :
    Keeps P (x >>= k) := by
  intro w hw
  have h1 := hx w hw
  cases h : x w with
  | ok a w' =>
    rw [after_ok h] at h1
    rw [after, bind_ok h]
    exact hk a w' h1
  | error e w' =>
    rw [after_error h] at h1
    rw [after, bind_err h]
    exact h1

theorem Keeps.pure (a : α) : Keeps P (pure a : Act W α) := fun _ h => h

theorem Keeps.forEach {f : α → Act W Unit} {l : List α} (h : ∀ a, Keeps P (f a)) :
    Keeps P (Act.forEach f l) := by
  induction l with
  | nil => exact Keeps.pure _
  | cons a l ih => exact (h a).bind fun _ => ih

end Act

namespace Sys
open Act
variable {σ γ : Type} {env : Env σ γ} {chains : List (List (Op (World σ γ)))}
  {fmt : Cell → Text} {folder : Path} {fs0 : FS}

theorem saveAll_outside (logs : Logs) :
    Keeps (OutsideKept folder fs0) (saveAll fmt folder logs) :=
  Keeps.forEach fun _ => Keeps.bind (fun _ h => ensureFolderExists_outside h)
    fun _ _ h => appendLogs_outside h

theorem onWorld_keeps {α : Type} {P : FS → Prop} (a : Act (World σ γ) α) :
    Keeps (fun s : Sys σ γ => P s.fs) (onWorld a) := by
  intro s hs
  rw [Act.after, onWorld]
  cases a s.circus.world <;> exact hs

theorem onFiles_keeps {α : Type} {P : FS → Prop} {a : Act FS α} (h : Keeps P a) :
    Keeps (fun s : Sys σ γ => P s.fs) (onFiles a) := by
  intro s hs
  have := h s.fs hs
  rw [Act.after] at this
  rw [Act.after, onFiles]
  cases hc : a s.fs <;> rw [hc] at this <;> exact this

theorem runSteps_outside (n : Nat) :
    Keeps (fun s : Sys σ γ => OutsideKept folder fs0 s.fs) (runSteps env fmt folder chains n) := by
  induction n with
  | zero => exact Keeps.pure _
  | succ n ih =>
    refine Keeps.bind (Keeps.forEach fun x => ?_) fun _ => Keeps.bind (onWorld_keeps _) fun _ => ih
    exact (onWorld_keeps _).bind fun logs => onFiles_keeps (saveAll_outside logs)

/-! ### Runs -/

theorem run_refused (so : SetOrder String) (fuel : Nat) (duration : Int) (s : Sys σ γ)
    (h : s.fs.pathExists folder = true) :
    run env fmt folder so fuel chains duration false s =
      .error (match s.circus.world.clock.nIterations duration with
        | .ok _ => .environmentError
        | .error e => e) s := by
  rw [run, Act.bind_ok (FS.get_ok s)]
  cases hn : s.circus.world.clock.nIterations duration with
  | error e => rw [Act.bind_err (Act.ofPy_error rfl s)]
  | ok n =>
    rw [Act.bind_ok (Act.ofPy_ok rfl s), if_pos h]
    rfl

/-- a run is its steps, after the deletion of the folder -/
theorem run_eq {so : SetOrder String} {fuel : Nat} {duration : Int} {delete : Bool} {s : Sys σ γ}
    {n : Int} (hn : s.circus.world.clock.nIterations duration = .ok n) (ht : Tree s.fs)
    (hf : ∀ r m, At s.fs (folder ++ r) m → r.length < fuel) (hf0 : 0 < fuel)
    (hd : delete = true ∨ Absent s.fs folder) :
    run env fmt folder so fuel chains duration delete s =
      runSteps env fmt folder chains n.toNat ⟨s.circus, FS.without s.fs folder⟩ := by
  rw [run, Act.bind_ok (FS.get_ok s), Act.bind_ok (Act.ofPy_ok hn s)]
  by_cases he : s.fs.pathExists folder = true
  · have hd : delete = true := by
      rcases hd with hd | hd
      · exact hd
      · obtain ⟨m, hm⟩ := (FS.pathExists_iff ht.unique).1 he
        exact absurd hm (hd m)
    rw [if_pos he, if_pos hd]
    exact Act.bind_ok (onFiles_eq_ok.2 ⟨_, FS.ensureNonExistingDir_eq so ht hf hf0, rfl⟩)
  · rw [if_neg he]
    have : FS.without s.fs folder = s.fs := by
      rw [FS.without, List.filter_eq_self]
      rintro ⟨q, m⟩ hq
      rw [Bool.not_eq_true', Bool.eq_false_iff, ne_eq, List.isPrefixOf_iff_prefix]
      rintro ⟨r, hr⟩
      refine absent_below ht (fun m hm => ?_) ⟨r, hr.symm⟩ m hq
      exact he ((FS.pathExists_iff ht.unique).2 ⟨m, hm⟩)
    rw [this]

theorem run_ok_iterations {so : SetOrder String} {fuel : Nat} {duration : Int} {delete : Bool}
    {s s' : Sys σ γ} (h : run env fmt folder so fuel chains duration delete s = .ok () s') :
    ∃ n, s.circus.world.clock.nIterations duration = .ok n := by
  rw [run, Act.bind_ok (FS.get_ok s)] at h
  obtain ⟨n, s1, h1, -⟩ := Act.bind_eq_ok.1 h
  exact ⟨n, (Act.ofPy_eq_ok.1 h1).1⟩

theorem run_ok_allowed {so : SetOrder String} {fuel : Nat} {duration : Int} {delete : Bool}
    {s s' : Sys σ γ} (ht : Tree s.fs)
    (h : run env fmt folder so fuel chains duration delete s = .ok () s') :
    delete = true ∨ Absent s.fs folder := by
  cases delete with
  | true => exact .inl rfl
  | false =>
    right
    intro m hm
    rw [run_refused so fuel duration s ((FS.pathExists_iff ht.unique).2 ⟨m, hm⟩)] at h
    cases h

end Sys

end Trumania
