import Verif.Proofs.Hash
import Verif.Proofs.Run

/-! The order of sets does not reach the log files. -/

namespace Trumania
open Spec
variable {σ γ : Type}

/-! ### Tables of the logs -/

theorem tablesOf_get {l : Logs} (h : (l.map Prod.fst).Nodup) (id : String) :
    tablesOf id l = (Dict.get? l id).toList := by
  induction l with
  | nil => rfl
  | cons x l ih =>
    obtain ⟨k, f⟩ := x
    rw [List.map_cons, List.nodup_cons] at h
    rw [tablesOf, List.filter_cons, Dict.get?_cons]
    by_cases hk : k = id
    · subst hk
      have hnil : tablesOf k l = [] := by
        rw [ih h.2, Dict.get?_eq_none_iff.2 h.1]
        rfl
      rw [tablesOf, List.map_eq_nil_iff] at hnil
      simp [hnil]
    · simp only [hk, decide_false, Bool.false_eq_true, if_false]
      exact ih h.2

theorem sameLogs_tables {l1 l2 : Logs} (h : SameLogs l1 l2) (id : String) :
    tablesOf id l1 = tablesOf id l2 := by
  rw [tablesOf_get h.distinct1, tablesOf_get h.distinct2, sameLogs_get h]

theorem sameLogs_nil_iff {l1 l2 : Logs} (h : SameLogs l1 l2) : l1 = [] ↔ l2 = [] := by
  simp only [List.eq_nil_iff_forall_not_mem, h.mem]

namespace Sys
variable {fmt : Cell → Text} {folder : Path} {fs0 : FS}

/-! ### Writing cannot fail once the folder is there -/

theorem appendLogs_total {L : Logs} {fs fs1 : FS} (h0 : Tree fs0) (ha : Absent fs0 folder)
    (hw : LogsWritten fmt folder fs0 L fs) (hens : FS.ensureFolderExists folder fs = .ok () fs1)
    (id : String) (f : Frame) : ∃ fs', appendLogs fmt folder id f fs1 = .ok () fs' := by
  obtain ⟨ht, hc⟩ := written_folder hw hens
  have hdir : At fs1 folder .dir := (hc _ _).2 (.inr (.inl ⟨rfl, ⟨[], by simp⟩, ha⟩))
  have hnd : ¬ At fs1 (logFile folder id) .dir := by
    intro h
    rcases (hc _ _).1 h with h | ⟨-, h, -⟩ | ⟨id', -, -, h⟩
    · exact absent_below h0 ha ⟨_, rfl⟩ _ h
    · exact csvOf_not_below h
    · cases h
  rw [appendLogs]
  split
  · rw [Act.bind_ok (FS.get_ok fs1)]
    split
    · rw [FS.writeFile, Act.bind_ok (FS.get_ok fs1), if_pos]
      · exact ⟨_, rfl⟩
      · refine ⟨by simp [logFile], fun h => hnd ((FS.isDir_iff ht.unique).1 h), ?_⟩
        rw [FS.isDir_iff ht.unique, logFile, List.dropLast_concat]
        exact hdir
    · rename_i he
      rw [not_not] at he
      obtain ⟨n, hn⟩ := (FS.pathExists_iff ht.unique).1 he
      cases n with
      | dir => exact absurd hn hnd
      | file t0 =>
        rw [FS.appendFile, Act.bind_ok (FS.get_ok fs1), (FS.get?_iff ht.unique).2 hn]
        exact ⟨_, rfl⟩
  · exact ⟨_, rfl⟩

theorem ensure_total {L : Logs} {fs : FS} (ha : Absent fs0 folder)
    (hw : LogsWritten fmt folder fs0 L fs) (hL : L ≠ []) :
    FS.ensureFolderExists folder fs = .ok () fs := by
  have hdir : At fs folder .dir := (hw.content _ _).2 (.inr (.inl ⟨hL, rfl, ⟨[], by simp⟩, ha⟩))
  rw [FS.ensureFolderExists, Act.bind_ok (FS.get_ok fs),
    if_pos ((FS.pathExists_iff hw.tree.unique).2 ⟨_, hdir⟩)]
  rfl

theorem saveAll_total {M : Logs} : ∀ {L : Logs} {fs : FS}, Tree fs0 → Absent fs0 folder →
    LogsWritten fmt folder fs0 L fs → L ≠ [] →
    ∃ fs', saveAll fmt folder M fs = .ok () fs' ∧ LogsWritten fmt folder fs0 (L ++ M) fs' := by
  intro L fs h0 ha hw hL
  have key : ∃ fs', saveAll fmt folder M fs = .ok () fs' := by
    induction M generalizing L fs with
    | nil => exact ⟨fs, rfl⟩
    | cons x M ih =>
      have hens := ensure_total ha hw hL
      obtain ⟨fs1, h1⟩ := appendLogs_total h0 ha hw hens x.1 x.2
      have hx : saveLogs fmt folder x.1 x.2 fs = .ok () fs1 := by
        rw [saveLogs, Act.bind_ok hens, h1]
      obtain ⟨fs', h2⟩ := ih (saveLogs_written h0 ha hw hx) (by simp)
      exact ⟨fs', by rw [saveAll, Act.forEach, Act.bind_ok hx]; exact h2⟩
  obtain ⟨fs', h⟩ := key
  exact ⟨fs', h, saveAll_written h0 ha hw h⟩

theorem saveAll_first {M : Logs} (h0 : Tree fs0) (ha : Absent fs0 folder) (hM : M ≠ []) :
    (∃ fs1 fs', FS.ensureFolderExists folder fs0 = .ok () fs1 ∧
      saveAll fmt folder M fs0 = .ok () fs' ∧ LogsWritten fmt folder fs0 M fs') ∨
    (∃ e fs', FS.ensureFolderExists folder fs0 = .error e fs' ∧
      saveAll fmt folder M fs0 = .error e fs') := by
  cases M with
  | nil => exact absurd rfl hM
  | cons x M =>
    cases hens : FS.ensureFolderExists folder fs0 with
    | error e fs' =>
      right
      refine ⟨e, fs', rfl, ?_⟩
      rw [saveAll, Act.forEach]
      exact Act.bind_err (by rw [saveLogs, Act.bind_err hens])
    | ok u fs1 =>
      left
      obtain ⟨fs2, h1⟩ := appendLogs_total h0 ha (written_nil h0) hens x.1 x.2
      have hx : saveLogs fmt folder x.1 x.2 fs0 = .ok () fs2 := by
        rw [saveLogs, Act.bind_ok hens, h1]
      have hw := saveLogs_written h0 ha (written_nil h0) hx
      obtain ⟨fs', h2, h3⟩ := saveAll_total (M := M) h0 ha hw (by simp)
      refine ⟨fs1, fs', rfl, ?_, h3⟩
      rw [saveAll, Act.forEach, Act.bind_ok hx]
      exact h2

/-! ### Two runs -/

/-- the same logs written so far in both runs -/
inductive SameWritten (fmt : Cell → Text) (folder : Path) (fs0 : FS) : FS → FS → Prop
  | start : SameWritten fmt folder fs0 fs0 fs0
  | logs {L1 L2 : Logs} {fs1 fs2 : FS} (h1 : L1 ≠ []) (h2 : L2 ≠ [])
      (hw1 : LogsWritten fmt folder fs0 L1 fs1) (hw2 : LogsWritten fmt folder fs0 L2 fs2)
      (ht : ∀ id, tablesOf id L1 = tablesOf id L2) : SameWritten fmt folder fs0 fs1 fs2

theorem fullLog_congr {L1 L2 : Logs} {id : String} (h : tablesOf id L1 = tablesOf id L2) :
    fullLog fmt id L1 = fullLog fmt id L2 := by
  rw [fullLog, fullLog, headerOf, headerOf, loggedRows, loggedRows, h]

theorem SameWritten.files {fs1 fs2 : FS} (h : SameWritten fmt folder fs0 fs1 fs2) :
    SameFiles fs1 fs2 := by
  cases h with
  | start => exact fun _ _ => Iff.rfl
  | logs h1 h2 hw1 hw2 ht =>
    intro q n
    rw [hw1.content, hw2.content]
    simp only [h1, h2, ne_eq, not_false_eq_true, true_and, fullLog_congr (ht _), loggedRows, ht]

theorem saveAll_same {M1 M2 : Logs} {fs1 fs2 : FS} (h0 : Tree fs0) (ha : Absent fs0 folder)
    (hf : SameWritten fmt folder fs0 fs1 fs2) (hM : SameLogs M1 M2) :
    match saveAll fmt folder M1 fs1, saveAll fmt folder M2 fs2 with
    | .ok _ fs1', .ok _ fs2' => SameWritten fmt folder fs0 fs1' fs2'
    | .error e fs1', .error e' fs2' => e = e' ∧ SameFiles fs1' fs2'
    | _, _ => False := by
  cases hf with
  | start =>
    by_cases h1 : M1 = []
    · have h2 := (sameLogs_nil_iff hM).1 h1
      subst h1; subst h2
      exact SameWritten.start
    · have h2 := fun h => h1 ((sameLogs_nil_iff hM).2 h)
      rcases saveAll_first (fmt := fmt) h0 ha h1 with ⟨a, fs1, e1, e2, e3⟩ | ⟨e, fs1, e1, e2⟩ <;>
        rcases saveAll_first (fmt := fmt) h0 ha h2 with ⟨b, fs2, g1, g2, g3⟩ | ⟨e', fs2, g1, g2⟩
      · rw [e2, g2]
        exact .logs h1 h2 e3 g3 (sameLogs_tables hM)
      · rw [e1] at g1; cases g1
      · rw [e1] at g1; cases g1
      · rw [e1] at g1; cases g1
        rw [e2, g2]
        exact ⟨rfl, fun _ _ => Iff.rfl⟩
  | logs h1 h2 hw1 hw2 ht =>
    obtain ⟨fs1', e1, e2⟩ := saveAll_total (M := M1) h0 ha hw1 h1
    obtain ⟨fs2', g1, g2⟩ := saveAll_total (M := M2) h0 ha hw2 h2
    rw [e1, g1]
    refine .logs (by simp [h1]) (by simp [h2]) e2 g2 fun id => ?_
    rw [tablesOf_append, tablesOf_append, ht, sameLogs_tables hM]

/-- related states of two runs -/
structure Twin (fmt : Cell → Text) (folder : Path) (fs0 : FS) (s1 s2 : Sys σ γ) : Prop where
  circus : withWorld s1.circus s2.circus.world = s2.circus
  world : SameWorld s1.circus.world s2.circus.world
  files : SameWritten fmt folder fs0 s1.fs s2.fs

/-- both end in twin states, or with the same exception and the same files -/
def TwinRun (fmt : Cell → Text) (folder : Path) (fs0 : FS) (x y : Act (Sys σ γ) Unit) : Prop :=
  ∀ s1 s2, Twin fmt folder fs0 s1 s2 →
    match x s1, y s2 with
    | .ok _ t1, .ok _ t2 => Twin fmt folder fs0 t1 t2
    | .error e t1, .error e' t2 => e = e' ∧ withWorld t1.circus t2.circus.world = t2.circus ∧
        SameWorld t1.circus.world t2.circus.world ∧ SameFiles t1.fs t2.fs
    | _, _ => False

theorem TwinRun.bind {x1 x2 y1 y2 : Act (Sys σ γ) Unit} (hx : TwinRun fmt folder fs0 x1 x2)
    (hy : TwinRun fmt folder fs0 y1 y2) :
    TwinRun fmt folder fs0 (x1 >>= fun _ => y1) (x2 >>= fun _ => y2) := by
  intro s1 s2 hs
  have h := hx s1 s2 hs
  simp only [Bind.bind, EStateM.bind]
  cases hx1 : x1 s1 with
  | ok a v1 =>
    cases hy1 : x2 s2 with
    | ok b v2 =>
      rw [hx1, hy1] at h
      exact hy v1 v2 h
    | error e v2 => rw [hx1, hy1] at h; exact h.elim
  | error e v1 =>
    cases hy1 : x2 s2 with
    | ok b v2 => rw [hx1, hy1] at h; exact h.elim
    | error e v2 => rw [hx1, hy1] at h; exact h

theorem twin_pure : TwinRun fmt folder fs0 (pure () : Act (Sys σ γ) Unit) (pure ()) :=
  fun _ _ h => h

theorem withWorld_circus {c1 c2 : Circus σ γ} (h : withWorld c1 c2.world = c2) (w1 w2 : World σ γ) :
    withWorld (withWorld c1 w1) w2 = withWorld c2 w2 := by
  rw [← h]

variable {env1 env2 : Env σ γ}

theorem twin_runStory (he : SameButSets env1 env2) (h0 : Tree fs0) (ha : Absent fs0 folder)
    {ops : List (Env σ γ → Op (World σ γ))} (h : ∀ op ∈ ops, Written op) (i : Nat) :
    TwinRun fmt folder fs0 (runStory env1 fmt folder (ops.map (· env1)) i)
      (runStory env2 fmt folder (ops.map (· env2)) i) := by
  intro s1 s2 hs
  have hx := World.same_execute he h i s1.circus.world s2.circus.world hs.world
  simp only [runStory, Bind.bind, EStateM.bind, onWorld]
  cases hx1 : World.execute env1 (ops.map (· env1)) i s1.circus.world with
  | error e v1 =>
    cases hy1 : World.execute env2 (ops.map (· env2)) i s2.circus.world with
    | ok b v2 => rw [hx1, hy1] at hx; exact hx.elim
    | error e v2 =>
      rw [hx1, hy1] at hx
      exact ⟨hx.1, withWorld_circus hs.circus _ _, hx.2, hs.files.files⟩
  | ok a v1 =>
    cases hy1 : World.execute env2 (ops.map (· env2)) i s2.circus.world with
    | error e v2 => rw [hx1, hy1] at hx; exact hx.elim
    | ok b v2 =>
      rw [hx1, hy1] at hx
      have hf := saveAll_same h0 ha hs.files hx.1
      simp only [onFiles]
      cases hf1 : saveAll fmt folder a s1.fs with
      | ok u f1 =>
        cases hf2 : saveAll fmt folder b s2.fs with
        | ok u' f2 =>
          rw [hf1, hf2] at hf
          exact ⟨withWorld_circus hs.circus _ _, hx.2, hf⟩
        | error e f2 => rw [hf1, hf2] at hf; exact hf.elim
      | error e f1 =>
        cases hf2 : saveAll fmt folder b s2.fs with
        | ok u' f2 => rw [hf1, hf2] at hf; exact hf.elim
        | error e f2 =>
          rw [hf1, hf2] at hf
          exact ⟨hf.1, withWorld_circus hs.circus _ _, hx.2, hf.2⟩

theorem twin_stories (he : SameButSets env1 env2) (h0 : Tree fs0) (ha : Absent fs0 folder)
    {l : List (List (Env σ γ → Op (World σ γ)) × Nat)}
    (h : ∀ x ∈ l, ∀ op ∈ x.1, Written op) :
    TwinRun fmt folder fs0
      (Act.forEach (fun x : List (Op (World σ γ)) × Nat => runStory env1 fmt folder x.1 x.2)
        (l.map fun x => (x.1.map (· env1), x.2)))
      (Act.forEach (fun x : List (Op (World σ γ)) × Nat => runStory env2 fmt folder x.1 x.2)
        (l.map fun x => (x.1.map (· env2), x.2))) := by
  induction l with
  | nil => exact twin_pure
  | cons x l ih =>
    exact (twin_runStory he h0 ha (h x List.mem_cons_self) x.2).bind
      (ih fun y hy => h y (List.mem_cons_of_mem _ hy))

theorem twin_runSteps (he : SameButSets env1 env2) (h0 : Tree fs0) (ha : Absent fs0 folder)
    {chains : List (List (Env σ γ → Op (World σ γ)))}
    (h : ∀ ops ∈ chains, ∀ op ∈ ops, Written op) (n : Nat) :
    TwinRun fmt folder fs0 (runSteps env1 fmt folder (inEnv chains env1) n)
      (runSteps env2 fmt folder (inEnv chains env2) n) := by
  induction n with
  | zero => exact twin_pure
  | succ n ih =>
    refine TwinRun.bind ?_ (TwinRun.bind ?_ ih)
    · have := twin_stories (fmt := fmt) he h0 ha (l := chains.zipIdx) (fun x hx op hop => by
        obtain ⟨ops, i⟩ := x
        exact h ops (List.fst_mem_of_mem_zipIdx hx) op hop)
      rw [runStories, runStories, inEnv, inEnv, List.zipIdx_map, List.zipIdx_map]
      exact this
    · intro s1 s2 hs
      exact ⟨withWorld_circus hs.circus _ _, World.same_tickClock he hs.world, hs.files⟩

end Sys

end Trumania
