import Verif.Proofs.TypedMore
import Verif.Proofs.Run

/-! Helper lemmas: executions, log files and runs of well-formed circuses never raise. -/

namespace Trumania
open Spec World
variable {σ γ : Type} {env : Env σ γ} {S : Sig γ} {M : Val → Prop} {Γ Γ' : Ctx}

theorem safe_run {op : Op (World σ γ)} (h : Safe env S M Γ op Γ') :
    ∀ {data : Frame} {w : World σ γ}, Typed M Γ data → Fits env S w → SafeRun env S M Γ' op data w := by
  induction h with
  | randomValues hg hn => exact fun hd hw => randomValues_safe hd hw hg hn
  | randomBulks hg hq hn => exact fun hd hw => randomBulks_safe hd hw hg hq hn
  | randomValuesFromField hg ho hn => exact fun hd hw => randomFrom_safe hd hw hg ho hn
  | timestamp hf hr hn => exact fun hd hw => timestamp_safe hd hw hf hr hn
  | neighbourhoodSize hrel hf hn => exact fun hd hw => neighbourhoodSize_safe hd hw hrel hf hn
  | applySeries hs hf hn => exact fun hd hw => applySeries_safe hd hw hs hf hn
  | applyFrame hs hsn hf hl hn => exact fun hd hw => applyFrame_safe hd hw hs hsn hf hl hn
  | relAdd hrel hf hi => exact fun hd hw => relAdd_safe hd hw hrel hf hi
  | relAddGrouped hrel hf hi => exact fun hd hw => relAddGrouped_safe hd hw hrel hf hi
  | attrUpdate hpop hk hi hc => exact fun hd hw => attrUpdate_safe hd hw hpop hk hi hc
  | attrAdd hpop hk hv hi ha => exact fun hd hw => attrAdd_safe hd hw hpop hk hv hi ha
  | popUpdate hpop hnames hn hi hc => exact fun hd hw => popUpdate_safe hd hw hpop hnames hn hi hc
  | forceActNext hs hi hc => exact fun hd hw => forceActNext_safe hd hw hs hi hc
  | resetTimers hs hi => exact fun hd hw => resetTimersOp_safe hd hw hs hi
  | resetTimersOwn hs hm => exact fun hd hw => resetTimersOwn_safe hd hw hs hm
  | transitToState hs hi hst hc => exact fun hd hw => transitToState_safe hd hw hs hi hst hc
  | transitToField hs hi hst hc => exact fun hd hw => transitToField_safe hd hw hs hi hst hc
  | maybeBackToDefault hs hm => exact fun hd hw => maybeBack_safe hd hw hs hm
  | fieldLogger hc => exact fun hd hw => fieldLogger_safe hd hw hc
  | dropRow hf => exact fun hd hw => dropRow_safe hd hw hf
  | selectOne hrel hp hf hwt hn => exact fun hd hw => selectOne_safe hd hw hrel hp hf hwt hn
  | selectOneOwned hrel hp hf hwt hn => exact fun hd hw => selectOneOwned_safe hd hw hrel hp hf hwt hn
  | selectAll hrel hf hn => exact fun hd hw => selectAll_safe hd hw hrel hf hn
  | selectMany hrel hp hf hq hn => exact fun hd hw => selectMany_safe hd hw hrel hp hf hq hn
  | lookup hpop hi hs hn => exact fun hd hw => lookup_safe hd hw hpop hi hs hn
  | lookupLists hpop hi hs hn => exact fun hd hw => lookupLists_safe hd hw hpop hi hs hn
  | emptyChain => exact fun hd hw => ⟨_, [], _, rfl, hd, hw⟩
  | consChain _ _ ih1 ih2 => exact fun hd hw => chain_safe (ih1 hd hw) fun _ _ hd hw => ih2 hd hw

theorem safeOps_chain {ops : List (Op (World σ γ))} (h : SafeOps env S M Γ ops Γ') :
    Safe env S M Γ (World.chain env.logSet ops) Γ' := by
  induction h with
  | nil => exact .emptyChain
  | cons h _ ih => exact .consChain h ih

theorem safeOps_snoc {Γ'' : Ctx} {ops : List (Op (World σ γ))} {op : Op (World σ γ)}
    (h : SafeOps env S M Γ ops Γ') (ho : Safe env S M Γ' op Γ'') :
    SafeOps env S M Γ (ops ++ [op]) Γ'' := by
  induction h with
  | nil => exact .cons ho .nil
  | cons h _ ih => exact .cons h (ih ho)

/-! ### Executions -/

theorem init_typed {K : StoryKind} {s : Story σ} (h : StoryFits env S K s) :
    Typed K.members [(K.idField, fun l c => c = .scalar l)] (Story.initStoryData s.idField s.activeIds) := by
  have hidx : (Story.initStoryData s.idField s.activeIds).index = s.activeIds := by
    rw [Frame.index, Story.initStoryData, List.map_map]
    exact List.map_id' _
  refine ⟨by rw [Story.initStoryData, h.idField]; rfl, by simp [Ctx.names],
    by rw [hidx]; exact Story.activeIds_nodup h.nodup, ?_, ?_⟩
  · intro i hi
    rw [hidx] at hi
    obtain ⟨r, hr, rfl⟩ := List.mem_map.1 hi
    exact (h.members _).1 (List.mem_map.2 ⟨r, List.mem_of_mem_filter hr, rfl⟩)
  · intro r hr
    obtain ⟨i, -, rfl⟩ := List.mem_map.1 hr
    exact .cons rfl .nil

theorem execute_safe {i : Nat} {K : StoryKind} (hi : S.stories[i]? = some K) {w : World σ γ}
    (hw : Fits env S w) {ops : List (Op (World σ γ))} (ho : SafeStory env S K ops) :
    ∃ logs w', World.execute env ops i w = .ok logs w' ∧ Fits env S w' := by
  obtain ⟨w1, h1, h2⟩ := onStory_safe hi (f := fun s => .ok s.clearForced)
    (fun s hs => ⟨_, rfl, hs.clearForced⟩) hw
  obtain ⟨s, h3, h4⟩ := h2.story hi
  have hact : ∀ x ∈ s.activeIds, K.members x := by
    intro x hx
    obtain ⟨r, hr, rfl⟩ := List.mem_map.1 hx
    exact (h4.members _).1 (List.mem_map.2 ⟨r, List.mem_of_mem_filter hr, rfl⟩)
  have hina : ∀ x ∈ s.inactiveIds, K.members x := fun x hx =>
    (h4.members _).1 ((Story.mem_inactiveIds h4.nodup).1 hx).1
  have : ∃ logs w2, runActive env ops i s s.activeIds w1 = .ok logs w2 ∧ Fits env S w2 := by
    rw [runActive]
    split
    · exact ⟨[], w1, rfl, h2⟩
    · obtain ⟨Γ', hΓ⟩ := ho
      obtain ⟨out, logs, w2, h5, -, h6⟩ := safe_run (safeOps_chain hΓ) (init_typed h4) h2
      obtain ⟨s2, h7, h8⟩ := h6.story hi
      have : ∃ w3, reschedule env i s.activeIds w2 = .ok () w3 ∧ Fits env S w3 := by
        rw [reschedule, Act.bind_ok (getStory_eq_ok.2 ⟨h7, rfl⟩)]
        split
        · exact resetTimers_safe hi (fun l hl x hx => by cases hl; exact hact x hx) h6
        · exact onStory_safe hi (fun s hs => hs.timerTick hact) h6
      obtain ⟨w3, h9, h10⟩ := this
      refine ⟨logs, w3, ?_, h10⟩
      rw [Act.bind_ok h5]
      simp only
      rw [Act.bind_ok h9]
      rfl
  obtain ⟨logs, w2, h5, h6⟩ := this
  obtain ⟨w3, h7, h8⟩ := onStory_safe hi (f := fun t => t.timerTick s.inactiveIds)
    (fun s hs => hs.timerTick hina) h6
  refine ⟨logs, w3, ?_, h8⟩
  rw [World.execute, Act.bind_ok h1, Act.bind_ok (getStory_eq_ok.2 ⟨h3, rfl⟩), Act.bind_ok h5,
    Act.bind_ok h7]
  rfl

/-! ### Files -/

namespace FS

theorem mkdirs_total (r : Path) : ∀ (q : Path) {fs : FS}, Tree fs →
    (At fs q .dir ∨ (Absent fs q ∧ q ≠ [] ∧ At fs q.dropLast .dir)) →
    (∀ a t, Below a r → ¬ At fs (q ++ a) (.file t)) →
    ∃ fs', mkdirs (r.inits.map (q ++ ·)) fs = .ok () fs' := by
  induction r with
  | nil =>
    intro q fs ht hq _
    have e : ([] : Path).inits.map (q ++ ·) = [q] := by simp
    rw [e]
    rw [mkdirs, Act.bind_ok (get_ok fs)]
    rcases hq with hq | ⟨h1, h2, h3⟩
    · rw [if_pos ((pathExists_iff ht.unique).2 ⟨_, hq⟩)]
      exact ⟨fs, rfl⟩
    · rw [if_neg (by rw [pathExists_iff ht.unique]; rintro ⟨n, hn⟩; exact h1 n hn)]
      rcases mkdir_cases ht q with h | ⟨-, -, -, h⟩
      · rw [mkdir, Act.bind_ok (get_ok fs), if_pos ⟨by
          rw [pathExists_iff ht.unique]; rintro ⟨n, hn⟩; exact h1 n hn, h2,
          (isDir_iff ht.unique).2 h3⟩] at h
        cases h
      · rw [Act.bind_ok h]
        exact ⟨_, rfl⟩
  | cons a r ih =>
    intro q fs ht hq hc
    rw [List.inits_cons, List.map_cons, List.append_nil, List.map_map]
    have hmap : List.map ((fun x => q ++ x) ∘ fun t => a :: t) r.inits =
        r.inits.map ((q ++ [a]) ++ ·) := by
      apply List.map_congr_left
      intro x _
      simp
    rw [hmap, mkdirs, Act.bind_ok (get_ok fs)]
    have key : ∀ fs1 : FS, Tree fs1 → At fs1 q .dir → (∀ b t, Below b r →
        ¬ At fs1 ((q ++ [a]) ++ b) (.file t)) → ∃ fs', mkdirs (r.inits.map ((q ++ [a]) ++ ·)) fs1 = .ok () fs' := by
      intro fs1 ht1 hd1 hc1
      refine ih (q ++ [a]) ht1 ?_ hc1
      by_cases he : ∃ n, At fs1 (q ++ [a]) n
      · obtain ⟨n, hn⟩ := he
        cases n with
        | dir => exact .inl hn
        | file t => exact absurd (by simpa using hn) (hc1 [] t ⟨r, rfl⟩)
      · refine .inr ⟨fun n hn => he ⟨n, hn⟩, by simp, ?_⟩
        rw [List.dropLast_concat]
        exact hd1
    have hc' : ∀ b t, Below b r → ¬ At fs ((q ++ [a]) ++ b) (.file t) := by
      rintro b t ⟨c, rfl⟩
      have := hc (a :: b) t ⟨c, rfl⟩
      simpa using this
    by_cases he : ∃ n, At fs q n
    · rw [if_pos ((pathExists_iff ht.unique).2 he)]
      rcases hq with hq | ⟨h1, -⟩
      · exact key fs ht hq hc'
      · obtain ⟨n, hn⟩ := he
        exact absurd hn (h1 n)
    · rw [if_neg (by rw [pathExists_iff ht.unique]; exact he)]
      rcases hq with hq | ⟨h1, h2, h3⟩
      · exact absurd ⟨_, hq⟩ he
      · rcases mkdir_cases ht q with h | ⟨-, -, -, h⟩
        · rw [mkdir, Act.bind_ok (get_ok fs), if_pos ⟨by
            rw [pathExists_iff ht.unique]; exact he, h2, (isDir_iff ht.unique).2 h3⟩] at h
          cases h
        · rw [Act.bind_ok h]
          refine key _ (set_tree ht h3 (by simp)) ((mem_set ht.unique).2 (.inl ⟨rfl, rfl⟩)) ?_
          intro b t hb hn
          rcases (mem_set ht.unique).1 hn with ⟨-, h⟩ | ⟨-, h⟩
          · cases h
          · exact hc' b t hb h

/-- the folder can be created if no file is in the way -/
theorem ensureFolder_total {folder : Path} {fs : FS} (ht : Tree fs) (hr : At fs [] .dir)
    (hc : ∀ a t, Below a folder → ¬ At fs a (.file t)) :
    ∃ fs', ensureFolderExists folder fs = .ok () fs' := by
  rw [ensureFolderExists, Act.bind_ok (get_ok fs)]
  split
  · exact ⟨fs, rfl⟩
  · next h =>
    rw [makedirs, Act.bind_ok (get_ok fs), if_neg h]
    have := mkdirs_total folder [] ht (.inl hr) (by simpa using hc)
    simpa using this

end FS

namespace Sys
variable {fmt : Cell → Text} {folder : Path} {fs0 : FS}

theorem saveLogs_safe {L : Logs} {fs : FS} {id : String} {f : Frame} (h0 : Tree fs0)
    (ha : Absent fs0 folder) (hr : At fs0 [] .dir) (hc : ∀ a t, Below a folder → ¬ At fs0 a (.file t))
    (hw : LogsWritten fmt folder fs0 L fs) : ∃ fs', saveLogs fmt folder id f fs = .ok () fs' := by
  obtain ⟨fs1, h1⟩ := FS.ensureFolder_total (folder := folder) hw.tree ((hw.content _ _).2 (.inl hr)) (by
    intro a t hb hn
    rcases (hw.content _ _).1 hn with h | ⟨-, h, -⟩ | ⟨id, rfl, -⟩
    · exact hc a t hb h
    · cases h
    · exact csvOf_not_below hb)
  obtain ⟨ht, hcont⟩ := written_folder hw h1
  rw [saveLogs, Act.bind_ok h1, appendLogs]
  split
  · rw [Act.bind_ok (FS.get_ok fs1)]
    have hdir : At fs1 folder .dir := (hcont _ _).2 (.inr (.inl ⟨rfl, ⟨[], by simp⟩, ha⟩))
    have hnd : ¬ At fs1 (logFile folder id) .dir := by
      intro h
      rcases (hcont _ _).1 h with h | ⟨-, h, -⟩ | ⟨_, -, -, h⟩
      · exact absent_below h0 ha ⟨_, rfl⟩ _ h
      · exact csvOf_not_below (a := id) h
      · cases h
    split
    · rw [FS.writeFile, Act.bind_ok (FS.get_ok fs1), if_pos]
      · exact ⟨_, rfl⟩
      · refine ⟨by simp [logFile], by rw [FS.isDir_iff ht.unique]; exact hnd, ?_⟩
        rw [logFile, List.dropLast_concat, FS.isDir_iff ht.unique]
        exact hdir
    · next he =>
      rw [not_not, FS.pathExists_iff ht.unique] at he
      obtain ⟨n, hn⟩ := he
      cases n with
      | dir => exact absurd hn hnd
      | file t =>
        rw [FS.appendFile, Act.bind_ok (FS.get_ok fs1), (FS.get?_iff ht.unique).2 hn]
        exact ⟨_, rfl⟩
  · exact ⟨fs1, rfl⟩

theorem saveAll_safe (h0 : Tree fs0) (ha : Absent fs0 folder) (hr : At fs0 [] .dir)
    (hc : ∀ a t, Below a folder → ¬ At fs0 a (.file t)) (N : Logs) :
    ∀ {L : Logs} {fs : FS}, LogsWritten fmt folder fs0 L fs →
    ∃ fs', saveAll fmt folder N fs = .ok () fs' ∧ LogsWritten fmt folder fs0 (L ++ N) fs' := by
  induction N with
  | nil => intro L fs hw; exact ⟨fs, rfl, by rwa [List.append_nil]⟩
  | cons x N ih =>
    intro L fs hw
    obtain ⟨fs1, h1⟩ := saveLogs_safe (id := x.1) (f := x.2) h0 ha hr hc hw
    obtain ⟨fs2, h2, h3⟩ := ih (saveLogs_written h0 ha hw h1)
    refine ⟨fs2, ?_, by simpa using h3⟩
    rw [saveAll, Act.forEach, Act.bind_ok h1]
    exact h2

/-- a well-formed circus and its logs -/
def Good (env : Env σ γ) (S : Sig γ) (fmt : Cell → Text) (folder : Path) (fs0 : FS) (s : Sys σ γ) : Prop :=
  Fits env S s.circus.world ∧ ∃ L, LogsWritten fmt folder fs0 L s.fs

variable (h0 : Tree fs0) (ha : Absent fs0 folder) (hr : At fs0 [] .dir)
  (hc : ∀ a t, Below a folder → ¬ At fs0 a (.file t))
include h0 ha hr hc

theorem runStory_safe {i : Nat} {K : StoryKind} (hi : S.stories[i]? = some K)
    {ops : List (Op (World σ γ))} (ho : SafeStory env S K ops) {s : Sys σ γ}
    (hs : Good env S fmt folder fs0 s) :
    ∃ s', runStory env fmt folder ops i s = .ok () s' ∧ Good env S fmt folder fs0 s' := by
  obtain ⟨hf, L, hL⟩ := hs
  obtain ⟨logs, w', h1, h2⟩ := execute_safe hi hf ho
  obtain ⟨fs', h3, h4⟩ := saveAll_safe h0 ha hr hc logs hL
  refine ⟨⟨{ s.circus with world := w' }, fs'⟩, ?_, h2, _, h4⟩
  rw [runStory, Act.bind_ok (onWorld_eq_ok.2 ⟨w', h1, rfl⟩)]
  exact onFiles_eq_ok.2 ⟨fs', h3, rfl⟩

theorem runSteps_safe {chains : List (List (Op (World σ γ)))}
    (ho : List.Forall₂ (SafeStory env S) S.stories chains) (n : Nat) :
    ∀ {s : Sys σ γ}, Good env S fmt folder fs0 s →
    ∃ s', runSteps env fmt folder chains n s = .ok () s' ∧ Good env S fmt folder fs0 s' := by
  have hstep : ∀ {s : Sys σ γ}, Good env S fmt folder fs0 s →
      ∃ s', runStories env fmt folder chains s = .ok () s' ∧ Good env S fmt folder fs0 s' := by
    rw [runStories]
    have hall : ∀ x ∈ chains.zipIdx, ∃ K, S.stories[x.2]? = some K ∧ SafeStory env S K x.1 := by
      rintro ⟨ops, i⟩ hx
      have hx := List.mem_zipIdx_iff_getElem?.1 hx
      obtain ⟨K, h1, h2⟩ := forall₂_at ho.flip hx
      exact ⟨K, h1, h2⟩
    generalize chains.zipIdx = l at hall
    induction l with
    | nil => intro s hs; exact ⟨s, rfl, hs⟩
    | cons x l ih =>
      intro s hs
      obtain ⟨K, h1, h2⟩ := hall x (by simp)
      obtain ⟨s1, h3, h4⟩ := runStory_safe h0 ha hr hc h1 h2 hs
      obtain ⟨s2, h5, h6⟩ := ih (fun y hy => hall y (by simp [hy])) h4
      refine ⟨s2, ?_, h6⟩
      rw [Act.forEach, Act.bind_ok h3]
      exact h5
  induction n with
  | zero => intro s hs; exact ⟨s, rfl, hs⟩
  | succ n ih =>
    intro s hs
    obtain ⟨s1, h1, h2⟩ := hstep hs
    obtain ⟨s2, h3, h4⟩ := ih (s := { s1 with circus := { s1.circus with
      world := World.tickClock env s1.circus.world } }) ⟨h2.1.tick, h2.2⟩
    refine ⟨s2, ?_, h4⟩
    have ht : onWorld (modify (World.tickClock env)) s1 = .ok () { s1 with circus := { s1.circus with
      world := World.tickClock env s1.circus.world } } := rfl
    rw [runSteps, Act.bind_ok h1, Act.bind_ok ht]
    exact h3

end Sys
end Trumania
