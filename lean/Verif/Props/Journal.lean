import Verif.Spec.Journal
import Verif.Props.Fields
import Verif.Props.Columns

/-!
# Property C96: the logs say who acted, and when
-/

namespace Trumania
open Spec World
variable {σ γ : Type} {env : Env σ γ} {F Z : Nat → Prop}

theorem keepsRows_index {op : Op (World σ γ)} (hop : KeepsRows env F Z op) :
    ∀ {data : Frame} {out : Frame × Logs} {w w' : World σ γ}, op data w = .ok out w' →
      data.index.Nodup → out.1.index = data.index := by
  induction hop with
  | adder hop =>
    intro data out w w' h hn
    obtain ⟨added, values, h1, rfl⟩ := columnAdder_spec hop h
    exact Frame.mergeIndex_left_index (by rw [(Frame.ofColumn_ok h1).1]; exact hn)
  | effect hop =>
    intro data out w w' h hn
    rw [sideEffect_spec hop h]
  | fieldLogger logId cols exploded =>
    intro data out w w' h hn
    rw [Ops.fieldLogger] at h
    obtain ⟨_, w1, -, h⟩ := Act.bind_eq_ok.1 h
    rw [Act.pure_eq_ok] at h
    rw [← h.1]
  | applyFrame s n f hf =>
    intro data out w w' h hn
    obtain ⟨o, h0, rfl⟩ := addColumns_eq_ok.1 h
    clear h
    obtain ⟨s, hs, h⟩ := bind_eq_ok.1 (Act.ofPy_eq_ok.1 h0).1
    obtain ⟨r, h1, h⟩ := bind_eq_ok.1 h
    cases h
    exact Frame.mergeIndex_left_index (hf s r (by rw [Frame.select_index hs]; exact hn) h1)
  | lookup pop i sel =>
    intro data out w w' h hn
    obtain ⟨o, h0, rfl⟩ := addColumns_eq_ok.1 h
    clear h
    obtain ⟨p, w1, -, h⟩ := Act.bind_eq_ok.1 h0
    exact Frame.mergeIndex_left_index (by rw [lookupOutput_index (Act.ofPy_eq_ok.1 h).1]; exact hn)
  | chain ops _ ih =>
    intro data out w w' h hn
    rw [World.chain] at h
    have : ∀ {l : List (Op (World σ γ))} {acc : Frame × Logs} {w : World σ γ},
        (∀ op ∈ l, op ∈ ops) → runOps env.logSet acc l w = .ok out w' → acc.1.index.Nodup →
        out.1.index = acc.1.index := by
      intro l
      induction l with
      | nil =>
        intro acc w _ h hn
        rw [runOps, Act.pure_eq_ok] at h
        rw [← h.1]
      | cons op l ihl =>
        intro acc w hl h hn
        rw [runOps, Act.bind_eq_ok] at h
        obtain ⟨acc1, w1, h1, h⟩ := h
        obtain ⟨supp, h2, -⟩ := executeOperation_eq_ok h1
        have e1 := ih op (hl op (by simp)) h2 hn
        exact (ihl (fun o ho => hl o (by simp [ho])) h (by rw [e1]; exact hn)).trans e1
    exact this (fun _ h => h) h hn

theorem runs_keepsRows {ops : List (Op (World σ γ))} (hops : ∀ op ∈ ops, KeepsRows env F Z op)
    {data out : Frame} {ls : List Logs} {w w' : World σ γ} (hn : data.index.Nodup)
    (h : Runs ops data w out ls w') : out.index = data.index := by
  induction h with
  | nil => rfl
  | cons h _ ih =>
    have e := keepsRows_index (hops _ (by simp)) h hn
    exact (ih (fun o ho => hops o (by simp [ho])) (by rw [e]; exact hn)).trans e

theorem runs_date {ops : List (Op (World σ γ))} (hops : ∀ op ∈ ops, BuiltIn env F Z op)
    {data out : Frame} {ls : List Logs} {w w' : World σ γ} (h : Runs ops data w out ls w') :
    w'.clock.current = w.clock.current ∧ w'.clock.step = w.clock.step := by
  induction h with
  | nil => exact ⟨rfl, rfl⟩
  | @cons op _ d _ _ w _ _ _ _ h _ ih =>
    obtain ⟨e1, e2⟩ := ih fun o ho => hops o (by simp [ho])
    have := C59_builtIn_keepsDate op (hops _ (by simp)) d w
    rw [Act.after_ok h] at this
    exact ⟨e1.trans this.1, e2.trans this.2⟩

theorem actingRows_rect (s : Story σ) : Rect (⟨[s.idField], actingRows s⟩ : Frame) := by
  intro r hr
  simp only [actingRows, List.mem_filterMap] at hr
  obtain ⟨t, -, ht⟩ := hr
  split at ht
  · cases ht; rfl
  · cases ht

theorem actingRows_cells {s : Story σ} {r : Row} (hr : r ∈ actingRows s) :
    cell ⟨[s.idField], actingRows s⟩ r s.idField = .scalar r.idx := by
  simp only [actingRows, List.mem_filterMap] at hr
  obtain ⟨t, -, ht⟩ := hr
  split at ht
  · cases ht; simp [cell]
  · cases ht

/-- the dates given by the operation `timestamp` are dates of the current step -/
theorem timestamp_inStep {name : String} {random : Bool} {fmt : Int → Cell} {data out : Frame}
    {logs : Logs} {w w' : World σ γ} (hn : data.index.Nodup) (hr : Rect data)
    (hname : name ∉ data.cols) (hstep : 0 ≤ w.clock.step)
    (h : Ops.timestamp env name random fmt data w = .ok (out, logs) w') :
    ∀ c ∈ cellsOf out name, ∃ d, InStep random w.clock.current w.clock.step d ∧ c = fmt d := by
  intro c hc
  cases random with
  | false =>
    obtain ⟨-, -, h3⟩ := C91_fixed_timestamps hn hr hname h
    rw [h3.added] at hc
    obtain ⟨r, -, rfl⟩ := List.mem_map.1 hc
    exact ⟨_, by simp [InStep], rfl⟩
  | true =>
    obtain ⟨-, secs, st, -, -, -, h4, h5⟩ := C91_random_timestamps hn hr hname hstep h
    rw [h5.added] at hc
    obtain ⟨k, hk, rfl⟩ := List.mem_map.1 hc
    refine ⟨_, ?_, rfl⟩
    have := h4 k hk
    simp only [InStep, if_true]
    exact ⟨⟨k, rfl⟩, by omega⟩

theorem cell_logged {out logged : Frame} {cols : List String} {name : String} (hc : name ∈ cols)
    (h : out.select cols = .ok logged) {r' : Row} (hr : r' ∈ logged.rows) :
    ∃ r ∈ out.rows, r.idx = r'.idx ∧ cell logged r' name = cell out r name := by
  obtain ⟨e1, e2⟩ := Frame.select_ok h
  rw [e2] at hr
  obtain ⟨a, ha, rfl⟩ := List.mem_map.1 hr
  refine ⟨a, ha, rfl, ?_⟩
  rw [cell, e1]
  have : ∀ l : List String, name ∈ l →
      (l.zip (l.map (cell out a))).find? (fun x => decide (x.1 = name)) = some (name, cell out a name) := by
    intro l hl
    induction l with
    | nil => simp at hl
    | cons c l ih =>
      simp only [List.map_cons, List.zip_cons_cons, List.find?_cons]
      by_cases hn : c = name
      · simp [hn]
      · simp only [hn, decide_false]
        exact ih ((List.mem_cons.1 hl).resolve_left fun e => hn e.symm)
  simp only [this cols hc]

/-- **C96** One execution of a story that dates its members and logs them: it logs one table, if some
member acts, and none otherwise. The table has at most one row per member, only members that act have
one, the row names its member and has a date of the current clock step. If no operation before the
logger drops rows, the members of the table are exactly those that act, in order. -/
theorem C96_execution {idField time logId : String} {cols : List String} {random : Bool}
    {fmt : Int → Cell} {keep : Prop} {ops : List (Op (World σ γ))}
    (hops : Journals env F Z idField time logId cols random fmt keep ops) {j : Nat}
    {w w' : World σ γ} {s : Story σ} {logs : Logs} (hs : w.stories[j]? = some s)
    (hid : s.idField = idField) (hn : (s.timer.map (·.id)).Nodup) (hstep : 0 ≤ w.clock.step)
    (h : execute env ops j w = .ok logs w') :
    ((∀ id, ¬ Acts s id) → tablesOf logId logs = []) ∧
    ((∃ id, Acts s id) → ∃ table, tablesOf logId logs = [table] ∧ table.cols = cols ∧
      table.index.Nodup ∧
      (∀ r ∈ table.rows, Acts s r.idx ∧ (idField ∈ cols → cell table r idField = .scalar r.idx) ∧
        ∃ d, InStep random w.clock.current w.clock.step d ∧ cell table r time = fmt d) ∧
      (keep → table.index = (actingRows s).map (·.idx))) := by
  obtain ⟨s0, w1, hs0, -, h2, -⟩ := execute_gen_at (i := 0) h
  rw [hs] at hs0; cases hs0
  obtain ⟨s', hs', h2⟩ := h2
  rw [hs] at hs'; cases hs'
  have hact : (∃ id, Acts s id) ↔ actingRows s ≠ [] := by
    constructor
    · rintro ⟨id, hid⟩ e
      simp [Acts, e] at hid
    · intro hne
      obtain ⟨r, hr⟩ := List.exists_mem_of_ne_nil _ hne
      exact ⟨_, List.mem_map_of_mem hr⟩
  rcases h2 with ⟨hnil, rfl, -⟩ | ⟨hne, last, h2⟩
  · exact ⟨fun _ => by simp [tablesOf], fun he => absurd hnil (hact.1 he)⟩
  refine ⟨fun hno => ?_, fun _ => ?_⟩
  · obtain ⟨id, hid⟩ := hact.2 hne
    exact absurd hid (hno id)
  obtain ⟨hwf, ls, hr, hl⟩ := (chain_sequential env.logSet ops _ last _ w1).1 logs h2
  obtain ⟨pre, mid, post, hc, rfl, htime, hpm, hpost, hkeep⟩ := hops
  have hpre : ∀ op ∈ pre, OpWithin env F Z (fun c => Clear time c ∧ Clear idField c)
      (fun _ => True) (· ≠ logId) op := fun o ho => hpm o (by simp [ho])
  have hmid : ∀ op ∈ mid, OpWithin env F Z (fun c => Clear time c ∧ Clear idField c)
      (fun _ => True) (· ≠ logId) op := fun o ho => hpm o (by simp [ho])
  have hall : ∀ {l : List (Op (World σ γ))}, (∀ op ∈ l, OpWithin env F Z
      (fun c => Clear time c ∧ Clear idField c) (fun _ => True) (· ≠ logId) op) →
      ∀ op ∈ l, BuiltIn env F Z op := fun h op ho => (h op ho).builtIn
  obtain ⟨d1, w2, l1, lb, r1, r2, rfl⟩ := runs_split hr
  cases r2 with
  | @cons _ _ _ d2 _ _ w3 _ la ls1 ha r3 =>
  obtain ⟨d3, w4, l2, lc, r4, r5, rfl⟩ := runs_split r3
  cases r5 with
  | @cons _ _ _ d4 _ _ w5 _ lf l3 hf r6 =>
  -- the first operations
  have hrect0 := actingRows_rect s
  obtain ⟨nd1, act1⟩ := C44_in_execution (post := []) (by simpa using hall hpre) hn r1
  obtain ⟨rect1, t1, -⟩ := C82_field_kept (fun _ h => h.1) hpre hrect0 r1
  obtain ⟨-, k1⟩ := C82_field_kept (fun _ h => h.2) hpre hrect0 r1
  obtain ⟨c1, c2⟩ := runs_date (hall hpre) r1
  have hname : time ∉ d1.cols := by
    rw [t1]
    simpa [hid] using htime.1
  -- the dates
  have hst := timestamp_inStep nd1 rect1 hname (by rw [c2]; exact hstep) ha
  rw [c1, c2] at hst
  have hst : ∀ c ∈ cellsOf d2 time, ∃ d, InStep random w.clock.current w.clock.step d ∧ c = fmt d := hst
  obtain ⟨rfl, i2, -⟩ := C43_built_in (.timestamp random fmt) nd1 ha
  obtain ⟨rect2, k2⟩ := adder_kept (env := env) (.timestamp random fmt) htime ha rect1
  -- until they are logged
  have nd2 : d2.index.Nodup := i2 ▸ nd1
  obtain ⟨nd3, sub3⟩ := C44_at_each_point (hall hmid) nd2 r4
  obtain ⟨-, t3⟩ := C82_field_kept (fun _ h => h.1) hmid rect2 r4
  obtain ⟨-, k3⟩ := C82_field_kept (fun _ h => h.2) hmid rect2 r4
  obtain ⟨logged, hlog, h2l, rfl⟩ := fieldLogger_eq_ok.1 hf
  cases h2l
  simp only [Ops.loggedData, Ops.explode, Ops.loggerCols, List.append_nil, if_true] at hlog
  have hlog : (if cols = [] then Except.ok d3 else d3.select cols) = .ok logged := hlog
  rw [if_neg (List.ne_nil_of_mem hc)] at hlog
  obtain ⟨e1, e2⟩ := Frame.select_ok hlog
  have hli : logged.index = d3.index := by simp [Frame.index, e2]
  refine ⟨logged, ?_, e1, by rw [hli]; exact nd3, ?_, ?_⟩
  · rw [tablesOf_dict hwf, hl]
    have q1 := runs_quiet hpre (id := logId) (fun h => h rfl) r1
    have q2 := runs_quiet hmid (id := logId) (fun h => h rfl) r4
    have q3 := runs_quiet hpost (id := logId) (fun h => h rfl) r6
    simp [List.filterMap_append, List.filterMap_cons, q1, q2, q3, Dict.get?, foldVals]
  · intro r hr'
    have hm : r.idx ∈ d3.index := hli ▸ List.mem_map_of_mem hr'
    refine ⟨act1 _ (i2 ▸ sub3 _ hm), fun hidc => ?_, ?_⟩
    · obtain ⟨a, ha1, ha2, ha3⟩ := cell_logged hidc hlog hr'
      obtain ⟨b, hb1, hb2, hb3⟩ := (fieldKept_trans k1 (fieldKept_trans k2 k3)).2 a ha1
      rw [ha3, hb3, ← ha2, ← hb2, ← hid]
      exact actingRows_cells hb1
    · obtain ⟨a, ha1, ha2, ha3⟩ := cell_logged hc hlog hr'
      obtain ⟨b, hb1, hb2, hb3⟩ := t3.2 a ha1
      obtain ⟨d, hd, e⟩ := hst _ (by rw [Frame.cellsOf_eq]; exact List.mem_map_of_mem hb1)
      exact ⟨d, hd, by rw [ha3, hb3, e]⟩
  · intro hk
    rw [hli, runs_keepsRows (fun o ho => hkeep hk o (by simp [ho])) nd2 r4, i2]
    refine runs_keepsRows (fun o ho => hkeep hk o (by simp [ho])) ?_ r1
    have : ∀ l : List TimerRow, ((l.filterMap fun r =>
        if r.remaining = some 0 then some (⟨r.id, [.scalar r.id]⟩ : Row) else none).map
        (·.idx)).Sublist (l.map (·.id)) := by
      intro l
      induction l with
      | nil => simp
      | cons r l ih =>
        by_cases hr : r.remaining = some 0
        · simpa [hr] using ih
        · rw [List.filterMap_cons, if_neg hr, List.map_cons]
          exact ih.cons _
    exact hn.sublist (this s.timer)

/-! ### Runs -/

theorem execute_sameStories {ops : List (Op (World σ γ))} (hops : ∀ op ∈ ops, BuiltIn env F Z op)
    {j : Nat} {w w' : World σ γ} {logs : Logs} (h : execute env ops j w = .ok logs w') :
    SameStories w w' := by
  obtain ⟨s, w1, hs, h1, h2, h3, -⟩ := execute_gen_at (i := 0) h
  refine h1.trans (SameStories.trans ?_ h3)
  obtain ⟨s', hs', h2⟩ := h2
  rw [hs] at hs'; cases hs'
  rcases h2 with ⟨-, -, rfl⟩ | ⟨-, last, h2⟩
  · exact .refl _
  · have := chain_apis (fun op hop => builtIn_respects (GenKept.any (env := env)) (hops op hop)) h2
    clear h2 h3
    induction this with
    | refl => exact .refl _
    | tail _ h ih => exact ih.trans (api_same h)

/-- the stories of the world are those of the run: each one journals or logs nothing under `logId` -/
def Spec.JournalRun (env : Env σ γ) (F Z : Nat → Prop) (time logId : String) (cols : List String)
    (random : Bool) (fmt : Int → Cell) (keep : Prop) (chains : List (List (Op (World σ γ))))
    (w : World σ γ) : Prop :=
  (∀ s ∈ w.stories, (s.timer.map (·.id)).Nodup) ∧
  ∀ (j : Nat) (ops : List (Op (World σ γ))) (s : Story σ), chains[j]? = some ops →
    w.stories[j]? = some s →
    Journals env F Z s.idField time logId cols random fmt keep ops ∨ Silent env F Z logId ops

section
variable {time logId : String} {cols : List String} {random : Bool} {fmt : Int → Cell} {keep : Prop}
  {chains : List (List (Op (World σ γ)))}

theorem Spec.JournalRun.same {w w' : World σ γ}
    (h : SameStories w w') (hw : Spec.JournalRun env F Z time logId cols random fmt keep chains w) :
    Spec.JournalRun env F Z time logId cols random fmt keep chains w' := by
  refine ⟨h.forall (P := fun s : Story σ => (s.timer.map (fun r : TimerRow => r.id)).Nodup)
    (fun s s' e hs => by
      have := e.2
      rw [Story.ids, Story.ids] at this
      rw [this]; exact hs) hw.1, fun j ops s hj hs => ?_⟩
  have hlen := List.Forall₂.length_eq h
  have hj' : j < w'.stories.length := (List.getElem?_eq_some_iff.1 hs).1
  have := List.forall₂_iff_get.1 h
  have e := this.2 j (by omega) hj'
  rw [List.get_eq_getElem, List.get_eq_getElem, (List.getElem?_eq_some_iff.1 hs).2] at e
  have hf : s.idField = (w.stories[j]'(by omega)).idField := by rw [e.1]
  rw [hf]
  exact hw.2 j ops _ hj (List.getElem?_eq_getElem (by omega))

theorem journals_builtIn {idField : String} {ops : List (Op (World σ γ))}
    (h : Journals env F Z idField time logId cols random fmt keep ops ∨ Silent env F Z logId ops) :
    ∀ op ∈ ops, BuiltIn env F Z op := by
  intro op hop
  rcases h with ⟨pre, mid, post, -, rfl, -, h1, h2, -⟩ | hb
  · simp only [List.mem_append, List.mem_cons] at hop
    rcases hop with hop | rfl | hop | rfl | hop
    · exact (h1 op (by simp [hop])).builtIn
    · exact .adder (.timestamp random fmt)
    · exact (h1 op (by simp [hop])).builtIn
    · exact .fieldLogger _ _ _
    · exact (h2 op hop).builtIn
  · exact (hb op hop).builtIn

theorem journal_exec {w w1 : World σ γ} {j : Nat} {ops : List (Op (World σ γ))} {logs : Logs}
    (hw : Spec.JournalRun env F Z time logId cols random fmt keep chains w)
    (hj : chains[j]? = some ops) (h : execute env ops j w = .ok logs w1) :
    Spec.JournalRun env F Z time logId cols random fmt keep chains w1 ∧
      w1.clock.current = w.clock.current ∧ w1.clock.step = w.clock.step := by
  obtain ⟨s, -, hs, -⟩ := execute_gen_at (i := 0) h
  have hb := journals_builtIn (hw.2 j ops s hj hs)
  have hd := execute_date (env := env) (fun op hop => builtIn_date (hb op hop)) j w
  rw [Act.after_ok h] at hd
  exact ⟨hw.same (execute_sameStories hb h), congrArg Prod.fst hd, congrArg Prod.snd hd⟩

/-- silent executions log nothing under the id -/
theorem silent_exec {w w1 : World σ γ} {j : Nat} {ops : List (Op (World σ γ))} {logs : Logs}
    (hops : Silent env F Z logId ops) (h : execute env ops j w = .ok logs w1) :
    tablesOf logId logs = [] := by
  obtain ⟨s, w1, hs, -, h2, -, -⟩ := execute_gen_at (i := 0) h
  obtain ⟨s', hs', h2⟩ := h2
  rw [hs] at hs'; cases hs'
  rcases h2 with ⟨-, rfl, -⟩ | ⟨-, last, h2⟩
  · rfl
  · obtain ⟨hwf, ls, hr, hl⟩ := (chain_sequential env.logSet ops _ last _ w1).1 logs h2
    rw [tablesOf_dict hwf, hl, runs_quiet hops (by simp) hr]
    rfl

/-- **C96** In a run, at each execution: what the story logs under the id was done by its members, in
the current state of the story, and at a date of the current step, which is the initial date plus one
step per increment of the clock so far. -/
theorem C96_in_a_run {w w' : World σ γ} {before after : List (Int × Event)} {t : Int} {j : Nat}
    {logs : Logs} (hw : Spec.JournalRun env F Z time logId cols random fmt keep chains w)
    (hstep : 0 ≤ w.clock.step) (h : Played env chains w (before ++ (t, .exec j logs) :: after) w') :
    ∃ w1 s, Played env chains w before w1 ∧ w1.stories[j]? = some s ∧
      t = w.clock.current + ticks before * w.clock.step ∧
      (∀ table ∈ tablesOf logId logs, table.cols = cols ∧ table.index.Nodup ∧
        (∀ r ∈ table.rows, Acts s r.idx ∧ (s.idField ∈ cols → cell table r s.idField = .scalar r.idx) ∧
          ∃ d, InStep random t w.clock.step d ∧ cell table r time = fmt d) ∧
        (keep → table.index = (actingRows s).map (·.idx))) ∧
      ∀ ops, chains[j]? = some ops →
        Journals env F Z s.idField time logId cols random fmt keep ops →
        ((∃ id, Acts s id) → tablesOf logId logs ≠ []) ∧
        (keep → (loggedRows logId logs).map (·.idx) = (actingRows s).map (·.idx)) := by
  generalize he : before ++ (t, Event.exec j logs) :: after = evs at h
  induction h generalizing before with
  | nil w => simp at he
  | @exec w w1 w' l i ops lg hi h rest ih =>
    obtain ⟨hw1, c1, c2⟩ := journal_exec hw hi h
    cases before with
    | cons e before =>
      obtain ⟨rfl, rfl⟩ := List.cons.inj he
      obtain ⟨w2, s, h1, h2, h3, h4⟩ := ih hw1 (by rw [c2]; exact hstep) rfl
      rw [c1, c2] at h3
      rw [c2] at h4
      exact ⟨w2, s, .exec hi h h1, h2, by simpa [ticks, Event.story] using h3, h4⟩
    | nil =>
      obtain ⟨e1, rfl⟩ := List.cons.inj he
      obtain ⟨rfl, e2⟩ := Prod.mk.inj e1
      cases e2
      obtain ⟨s, -, hs, -⟩ := execute_gen_at (i := 0) h
      refine ⟨w, s, .nil w, hs, by simp [ticks], fun table ht => ?_, fun ops' hi' hJ => ?_⟩
      swap
      · rw [hi] at hi'
        cases hi'
        have := C96_execution hJ hs rfl (hw.1 s (List.mem_of_getElem? hs)) hstep h
        by_cases hact : ∃ id, Acts s id
        · obtain ⟨tb, e1, -, -, -, e5⟩ := this.2 hact
          rw [loggedRows, e1]
          exact ⟨by simp, fun hk => by simpa [Frame.index] using e5 hk⟩
        · refine ⟨fun h => absurd h hact, fun _ => ?_⟩
          rw [loggedRows, this.1 (by simpa using hact)]
          symm
          simpa [List.eq_nil_iff_forall_not_mem, Acts] using hact
      rcases hw.2 j ops s hi hs with hJ | hS
      · have := C96_execution hJ hs rfl (hw.1 s (List.mem_of_getElem? hs)) hstep h
        by_cases hact : ∃ id, Acts s id
        · obtain ⟨tb, e1, e2, e3, e4, e5⟩ := this.2 hact
          rw [e1, List.mem_singleton] at ht
          subst ht
          exact ⟨e2, e3, e4, e5⟩
        · rw [this.1 (by simpa using hact)] at ht
          cases ht
      · rw [silent_exec hS h] at ht
        cases ht
  | @tick w w' l rest ih =>
    cases before with
    | cons e before =>
      obtain ⟨rfl, rfl⟩ := List.cons.inj he
      obtain ⟨w2, s, h1, h2, h3, h4⟩ := ih hw hstep rfl
      refine ⟨w2, s, .tick h1, h2, ?_, h4⟩
      rw [h3]
      simp only [ticks, List.countP_cons, Event.story, nextStep]
      push_cast
      simp only [Option.isNone_none, if_true]
      ring
    | nil =>
      obtain ⟨e1, -⟩ := List.cons.inj he
      cases (Prod.mk.inj e1).2

/-- **C96** The log is chronological. Its dates, from the first row to the last, are dates of the steps
of the run; no date comes a step or more after a later one. Dates that are not random never decrease. -/
theorem C96_chronological {w w' : World σ γ} {evs : List (Int × Event)}
    (hw : Spec.JournalRun env F Z time logId cols random fmt keep chains w)
    (hstep : 0 < w.clock.step) (h : Played env chains w evs w') :
    ∃ dates : List Int, Spec.loggedValues logId time evs = dates.map fmt ∧
      (∀ d ∈ dates, ∃ e ∈ evs, (∃ k : Nat, e.1 = w.clock.current + k * w.clock.step) ∧
        e.2.story ≠ none ∧ InStep random e.1 w.clock.step d) ∧
      dates.Pairwise (fun a b => a < b + w.clock.step) ∧
      (random = false → dates.Pairwise (· ≤ ·)) := by
  induction h with
  | nil w => exact ⟨[], by simp [Spec.loggedValues, emitted, tablesOf], by simp, by simp, by simp⟩
  | @exec w w1 w' l j ops logs hi h rest ih =>
    have e : Spec.loggedValues logId time ((w.clock.current, .exec j logs) :: l) =
        (tablesOf logId logs).flatMap (cellsOf · time) ++ Spec.loggedValues logId time l := by
      simp [Spec.loggedValues, emitted, tablesOf, Event.logs]
    rw [e]
    obtain ⟨hw1, c1, c2⟩ := journal_exec hw hi h
    obtain ⟨ds, h1, h2, h3, h4⟩ := ih hw1 (by rw [c2]; exact hstep)
    rw [c1, c2] at h2
    rw [c2] at h3
    -- the dates of this execution
    have hnow : ∀ c ∈ (tablesOf logId logs).flatMap (cellsOf · time),
        ∃ d, InStep random w.clock.current w.clock.step d ∧ c = fmt d := by
      intro c hc
      obtain ⟨table, ht, hc⟩ := List.mem_flatMap.1 hc
      obtain ⟨w2, s, g1, -, g3, g4, -⟩ := C96_in_a_run (before := []) (after := []) hw hstep.le
        (.exec hi h (.nil w1))
      obtain ⟨-, -, g5, -⟩ := g4 table ht
      rw [Frame.cellsOf_eq] at hc
      obtain ⟨r, hr, rfl⟩ := List.mem_map.1 hc
      obtain ⟨-, -, d, g6, g7⟩ := g5 r hr
      exact ⟨d, g6, g7⟩
    have hex : ∀ cs : List Cell, (∀ c ∈ cs, ∃ d, InStep random w.clock.current w.clock.step d ∧ c = fmt d) →
        ∃ ds : List Int, cs = ds.map fmt ∧ ∀ d ∈ ds, InStep random w.clock.current w.clock.step d := by
      intro cs
      induction cs with
      | nil => exact fun _ => ⟨[], rfl, by simp⟩
      | cons c cs ihc =>
        intro hcs
        obtain ⟨d, g1, rfl⟩ := hcs c (by simp)
        obtain ⟨ds, rfl, g2⟩ := ihc fun c hc => hcs c (by simp [hc])
        exact ⟨d :: ds, rfl, by simpa using ⟨g1, g2⟩⟩
    obtain ⟨now, n1, n2⟩ := hex _ hnow
    have lo : ∀ {t d : Int}, InStep random t w.clock.step d → t ≤ d ∧ d < t + w.clock.step ∧
        (random = false → d = t) := by
      intro t d hd
      cases random with
      | false =>
        have : d = t := by simpa [InStep] using hd
        exact ⟨by omega, by omega, fun _ => this⟩
      | true =>
        have hd : (∃ k : Nat, d = t + k * 1000000000) ∧ d < t + w.clock.step := by
          simpa only [InStep, if_true] using hd
        obtain ⟨⟨k, hk⟩, hd⟩ := hd
        exact ⟨by omega, hd, by simp⟩
    have later : ∀ b ∈ now ++ ds, w.clock.current ≤ b := by
      intro b hb
      rcases List.mem_append.1 hb with hb | hb
      · exact (lo (n2 b hb)).1
      · obtain ⟨ev, -, ⟨k, hk⟩, -, hd⟩ := h2 b hb
        have : 0 ≤ (k : Int) * w.clock.step := by positivity
        have := (lo hd).1
        omega
    refine ⟨now ++ ds, by rw [n1, h1, List.map_append], ?_, ?_, ?_⟩
    · intro d hd
      rcases List.mem_append.1 hd with hd | hd
      · exact ⟨_, List.mem_cons_self, ⟨0, by simp⟩, by simp [Event.story], n2 d hd⟩
      · obtain ⟨ev, g1, g2⟩ := h2 d hd
        exact ⟨ev, List.mem_cons_of_mem _ g1, g2⟩
    · refine List.pairwise_append.2 ⟨?_, h3, fun a ha b hb => ?_⟩
      · refine List.Pairwise.imp_of_mem (R := fun _ _ => True) (fun ha hb _ => ?_)
          (List.pairwise_of_forall fun _ _ => trivial)
        have := (lo (n2 _ ha)).2.1
        have := (lo (n2 _ hb)).1
        omega
      · have := (lo (n2 _ ha)).2.1
        have := later b (by simp [hb])
        omega
    · intro hr
      refine List.pairwise_append.2 ⟨?_, h4 hr, fun a ha b hb => ?_⟩
      · refine List.Pairwise.imp_of_mem (R := fun _ _ => True) (fun ha hb _ => ?_)
          (List.pairwise_of_forall fun _ _ => trivial)
        have := (lo (n2 _ ha)).2.2 hr
        have := (lo (n2 _ hb)).2.2 hr
        omega
      · have := (lo (n2 _ ha)).2.2 hr
        have := later b (by simp [hb])
        omega
  | @tick w w' l rest ih =>
    have e : Spec.loggedValues logId time ((w.clock.current, .tick) :: l) =
        Spec.loggedValues logId time l := by
      simp [Spec.loggedValues, emitted, Event.logs]
    rw [e]
    obtain ⟨ds, h1, h2, h3, h4⟩ := ih hw hstep
    refine ⟨ds, h1, fun d hd => ?_, h3, h4⟩
    obtain ⟨ev, g1, ⟨k, hk⟩, g3⟩ := h2 d hd
    refine ⟨ev, List.mem_cons_of_mem _ g1, ⟨k + 1, ?_⟩, g3⟩
    rw [hk]
    simp only [nextStep]
    push_cast
    ring

/-- **C96** in the files: after a run of `n` steps, the file of the log has exactly the emitted rows,
whose dates are dates of these steps, in chronological order -/
theorem C96_in_the_file {text : Cell → Text} {folder : Path} (so : SetOrder String) (fuel d : Nat)
    (duration : Int) (delete : Bool) (s s' : Sys σ γ) (ht : Tree s.fs)
    (hd : DepthBelow s.fs folder d) (hfuel : d < fuel)
    (hlen : chains.length ≤ s.circus.world.stories.length)
    (hw : Spec.JournalRun env F Z time logId cols random fmt keep chains s.circus.world)
    (hstep : 0 < s.circus.world.clock.step)
    (h : Sys.run env text folder so fuel chains duration delete s = .ok () s') :
    ∃ n events fs0, s.circus.world.clock.nIterations duration = .ok n ∧
      Played env chains s.circus.world events s'.circus.world ∧
      LogsWritten text folder fs0 (emitted events) s'.fs ∧
      ∃ dates : List Int, Spec.loggedValues logId time events = dates.map fmt ∧
        (∀ d ∈ dates, ∃ k : Nat, k < n.toNat ∧ InStep random
          (s.circus.world.clock.current + k * s.circus.world.clock.step) s.circus.world.clock.step d) ∧
        dates.Pairwise (fun a b => a < b + s.circus.world.clock.step) ∧
        (random = false → dates.Pairwise (· ≤ ·)) := by
  have hk : ∀ ops ∈ chains, ∀ op ∈ ops, KeepsDate op := by
    intro ops ho op hop
    obtain ⟨j, hj, rfl⟩ := List.mem_iff_getElem.1 ho
    refine C59_builtIn_keepsDate (env := env) (F := F) (Z := Z) op ?_
    exact journals_builtIn (hw.2 j _ _ (List.getElem?_eq_getElem hj)
      (List.getElem?_eq_getElem (by omega))) op hop
  obtain ⟨n, events, fs0, h0, h1, h2, -, -, h3⟩ := C60_logs so fuel d duration delete s s' hk ht hd hfuel h
  obtain ⟨dates, g1, g2, g3⟩ := C96_chronological hw hstep h1
  refine ⟨n, events, fs0, h0, h1, h3, dates, g1, fun d hd => ?_, g3⟩
  obtain ⟨e, he, -, -, g4⟩ := g2 d hd
  have : (e.1, e.2.story) ∈ schedule s.circus.world.clock.current s.circus.world.clock.step n.toNat
      chains.length := h2 ▸ List.mem_map_of_mem (f := fun e : Int × Event => (e.1, e.2.story)) he
  simp only [schedule, List.mem_flatMap, List.mem_range, List.mem_append, List.mem_map,
    List.mem_singleton] at this
  obtain ⟨k, hk, h5⟩ := this
  refine ⟨k, hk, ?_⟩
  rcases h5 with ⟨i, -, h5⟩ | h5
  · rw [(Prod.mk.inj h5).1]; exact g4
  · rw [← (Prod.mk.inj h5).1]; exact g4

end

/-! ### Non-vacuity -/

/-- "calls" are dated at random and journalled, "recharges" are not logged under this id -/
def exJournal : List (List (Op (World Nat (AnyGen Nat)))) :=
  [[Ops.randomValues exEnv (.ref 0) "TX" none,
    Ops.timestamp exEnv "TIME" true (fun n => .num n),
    Ops.fieldLogger "cdr" ["TIME", "CALLER", "TX"] []],
   [Ops.fieldLogger "other" ["PAYER"] []]]

example : Spec.JournalRun exEnv (fun _ => True) (fun _ => True) "TIME" "cdr" ["TIME", "CALLER", "TX"]
    true (fun n => .num n) True exJournal exStampWorld := by
  refine ⟨?_, ?_⟩
  · intro s hs
    simp only [exStampWorld, exStampStories, List.mem_cons, List.not_mem_nil, or_false] at hs
    rcases hs with rfl | rfl <;> decide
  · intro j ops s hj hs
    match j with
    | 0 =>
      cases hj; cases hs
      refine .inl ⟨[Ops.randomValues exEnv (.ref 0) "TX" none], [], [], by simp, rfl,
        ⟨by decide, by decide, by decide⟩, ?_, by simp, fun _ => ?_⟩
      · simp only [List.append_nil, List.mem_singleton, forall_eq]
        exact .randomValues _ _ _ ⟨⟨by decide, by decide, by decide⟩, by decide, by decide, by decide⟩
          fun _ _ => trivial
      · simp only [List.append_nil, List.mem_singleton, forall_eq]
        exact .adder (.randomValues _ _)
    | 1 =>
      cases hj; cases hs
      refine .inr fun op hop => ?_
      simp only [List.mem_singleton] at hop
      subst hop
      exact .fieldLogger _ _ _ (by decide)
    | j + 2 => simp [exJournal] at hj

/-- the first execution of "calls": the two members whose timer is 0, at two dates of the first step -/
example : (((World.execute exEnv (exJournal.headD []) 0).value? exStampWorld).map fun l =>
    (tablesOf "cdr" l).map fun f => (f.cols, f.rows)) =
    some [(["TIME", "CALLER", "TX"],
      [⟨.str "a", [.num 0, .str "a", .str "id_000"]⟩, ⟨.str "b", [.num 1000000000, .str "b", .str "id_001"]⟩])] := by
  decide +kernel

end Trumania
