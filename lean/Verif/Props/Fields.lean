import Verif.Proofs.Fields
import Verif.Props.Derived
import Verif.Props.Operations
import Verif.Props.Logger
import Verif.Props.Chain
import Verif.Props.Run

/-!
# Properties C82 and C83

C82: an operation touches nothing but what it is given: the fields it does not add keep their values,
the generators it is not given keep their states, nothing is logged under the ids of others.
C83: the transaction ids of a run are unique.
-/

namespace Trumania
open Spec World
variable {σ γ : Type}

/-! ### C82 -/

section
variable {env : Env σ γ} {F Z : Nat → Prop} {A : String → Prop} {D : Nat → Prop} {L : String → Prop}

/-- **C82** a field that no operation adds keeps its value from the first to the last operation: each
row of the output is a row of the input, with the same value in this field -/
theorem C82_field_kept {name : String} (hA : ∀ c, A c → Clear name c) {ops : List (Op (World σ γ))}
    (hops : ∀ op ∈ ops, OpWithin env F Z A D L op) {data out : Frame} {ls : List Logs}
    {w w' : World σ γ} (hr : Rect data) (h : Runs ops data w out ls w') :
    Rect out ∧ FieldKept name data out := by
  induction h with
  | nil => exact ⟨hr, fieldKept_refl _⟩
  | cons h _ ih =>
    obtain ⟨h1, h2⟩ := within_kept hA (hops _ (by simp)) h hr
    obtain ⟨h3, h4⟩ := ih (fun o ho => hops o (by simp [ho])) h1
    exact ⟨h3, fieldKept_trans h2 h4⟩

/-- **C82** what a logger writes in the end for a field is, for each member, the value that the field
had before operations that do not add it -/
theorem C82_field_logged {name : String} (hA : ∀ c, A c → Clear name c) {ops : List (Op (World σ γ))}
    (hops : ∀ op ∈ ops, OpWithin env F Z A D L op) {data out out' : Frame} {ls : List Logs} {logs : Logs}
    {w w' w2 : World σ γ} (hr : Rect data) (h : Runs ops data w out ls w') {logId : String}
    {cols : List String} (hc : name ∈ cols)
    (hl : Ops.fieldLogger logId cols [] out w' = .ok (out', logs) w2) :
    ∃ logged, logs = [(logId, logged)] ∧ logged.index = out.index ∧
      ∀ r' ∈ logged.rows, ∃ r ∈ data.rows, r.idx = r'.idx ∧ cell logged r' name = cell data r name := by
  obtain ⟨logged, h1, h2, rfl⟩ := fieldLogger_eq_ok.1 hl
  cases h2
  simp only [Ops.loggedData, Ops.explode, Ops.loggerCols, List.append_nil, if_true] at h1
  have h1 : (if cols = [] then Except.ok out else out.select cols) = .ok logged := h1
  rw [if_neg (List.ne_nil_of_mem hc)] at h1
  obtain ⟨e1, e2⟩ := Frame.select_ok h1
  refine ⟨logged, rfl, by simp [Frame.index, e2], fun r' hr' => ?_⟩
  rw [e2] at hr'
  obtain ⟨a, ha, rfl⟩ := List.mem_map.1 hr'
  obtain ⟨r, hr1, hr2, hr3⟩ := (C82_field_kept hA hops hr h).2.2 a ha
  refine ⟨r, hr1, hr2, ?_⟩
  rw [← hr3, cell, e1]
  have : ∀ l : List String, name ∈ l →
      (l.zip (l.map (cell out a))).find? (fun x => decide (x.1 = name)) = some (name, cell out a name) := by
    intro l hl
    induction l with
    | nil => simp at hl
    | cons c l ih =>
      simp only [List.map_cons, List.zip_cons_cons, List.find?_cons]
      by_cases hn : c = name
      · simp [hn]
      · simp only [hn, decide_false]
        exact ih ((List.mem_cons.1 hl).resolve_left fun e => hn e.symm)
  simp only [this cols hc]

/-- **C82** a generator that is given to no operation and to no story keeps its state -/
theorem C82_generator_kept {i : Nat} (hi : ¬ D i) {ops : List (Op (World σ γ))}
    (hops : ∀ op ∈ ops, OpWithin env F Z A D L op) {data out : Frame} {ls : List Logs}
    {w w' : World σ γ} (hw : NoTimerUses i w) (h : Runs ops data w out ls w') :
    w'.gens[i]? = w.gens[i]? ∧ NoTimerUses i w' := by
  induction h with
  | nil => exact ⟨rfl, hw⟩
  | cons h _ ih =>
    obtain ⟨h1, h2⟩ := within_gens hi (hops _ (by simp)) h
    obtain ⟨h3, h4⟩ := ih (fun o ho => hops o (by simp [ho])) (h1.noTimer hw)
    exact ⟨h3.trans (h2 hw), h4⟩

/-- **C82** operations log under the ids they were given only -/
theorem C82_log_ids {ops : List (Op (World σ γ))} (hops : ∀ op ∈ ops, OpWithin env F Z A D L op)
    {data out : Frame} {ls : List Logs} {w w' : World σ γ} (h : Runs ops data w out ls w') :
    ∀ logs ∈ ls, ∀ id ∈ logs.keys, L id := by
  induction h with
  | nil => simp
  | cons h _ ih =>
    intro logs hl id hid
    rcases List.mem_cons.1 hl with rfl | hl
    · by_contra hc
      exact (Dict.get?_eq_none_iff.1 (within_logs (hops _ (by simp)) hc h)) hid
    · exact ih (fun o ho => hops o (by simp [ho])) logs hl id hid

end

/-! ### C83 -/

theorem runs_split {W : Type} {a b : List (Op W)} {d o : Frame} {w w2 : W} {ls : List Logs}
    (h : Runs (a ++ b) d w o ls w2) :
    ∃ m w1 la lb, Runs a d w m la w1 ∧ Runs b m w1 o lb w2 ∧ ls = la ++ lb := by
  induction a generalizing d w ls with
  | nil => exact ⟨d, w, [], ls, .nil _ _, h, rfl⟩
  | cons op a ih =>
    cases h with
    | cons h1 h2 =>
      obtain ⟨m, w1, la, lb, h3, h4, rfl⟩ := ih h2
      exact ⟨m, w1, _ :: la, lb, .cons h1 h3, h4, rfl⟩

theorem runs_quiet {env : Env σ γ} {F Z : Nat → Prop} {A : String → Prop} {D : Nat → Prop}
    {L : String → Prop} {ops : List (Op (World σ γ))} (hops : ∀ op ∈ ops, OpWithin env F Z A D L op)
    {id : String} (hid : ¬ L id) {data out : Frame} {ls : List Logs} {w w' : World σ γ}
    (h : Runs ops data w out ls w') : ls.filterMap (·.get? id) = [] := by
  induction h with
  | nil => rfl
  | cons h _ ih =>
    rw [List.filterMap_cons, within_logs (hops _ (by simp)) hid h]
    exact ih fun o ho => hops o (by simp [ho])

theorem runs_same {env : Env σ γ} {F Z : Nat → Prop} {A : String → Prop} {D : Nat → Prop}
    {L : String → Prop} {ops : List (Op (World σ γ))} (hops : ∀ op ∈ ops, OpWithin env F Z A D L op)
    {i : Nat} (hi : ¬ D i) {data out : Frame} {ls : List Logs} {w w' : World σ γ}
    (h : Runs ops data w out ls w') : SameStories w w' := by
  induction h with
  | nil => exact .refl _
  | cons h _ ih =>
    exact (within_gens hi (hops _ (by simp)) h).1.trans (ih fun o ho => hops o (by simp [ho]))

theorem tablesOf_dict {logs : Logs} (hwf : Dict.WF logs) (id : String) :
    tablesOf id logs = (logs.get? id).toList := by
  induction logs with
  | nil => rfl
  | cons x l ih =>
    obtain ⟨h1, h2⟩ := List.nodup_cons.1 (show (x.1 :: l.map Prod.fst).Nodup from hwf)
    have ih := ih h2
    simp only [tablesOf, List.filter_cons] at ih ⊢
    by_cases hx : x.1 = id
    · have : Dict.get? l id = none := Dict.get?_eq_none_iff.2 (hx ▸ h1)
      rw [this] at ih
      simp only [hx, decide_true, if_true, List.map_cons, ih]
      simp [Dict.get?, hx]
    · simp only [hx, decide_false, Bool.false_eq_true, if_false, ih]
      simp [Dict.get?, hx]

theorem idsFrom_append (g : SeqGen) (a b : Nat) :
    Spec.idsFrom g (a + b) = Spec.idsFrom g a ++
      Spec.idsFrom { g with counter := g.counter + a } b := by
  simp only [Spec.idsFrom, List.range_add, List.map_append, List.map_map]
  congr 1
  refine List.map_congr_left fun k _ => ?_
  simp only [Function.comp_apply]
  congr 2
  push_cast
  omega

theorem idsFrom_nodup (g : SeqGen) (n : Nat) : (Spec.idsFrom g n).Nodup := by
  refine List.nodup_range.map fun a b hab => ?_
  have h := buildId_injective (Val.str.inj hab)
  omega

variable {R : Rng σ} {env : Env σ (AnyGen σ)} {F Z : Nat → Prop}

/-- what holds of the stories all along -/
def Spec.Fit (name : String) (i : Nat) (w : World σ (AnyGen σ)) : Prop :=
  ∀ s ∈ w.stories, (s.timer.map (·.id)).Nodup ∧ s.idField ≠ name ∧ i ∉ refs s.timerGen

theorem Spec.Fit.same {name : String} {i : Nat} {w w' : World σ (AnyGen σ)} (h : SameStories w w')
    (hw : Spec.Fit name i w) : Spec.Fit name i w' :=
  h.forall (P := fun s : Story σ => (s.timer.map (fun r : TimerRow => r.id)).Nodup ∧ s.idField ≠ name ∧ i ∉ refs s.timerGen)
    (fun s s' e hs => by
      refine ⟨?_, ?_, ?_⟩
      · have := e.2
        rw [Story.ids, Story.ids] at this
        rw [this]; exact hs.1
      · rw [e.1]; exact hs.2.1
      · rw [e.1]; exact hs.2.2) hw

theorem bystander_exec {i j : Nat} {name logId : String} {ops : List (Op (World σ (AnyGen σ)))}
    (hops : Spec.Bystander env F Z i logId ops) {w w' : World σ (AnyGen σ)} {logs : Logs}
    (hw : Spec.Fit name i w) (h : execute env ops j w = .ok logs w') :
    w'.gens[i]? = w.gens[i]? ∧ Spec.Fit name i w' ∧ tablesOf logId logs = [] := by
  obtain ⟨s, w1, hs, h1, h2, h3, h4⟩ := execute_gen_at (i := i) h
  obtain ⟨s', hs', h2⟩ := h2
  rw [hs] at hs'; cases hs'
  have nt : ∀ {w : World σ (AnyGen σ)}, Spec.Fit name i w → NoTimerUses i w :=
    fun h s hs => (h s hs).2.2
  rcases h2 with ⟨-, rfl, rfl⟩ | ⟨-, data, h2⟩
  · exact ⟨h4 (nt (hw.same h1)), (hw.same h1).same h3, rfl⟩
  · obtain ⟨hwf, ls, hr, hl⟩ := (chain_sequential env.logSet ops _ data _ w1).1 logs h2
    have e1 := runs_same hops (i := i) (by simp) hr
    have hw1 := (hw.same h1).same e1
    obtain ⟨e2, -⟩ := C82_generator_kept (i := i) (by simp) hops (nt (hw.same h1)) hr
    refine ⟨(h4 (nt hw1)).trans e2, hw1.same h3, ?_⟩
    rw [tablesOf_dict hwf, hl, runs_quiet hops (by simp) hr]
    rfl

theorem stamps_exec (hsem : env.sem = AnyGen.sem R) {i j : Nat} {name logId : String}
    {ops : List (Op (World σ (AnyGen σ)))} (hops : Spec.Stamps env F Z i name logId ops)
    {w w' : World σ (AnyGen σ)} {logs : Logs} {g : SeqGen} (hg : w.gens[i]? = some (.seq g))
    (hw : Spec.Fit name i w) (h : execute env ops j w = .ok logs w') :
    Spec.Fit name i w' ∧ ∃ n : Nat, w'.gens[i]? = some (.seq { g with counter := g.counter + n }) ∧
      ((tablesOf logId logs).flatMap (cellsOf · name)).Nodup ∧
      ∀ c ∈ (tablesOf logId logs).flatMap (cellsOf · name), c ∈ (Spec.idsFrom g n).map Cell.scalar := by
  obtain ⟨s, w1, hs, h1, h2, h3, h4⟩ := execute_gen_at (i := i) h
  obtain ⟨s', hs', h2⟩ := h2
  rw [hs] at hs'; cases hs'
  have nt : ∀ {w : World σ (AnyGen σ)}, Spec.Fit name i w → NoTimerUses i w :=
    fun h s hs => (h s hs).2.2
  rcases h2 with ⟨-, rfl, rfl⟩ | ⟨-, last, h2⟩
  · refine ⟨(hw.same h1).same h3, 0, ?_, by simp [tablesOf], by simp [tablesOf]⟩
    rw [h4 (nt (hw.same h1))]
    change w.gens[i]? = _
    simpa using hg
  obtain ⟨hwf, ls, hr, hl⟩ := (chain_sequential env.logSet ops _ last _ w1).1 logs h2
  obtain ⟨pre, mid, post, cols, hc, rfl, hpm, hpost⟩ := hops
  have hpre : ∀ op ∈ pre, OpWithin env F Z (Clear name) (· ≠ i) (· ≠ logId) op :=
    fun o ho => hpm o (by simp [ho])
  have hmid : ∀ op ∈ mid, OpWithin env F Z (Clear name) (· ≠ i) (· ≠ logId) op :=
    fun o ho => hpm o (by simp [ho])
  obtain ⟨d1, w2, l1, lb, r1, r2, rfl⟩ := runs_split hr
  cases r2 with
  | @cons _ _ _ d2 _ _ w3 _ la ls1 ha r3 =>
  obtain ⟨d3, w4, l2, lc, r4, r5, rfl⟩ := runs_split r3
  cases r5 with
  | @cons _ _ _ d4 _ _ w5 _ lf l3 hf r6 =>
  -- the first operations
  have hw0 := hw.same h1
  have rect0 : Rect (⟨[s.idField], actingRows s⟩ : Frame) := by
    intro r hr
    simp only [actingRows, List.mem_filterMap] at hr
    obtain ⟨t, -, ht⟩ := hr
    split at ht
    · cases ht; rfl
    · cases ht
  have hall : ∀ {l : List (Op (World σ (AnyGen σ)))}, (∀ op ∈ l, OpWithin env F Z (Clear name) (· ≠ i) (· ≠ logId) op) →
      ∀ op ∈ l, BuiltIn env F Z op := fun h op ho => (h op ho).builtIn
  have nd1 : d1.index.Nodup := (C44_in_execution (post := []) (by simpa using hall hpre)
    (hw s (List.mem_of_getElem? hs)).1 r1).1
  obtain ⟨rect1, k1, -⟩ := C82_field_kept (fun _ h => h) hpre rect0 r1
  obtain ⟨g1, -⟩ := C82_generator_kept (i := i) (by simp) hpre (nt hw0) r1
  have hw2 := hw0.same (runs_same hpre (i := i) (by simp) r1)
  have hname : name ∉ d1.cols := by
    rw [k1]
    simpa using fun e : name = s.idField => (hw s (List.mem_of_getElem? hs)).2.1 e.symm
  -- the stamps
  have hgen := C43_generate nd1 rect1 hname ha
  have g1 : w2.gens[i]? = some (.seq g) := g1.trans hg
  obtain ⟨e1, e2⟩ := call_seq hsem g1 hgen
  have hst3 : SameStories w2 w3 := by
    rw [SameStories, (call_sameRest hgen).1]
    exact forall₂_refl SameStatic.refl _
  have hw3 := hw2.same hst3
  obtain ⟨n2, i2⟩ : la = [] ∧ d2.index = d1.index := by
    obtain ⟨a1, a2, -⟩ := C43_built_in (.randomValues (.ref i) none) nd1 ha
    exact ⟨a1, a2⟩
  subst n2
  have rect2 : Rect d2 := by
    obtain ⟨added, values, h1, e⟩ := columnAdder_spec (env := env) (.randomValues (.ref i) none) ha
    obtain ⟨rfl, -⟩ := Prod.mk.inj e
    intro r hr
    have hn : d1.index.Nodup := nd1
    rw [Frame.mergeIndex_same_rows (Frame.ofColumn_ok h1).1 hn] at hr
    obtain ⟨k, hk, rfl⟩ := List.mem_iff_getElem.1 hr
    have hk' := hk
    rw [List.length_zipWith] at hk'
    simp only [List.getElem_zipWith, List.length_append]
    rw [rect1 _ (List.getElem_mem (by omega)), ofColumn_rect h1 _ (List.getElem_mem (by omega))]
    simp [Frame.mergeIndex, Frame.mergedCols]
  -- until they are logged
  have nd2 : d2.index.Nodup := i2 ▸ nd1
  have nd3 := (C44_at_each_point (hall hmid) nd2 r4).1
  obtain ⟨g4, -⟩ := C82_generator_kept (i := i) (by simp) hmid (nt hw3) r4
  have hw4 := hw3.same (runs_same hmid (i := i) (by simp) r4)
  obtain ⟨rfl, rfl⟩ := C44_loggers hf
  obtain ⟨logged, rfl, hli, hlr⟩ := C82_field_logged (fun _ h => h) hmid rect2 r4 hc hf
  obtain ⟨g5, -⟩ := C82_generator_kept (i := i) (by simp) hpost (nt hw4) r6
  have hw5 := hw4.same (runs_same hpost (i := i) (by simp) r6)
  have htab : tablesOf logId logs = [logged] := by
    rw [tablesOf_dict hwf, hl]
    have q1 := runs_quiet hpre (id := logId) (fun h => h rfl) r1
    have q2 := runs_quiet hmid (id := logId) (fun h => h rfl) r4
    have q3 := runs_quiet hpost (id := logId) (fun h => h rfl) r6
    simp [List.filterMap_append, List.filterMap_cons, q1, q2, q3, Dict.get?, foldVals]
  rw [htab]
  simp only [List.flatMap_cons, List.flatMap_nil, List.append_nil]
  have hvals : cellsOf d2 name = (Spec.idsFrom g d1.rows.length).map Cell.scalar := by
    rw [e1, SeqGen.generate, build_ids]
    simp [Spec.idsFrom, arange, AnyGen.pyInt_natCast]
  refine ⟨hw5.same h3, d1.rows.length, ?_, ?_, ?_⟩
  · rw [h4 (nt hw5), g5, g4, e2]
    simp [SeqGen.generate, AnyGen.pyInt_natCast]
  · have n1 : (d2.rows.map fun r => cell d2 r name).Nodup := by
      rw [← Frame.cellsOf_eq, hvals]
      exact (idsFrom_nodup _ _).map fun a b hab => by cases hab; rfl
    have n2 : (logged.rows.map (·.idx)).Nodup := by
      rw [← hli] at nd3; exact nd3
    rw [Frame.cellsOf_eq]
    refine List.Nodup.map_on (fun a ha b hb hab => ?_) (List.Nodup.of_map _ n2)
    obtain ⟨r, hr1, hr2, hr3⟩ := hlr a ha
    obtain ⟨q, hq1, hq2, hq3⟩ := hlr b hb
    have : r = q := List.inj_on_of_nodup_map n1 hr1 hq1 (by rw [← hr3, ← hq3, hab])
    exact List.inj_on_of_nodup_map n2 ha hb (by rw [← hr2, ← hq2, this])
  · intro c hcell
    rw [← hvals]
    rw [Frame.cellsOf_eq] at hcell ⊢
    obtain ⟨r', hr', rfl⟩ := List.mem_map.1 hcell
    obtain ⟨r, hr1, -, hr3⟩ := hlr r' hr'
    rw [hr3]
    exact List.mem_map_of_mem hr1

/-- **C83** The transaction ids of a run are unique: when stories stamp what their members do with
ids of one sequential generator, which nothing else uses, all the ids they log under one log id, in all
the executions of all these stories, are distinct; they are ids that this generator gave. -/
theorem C83_unique_ids (hsem : env.sem = AnyGen.sem R) {i : Nat} {name logId : String}
    {chains : List (List (Op (World σ (AnyGen σ))))}
    (hc : ∀ ops ∈ chains, Spec.Stamps env F Z i name logId ops ∨ Spec.Bystander env F Z i logId ops)
    {w w' : World σ (AnyGen σ)} {evs : List (Int × Event)} {g : SeqGen}
    (hg : w.gens[i]? = some (.seq g)) (hw : Spec.Fit name i w) (h : Played env chains w evs w') :
    (Spec.loggedValues logId name evs).Nodup ∧
    ∃ total : Nat, w'.gens[i]? = some (.seq { g with counter := g.counter + total }) ∧
      ∀ c ∈ Spec.loggedValues logId name evs, c ∈ (Spec.idsFrom g total).map Cell.scalar := by
  induction h generalizing g with
  | nil w => exact ⟨by simp [Spec.loggedValues, emitted, tablesOf], 0, by simpa using hg,
      by simp [Spec.loggedValues, emitted, tablesOf]⟩
  | @exec w w1 w' l j ops logs hi h rest ih =>
    have e : Spec.loggedValues logId name ((w.clock.current, .exec j logs) :: l) =
        (tablesOf logId logs).flatMap (cellsOf · name) ++ Spec.loggedValues logId name l := by
      simp [Spec.loggedValues, emitted, tablesOf, Event.logs]
    rw [e]
    rcases hc ops (List.mem_of_getElem? hi) with hs | hb
    · obtain ⟨hw1, n, hg1, hn, hmem⟩ := stamps_exec hsem hs hg hw h
      obtain ⟨hn2, m, hg2, hmem2⟩ := ih hg1 hw1
      refine ⟨?_, n + m, ?_, fun c hcm => ?_⟩
      · refine List.nodup_append.2 ⟨hn, hn2, fun a ha b hb hab => ?_⟩
        subst hab
        have := (idsFrom_nodup g (n + m)).map (f := Cell.scalar) fun a b hab => by cases hab; rfl
        rw [idsFrom_append, List.map_append, List.nodup_append] at this
        exact this.2.2 a (hmem a ha) a (hmem2 a hb) rfl
      · rw [hg2]
        simp [Int.add_assoc]
      · rw [idsFrom_append, List.map_append, List.mem_append]
        rcases List.mem_append.1 hcm with h | h
        · exact .inl (hmem c h)
        · exact .inr (hmem2 c h)
    · obtain ⟨hg1, hw1, ht⟩ := bystander_exec hb hw h
      rw [ht, List.flatMap_nil, List.nil_append]
      exact ih (hg1.trans hg) hw1
  | @tick w w' l rest ih =>
    have e : Spec.loggedValues logId name ((w.clock.current, .tick) :: l) =
        Spec.loggedValues logId name l := by
      simp [Spec.loggedValues, emitted, Event.logs]
    rw [e]
    refine ih ?_ hw
    simp only [nextStep, World.gens, List.getElem?_map] at hg ⊢
    rw [hg, hsem]
    rfl

/-- **C83** in the files: after a run, the file of the log has exactly the emitted rows, whose ids are
distinct -/
theorem C83_unique_in_the_file (hsem : env.sem = AnyGen.sem R) {i : Nat} {name logId : String}
    {chains : List (List (Op (World σ (AnyGen σ))))}
    (hc : ∀ ops ∈ chains, Spec.Stamps env F Z i name logId ops ∨ Spec.Bystander env F Z i logId ops)
    {fmt : Cell → Text} {folder : Path} (so : SetOrder String) (fuel d : Nat) (duration : Int)
    (delete : Bool) (s s' : Sys σ (AnyGen σ)) (ht : Tree s.fs) (hd : DepthBelow s.fs folder d)
    (hfuel : d < fuel) {g : SeqGen} (hg : s.circus.world.gens[i]? = some (.seq g))
    (hw : Spec.Fit name i s.circus.world)
    (h : Sys.run env fmt folder so fuel chains duration delete s = .ok () s') :
    ∃ events fs0, Played env chains s.circus.world events s'.circus.world ∧
      LogsWritten fmt folder fs0 (emitted events) s'.fs ∧
      (Spec.loggedValues logId name events).Nodup := by
  have hk : ∀ ops ∈ chains, ∀ op ∈ ops, KeepsDate op := by
    intro ops ho op hop
    refine C59_builtIn_keepsDate (env := env) (F := F) (Z := Z) op ?_
    rcases hc ops ho with ⟨pre, mid, post, cols, -, rfl, h1, h2⟩ | hb
    · simp only [List.mem_append, List.mem_cons] at hop
      rcases hop with hop | rfl | hop | rfl | hop
      · exact (h1 op (by simp [hop])).builtIn
      · exact .adder (.randomValues (.ref i) none)
      · exact (h1 op (by simp [hop])).builtIn
      · exact .fieldLogger _ _ _
      · exact (h2 op hop).builtIn
    · exact (hb op hop).builtIn
  obtain ⟨n, events, fs0, -, h1, -, -, -, h2⟩ := C60_logs so fuel d duration delete s s' hk ht hd hfuel h
  exact ⟨events, fs0, h1, h2, (C83_unique_ids hsem hc hg hw h1).1⟩

/-! ### Non-vacuity -/

/-- two stories with the same transaction ids, one of which drops rows and adds other fields before it logs -/
def exStamping : List (List (Op (World Nat (AnyGen Nat)))) :=
  [[Ops.timestamp exEnv "TIME" false (fun n => .num n),
    Ops.randomValues exEnv (.ref 0) "TX" none,
    Ops.applySeries ["CALLER"] "DROP" (fun cs => .ok ((cs.headD []).map fun c => .bool (decide (c = .str "b")))),
    Ops.dropRow "DROP",
    Ops.fieldLogger "cdr" ["TX", "CALLER"] []],
   [Ops.randomValues exEnv (.ref 0) "TX" none,
    Ops.fieldLogger "cdr" ["TX"] [],
    Ops.fieldLogger "other" ["PAYER"] []]]

def exStampStories : List (Story Nat) :=
  [{ exStory with timer := [⟨.str "a", defaultState, some 0⟩, ⟨.str "b", defaultState, some 0⟩,
      ⟨.str "c", defaultState, some 1⟩] },
   { exStory2 with timer := [⟨.str "a", defaultState, some 0⟩, ⟨.str "b", defaultState, some 1⟩,
      ⟨.str "c", defaultState, some (-1)⟩] }]

def exStampWorld : World Nat (AnyGen Nat) := { exWorld with stories := exStampStories }

example : Spec.Fit "TX" 0 exStampWorld := by
  intro s hs
  simp only [exStampWorld, exStampStories, List.mem_cons, List.not_mem_nil, or_false] at hs
  rcases hs with rfl | rfl
  · exact ⟨by decide, by decide, by simp [exStory, refs]⟩
  · exact ⟨by decide, by decide, by simp [exStory, exStory2, refs]⟩

example : ∀ ops ∈ exStamping, Spec.Stamps exEnv (fun _ => True) (fun _ => True) 0 "TX" "cdr" ops ∨
    Spec.Bystander exEnv (fun _ => True) (fun _ => True) 0 "cdr" ops := by
  intro ops ho
  left
  simp only [exStamping, List.mem_cons, List.not_mem_nil, or_false] at ho
  rcases ho with rfl | rfl
  · refine ⟨[Ops.timestamp exEnv "TIME" false (fun n => .num n)],
      [Ops.applySeries ["CALLER"] "DROP"
        (fun cs => .ok ((cs.headD []).map fun c => .bool (decide (c = .str "b")))), Ops.dropRow "DROP"],
      [], ["TX", "CALLER"], by simp, rfl, ?_, by simp⟩
    intro op hop
    simp only [List.cons_append, List.nil_append, List.mem_cons, List.not_mem_nil, or_false] at hop
    rcases hop with rfl | rfl | rfl
    · exact .timestamp _ _ _ ⟨by decide, by decide, by decide⟩
    · exact .applySeries _ _ _ ⟨by decide, by decide, by decide⟩
    · exact .dropRow _
  · refine ⟨[], [], [Ops.fieldLogger "other" ["PAYER"] []], ["TX"], by simp, rfl, by simp, ?_⟩
    intro op hop
    simp only [List.mem_cons, List.not_mem_nil, or_false] at hop
    subst hop
    exact .fieldLogger _ _ _ (by decide)

/-- two executions of each story: "b" draws an id, and is dropped -/
example : ((do
    let a ← execute exEnv (exStamping.headD []) 0
    let b ← execute exEnv (exStamping.getD 1 []) 1
    let c ← execute exEnv (exStamping.headD []) 0
    let d ← execute exEnv (exStamping.getD 1 []) 1
    pure ([a, b, c, d].map fun l => (tablesOf "cdr" l).flatMap (cellsOf · "TX"))).value? exStampWorld) =
    some [[.str "id_000"], [.str "id_002"], [.str "id_003"], [.str "id_004"]] := by
  decide +kernel

/-- a field added twice is lost: both columns are renamed, and it cannot be logged -/
example : ((World.chain exEnv.logSet [Ops.randomValues exEnv (.ref 0) "TX" none,
      Ops.randomValues exEnv (.ref 0) "TX" none]
        ⟨["CALLER"], [⟨.str "a", [.str "a"]⟩]⟩).value? exStampWorld).map (·.1) =
      some ⟨["CALLER", "TX_x", "TX_y"], [⟨.str "a", [.str "a", .str "id_000", .str "id_001"]⟩]⟩ ∧
    (World.chain exEnv.logSet [Ops.randomValues exEnv (.ref 0) "TX" none,
      Ops.randomValues exEnv (.ref 0) "TX" none, Ops.fieldLogger "cdr" ["TX"] []]
        ⟨["CALLER"], [⟨.str "a", [.str "a"]⟩]⟩).raised? exStampWorld = some .keyError := by
  decide +kernel

end Trumania
