import Verif.Spec.CdrTrigger
import Verif.Proofs.CdrTrigger
import Verif.Props.CdrStatus
import Verif.Props.CdrBuild

/-!
# C117: who is topped up, and when; C116 and C117 for the circus that the scenario builds
-/

namespace Trumania
namespace Cdr
open Spec World
variable {σ γ : Type} {env : Env σ γ} {fmt : Int → Cell} {c : Cast} {g : γ}

/-! ### Counts -/

theorem countOf_append {logId key : String} {m : Val} {l l' : Logs} :
    countOf logId key m (l ++ l') = countOf logId key m l + countOf logId key m l' := by
  simp [countOf, tablesOf]

theorem talks_append {m : Val} {l l' : Logs} : talks m (l ++ l') = talks m l + talks m l' := by
  rw [talks, countOf_append, countOf_append, talks, talks]
  omega

theorem topUps_append {m : Val} {l l' : Logs} : topUps m (l ++ l') = topUps m l + topUps m l' := countOf_append

theorem countOf_quiet {logId key : String} {m : Val} {l : Logs} (h : tablesOf logId l = []) :
    countOf logId key m l = 0 := by
  rw [countOf, h]
  rfl

theorem timerIn_of {w : World σ γ} {k : Nat} {s : Story σ} (h : w.stories[k]? = some s) (id : Val) :
    timerIn w k id = timerOf s id := by
  rw [timerIn, h]
  rfl

theorem due_iff {w : World σ γ} {k : Nat} {s : Story σ} (h : w.stories[k]? = some s) {id : Val} :
    Due w k id ↔ Scheduled s id := by
  rw [Due, timerIn_of h]
  rfl

/-- the rows of the calls and messages of a number are those of its SIM -/
theorem talk_named {t : Talk} {J : Cell → Bool → Prop} {logId : String} {cols : List String}
    {value : (String → Cell) → Prop} {data : Frame} {P P' : List Population} {p : Population}
    {ao am ac : Attribute} {fr sr : List (Val × Val × Rat)} {ls : List Logs} {f tbl : Frame} {p' : Population}
    {ac' : Attribute} (h : TalkRun t J logId cols value data P P' p ao am ac fr sr ls f tbl p' ac')
    (hcols : "MSISDN_A" ∈ cols) (ham : OneValueEach am) {s m : Val}
    (hm : Holds am s (.scalar m)) (hu : ∀ s', Holds am s' (.scalar m) → s' = s) :
    ∀ r ∈ tbl.rows, cell tbl r "MSISDN_A" = .scalar m ↔ valueAt f r.idx "SIM_A" = .scalar s := by
  intro r hr
  have hi : r.idx ∈ f.index := by
    rw [← h.index]
    exact List.mem_map.2 ⟨r, hr, rfl⟩
  obtain ⟨x, -, hx⟩ := h.dialled r.idx hi
  rw [h.rows r hr _ hcols, hx.numA, hx.simA]
  constructor
  · intro e
    injection e with e
    have := hx.numA_of
    rw [e] at this
    rw [hu _ this]
  · intro e
    injection e with e
    have := hx.numA_of
    rw [e] at this
    exact holds_unique ham this hm

/-- the number of calls and messages of a SIM in an execution: none or one -/
theorem talk_count {o : Orders} {w w' : World σ γ} {logs : Logs} {logId : String} {p : Population} {am ac : Attribute} {f tbl : Frame}
    {ac' : Attribute} {s s' : Story σ} (hid : logId = "voice_cdr" ∨ logId = "sms_cdr")
    (h : TalkExec env o c w w' logs logId p am ac f tbl ac' s s') (hw : Plays env c w) {id m : Val}
    (hm : Numbered w c.t.sims id m) :
    talks m logs = 1 ∧ (∃ i ∈ f.index, valueAt f i "SIM_A" = .scalar id) ∨
    talks m logs = 0 ∧ ∀ i ∈ f.index, valueAt f i "SIM_A" ≠ .scalar id := by
  obtain ⟨cols, value, ao, rf, rs, data, ls, p', hc, -, -, hr⟩ := h.run
  have hwf := hw.wf p (List.mem_of_getElem? h.pop)
  have hv := fun (s : Val) (v : Cell) => valueOf_iff (s := s) (v := v) h.pop hwf h.numbers
  have hnamed := talk_named hr hc (hwf.values _ h.numbers) ((hv _ _).1 hm.has) fun s' hs' =>
    hm.only s' ((hv _ _).2 hs')
  have ht : talks m logs = tbl.rows.countP fun r => decide (cell tbl r "MSISDN_A" = .scalar m) := by
    rcases hid with rfl | rfl
    · rw [talks, countOf_quiet (h.quiet "sms_cdr" (by decide)), countOf, h.tables]
      simp
    · rw [talks, countOf_quiet (h.quiet "voice_cdr" (by decide)), countOf, h.tables]
      simp
  have hidx : ∀ r ∈ tbl.rows, r.idx ∈ f.index := fun r hr' => by
    rw [← hr.index]
    exact List.mem_map.2 ⟨r, hr', rfl⟩
  have hnd : (tbl.rows.map (·.idx)).Nodup := by
    have := hr.nodup
    rw [← hr.index] at this
    exact this
  by_cases hex : ∃ i ∈ f.index, valueAt f i "SIM_A" = .scalar id
  · refine .inl ⟨?_, hex⟩
    obtain ⟨i, hi, hs⟩ := hex
    have hi' := hi
    rw [← hr.index] at hi'
    obtain ⟨r, hr', rfl⟩ := mem_index.1 hi'
    have hfil : tbl.rows.filter (fun r => decide (cell tbl r "MSISDN_A" = .scalar m)) = [r] := by
      refine filter_label hnd hr' fun x hx => ?_
      rw [decide_eq_true_eq, hnamed x hx]
      constructor
      · intro e
        exact hr.sims x.idx (hidx x hx) r.idx hi (e.trans hs.symm)
      · intro e
        rw [e]; exact hs
    rw [ht, List.countP_eq_length_filter, hfil]
    rfl
  · push Not at hex
    refine .inr ⟨?_, hex⟩
    rw [ht, List.countP_eq_zero]
    intro r hr' e
    exact hex _ (hidx r hr') ((hnamed r hr').1 (of_decide_eq_true e))

/-- the logs of the first three stories -/
theorem first_quiet {w w' : World σ γ} (hw : Plays env c w) {i : Nat}
    {ops : List (Op (World σ γ))} {logs : Logs} (hi : (c.chains env fmt)[i]? = some ops) (h3 : i < 3)
    (h : World.execute env ops i w = .ok logs w') : ∀ id ∈ ["voice_cdr", "sms_cdr", "topups"],
      tablesOf id logs = [] := by
  obtain ⟨s, -, hs, -⟩ := execute_gen_at (i := 0) h
  rcases execute_runs_pops hs h with ⟨-, -, rfl⟩ | ⟨w1, out, ls, -, -, hr, hl⟩
  · exact fun _ _ => by simp [tablesOf]
  intro id hid
  have hid' : id ∈ ["voice_cdr", "sms_cdr", "topups", "mobility_logs"] := by
    simp only [List.mem_cons, List.not_mem_nil, or_false] at hid ⊢
    tauto
  have hne : id ≠ "mobility_logs" := by
    rintro rfl
    revert hid
    decide
  match i with
  | 0 =>
    cases hi
    rw [hl, runs_quiet down_within (fun h => h hid') hr]
    rfl
  | 1 =>
    cases hi
    rw [hl, runs_quiet repair_within (fun h => h hid') hr]
    rfl
  | 2 =>
    cases hi
    have hfield : ["CELL_ID", "CELL_ID", "A_ID", "SIM_ID", "A_ID", "A_ID"][2]? = some s.idField := by
      rw [← hw.fields, List.getElem?_map, hs]
      rfl
    have hf : s.idField = "A_ID" := (Option.some.inj hfield).symm
    obtain ⟨n1, n2, n3⟩ := acting_names (hw.ids s (List.mem_of_getElem? hs)) hf
    obtain ⟨r, hr1, hr2⟩ := hw.rels c.places (by simp [Cast.rels])
    obtain ⟨q, cc, hq, hcc⟩ := hw.subs
    obtain ⟨tbl, p', ac', hm⟩ := mobilityOps_runs env.orders (w := started w 2 s) hq
      (hw.wf q (List.mem_of_getElem? hq)) hcc hr1 hr2 (by rw [hf]) n1 n2 n3 hr
    rw [hl, hm.quiet id hne]
    rfl
  | k + 3 => omega

/-- logs that tell of nothing else -/
theorem others_quiet (hd : c.Distinct) (hpl : c.Placed) {w w' : World σ γ} (hw : Plays env c w) {i : Nat}
    {ops : List (Op (World σ γ))} {logs : Logs} (hi : (c.chains env fmt)[i]? = some ops)
    (h : World.execute env ops i w = .ok logs w') {s : Story σ} (hs : w.stories[c.t.topups]? = some s) (m : Val) :
    (i ≠ 4 → i ≠ 5 → talks m logs = 0) ∧ (i ≠ 3 → topUps m logs = 0) := by
  by_cases h3 : i < 3
  · have hq := first_quiet hw hi h3 h
    refine ⟨fun _ _ => ?_, fun _ => countOf_quiet (hq _ (by decide))⟩
    rw [talks, countOf_quiet (hq _ (by decide)), countOf_quiet (hq _ (by decide))]
  by_cases h45 : i = 4 ∨ i = 5
  · refine ⟨by omega, fun _ => ?_⟩
    rcases talk_exec hd hpl hw hi h45 h hs env.orders with ⟨rfl, -⟩ | ⟨logId, p, am, ac, f, tbl, ac', s', hlog, he⟩
    · rfl
    · refine countOf_quiet (he.quiet _ ?_)
      rcases hlog with rfl | rfl <;> decide
  by_cases h33 : i = 3
  · subst h33
    refine ⟨fun _ _ => ?_, fun h => absurd rfl h⟩
    rw [hpl.topups] at hs
    rcases topup_exec hw hi h hs env.orders with rfl | ⟨p, am, f, tbl, he⟩
    · rfl
    · rw [talks, countOf_quiet (he.quiet _ (by decide)), countOf_quiet (he.quiet _ (by decide))]
  · have : i < (c.chains env fmt).length := (List.getElem?_eq_some_iff.1 hi).1
    have h6 : (c.chains env fmt).length = 6 := rfl
    omega

/-- **C117** An execution of another story than the top-ups schedules a SIM for a top-up only when it logs a call or
a message of its number; it then does, for the next execution of the top-ups, if and only if the object that
decides on recharges answers true to the balance that remains. -/
theorem C117_trigger (hd : c.Distinct) (hpl : c.Placed) {w w' : World σ γ} (hw : Plays env c w) {i : Nat}
    {ops : List (Op (World σ γ))} {logs : Logs} (hi : (c.chains env fmt)[i]? = some ops) (h3 : i ≠ 3)
    (h : World.execute env ops i w = .ok logs w') {id m : Val}
    (hm : Numbered w c.t.sims id m) (hs : ∃ s, w.stories[c.t.topups]? = some s) :
    topUps m logs = 0 ∧
    ((id = .na ∨ talks m logs = 0) ∧ timerIn w' c.t.topups id = timerIn w c.t.topups id ∨
    id ≠ .na ∧ talks m logs = 1 ∧ ∃ a v, ValueOf w' c.t.sims "MAIN_ACCT" id a ∧
      (∀ g, Began env w c.t.rechargeTrigger g → Replies env g a v) ∧
      (v = .bool true → timerIn w' c.t.topups id = some (some 0)) ∧
      (v ≠ .bool true → timerIn w' c.t.topups id = timerIn w c.t.topups id)) := by
  obtain ⟨s, hs⟩ := hs
  obtain ⟨q1, q2⟩ := others_quiet hd hpl hw hi h hs m
  refine ⟨q2 h3, ?_⟩
  by_cases h45 : i = 4 ∨ i = 5
  · rcases talk_exec hd hpl hw hi h45 h hs env.orders with ⟨rfl, -, s', k1, -, k3⟩ | ⟨logId, p, am, ac, f, tbl, ac', s', hlog, he⟩
    · exact .inl ⟨.inr rfl, by rw [timerIn_of k1, timerIn_of hs, k3]⟩
    · rw [timerIn_of he.story, timerIn_of hs]
      by_cases hna : id = .na
      · exact .inl ⟨.inl hna, he.prompted.kept id (.inl hna)⟩
      rcases talk_count hlog he hw hm with ⟨h1, i, hi, hsim⟩ | ⟨h1, hno⟩
      · refine .inr ⟨hna, h1, ?_⟩
        obtain ⟨v, v1, v2, v3⟩ := he.prompted.prompt i hi id hna hsim
        obtain ⟨cols, value, ao, rf, rs, data, ls, p', hc, -, -, hr⟩ := he.run
        exact ⟨valueAt f i "MAIN_ACCT_NEW", v, ⟨p', ac', hr.pop, hr.acct, (hr.accounts _ _).2 (.inl ⟨i, hi, hsim, rfl⟩)⟩,
          v1, fun e => (v2 e).2, v3⟩
      · exact .inl ⟨.inr h1, he.prompted.kept id (.inr hno)⟩
  · push Not at h45
    obtain ⟨s', k1, -, k3⟩ := other_exec hpl hi h45.1 h45.2 h3 h hs
    exact .inl ⟨.inr (q1 h45.1 h45.2), by rw [timerIn_of k1, timerIn_of hs, k3]⟩

/-- **C117** An execution of the top-ups logs at most one for each number, and only for a SIM that was to be topped
up now; it is no longer afterwards, and nobody else becomes so. -/
theorem C117_topup (hd : c.Distinct) (hpl : c.Placed) {w w' : World σ γ} (hw : Plays env c w)
    {ops : List (Op (World σ γ))} {logs : Logs} (hi : (c.chains env fmt)[3]? = some ops)
    (h : World.execute env ops 3 w = .ok logs w') (hdo : Dormant w c.t.topups) {id m : Val}
    (hm : Numbered w c.t.sims id m) :
    talks m logs = 0 ∧ (Due w' c.t.topups id → Due w c.t.topups id ∧ topUps m logs = 0) ∧
      (topUps m logs = 0 ∨ topUps m logs = 1 ∧ timerIn w c.t.topups id = some (some 0)) := by
  obtain ⟨s, hs, hgen⟩ := hdo
  have hq := (others_quiet hd hpl hw hi h hs m).1 (by decide) (by decide)
  have hn := hw.ids s (List.mem_of_getElem? hs)
  have hf := chain_fine (env := env) (fmt := fmt) (c := c) (F := (· ≠ c.t.topups))
    (by rw [hpl.repair, hpl.topups]; decide) (by rw [hpl.calls, hpl.topups]; decide)
    (by rw [hpl.sms, hpl.topups]; decide) hi (.inr (by decide))
  have h' := h
  rw [← hpl.topups] at h'
  obtain ⟨s', k1, k2, k3⟩ := dormant_exec_self (fun op hop => (hf op hop).1) hs hn hgen h'
  have hs3 := hs
  rw [hpl.topups] at hs3
  have hcount : topUps m logs = 0 ∨ topUps m logs = 1 ∧ Acts s id := by
    rcases topup_exec hw hi h hs3 env.orders with rfl | ⟨p, am, f, tbl, he⟩
    · exact .inl rfl
    obtain ⟨ao, ac, ag, ls, p', ac', hr⟩ := he.run
    have hwf := hw.wf p (List.mem_of_getElem? he.pop)
    have hv := fun (s : Val) (v : Cell) => valueOf_iff (s := s) (v := v) he.pop hwf he.numbers
    have ht : topUps m logs = tbl.rows.countP fun r => decide (cell tbl r "CUSTOMER_NUMBER" = .scalar m) := by
      rw [topUps, countOf, he.tables]
      simp
    have hidx : ∀ r ∈ tbl.rows, r.idx ∈ f.index := fun r hr' => by
      rw [← hr.index]
      exact List.mem_map.2 ⟨r, hr', rfl⟩
    have hnd : (tbl.rows.map (·.idx)).Nodup := by
      have := hr.nodup
      rw [← hr.index] at this
      exact this
    have hnamed : ∀ r ∈ tbl.rows, cell tbl r "CUSTOMER_NUMBER" = .scalar m ↔ r.idx = id := by
      intro r hr'
      have h1 := hr.number _ (hidx r hr')
      rw [hr.rows r hr' _ (by decide)]
      constructor
      · intro e
        rw [e] at h1
        exact hm.only _ ((hv _ _).2 h1)
      · intro e
        rw [e] at h1 ⊢
        exact holds_unique (hwf.values _ he.numbers) h1 ((hv _ _).1 hm.has)
    by_cases hex : ∃ r ∈ tbl.rows, r.idx = id
    · obtain ⟨r, hr', e⟩ := hex
      refine .inr ⟨?_, ?_⟩
      · have hfil : tbl.rows.filter (fun r => decide (cell tbl r "CUSTOMER_NUMBER" = .scalar m)) = [r] := by
          refine filter_label hnd hr' fun x hx => ?_
          rw [decide_eq_true_eq, hnamed x hx, e]
        rw [ht, List.countP_eq_length_filter, hfil]
        rfl
      · have := hr.labels _ (hidx r hr')
        rw [e] at this
        exact this
    · push Not at hex
      refine .inl ?_
      rw [ht, List.countP_eq_zero]
      intro r hr' e
      exact hex r hr' ((hnamed r hr').1 (of_decide_eq_true e))
  rw [due_iff k1, due_iff hs, timerIn_of hs]
  refine ⟨hq, fun hdue => ⟨(k3 id).2 hdue, ?_⟩, ?_⟩
  · exact hcount.elim (fun h => h) fun h => absurd hdue ((k3 id).1 h.2)
  · refine hcount.imp (fun h => h) fun h => ⟨h.1, ?_⟩
    exact (Story.mem_activeIds hn).1 (Story.acts_iff.1 h.2)

open Classical in
/-- 1 if the member is due -/
noncomputable def dueCount (w : World σ γ) (k : Nat) (id : Val) : Nat := if Due w k id then 1 else 0

/-- one execution -/
theorem topups_step (hd : c.Distinct) (hpl : c.Placed) {w w' : World σ γ} (hw : Plays env c w) {i : Nat}
    {ops : List (Op (World σ γ))} {logs : Logs} (hi : (c.chains env fmt)[i]? = some ops)
    (h : World.execute env ops i w = .ok logs w') (hdo : Dormant w c.t.topups) {id m : Val}
    (hm : Numbered w c.t.sims id m) : Dormant w' c.t.topups ∧ Numbered w' c.t.sims id m ∧
    topUps m logs + dueCount w' c.t.topups id ≤ talks m logs + dueCount w c.t.topups id := by
  have hdo' := hdo
  obtain ⟨s, hs, hgen⟩ := hdo'
  have hkeep := C110_numbers_kept hd hw hi h (name := "MSISDN") (by decide)
  have hsame := execute_sameStories (fun op hop =>
    (chains_fine ops (List.mem_of_getElem? hi) op hop).1) h
  refine ⟨?_, ⟨(hkeep _ _).2 hm.has, fun s' hs' => hm.only s' ((hkeep _ _).1 hs')⟩, ?_⟩
  · have hsame : List.Forall₂ World.SameStatic w.stories w'.stories := hsame
    obtain ⟨hlt, he⟩ := List.getElem?_eq_some_iff.1 hs
    have h2 := (List.forall₂_iff_get.1 hsame).2 _ hlt (hsame.length_eq ▸ hlt)
    rw [List.get_eq_getElem, List.get_eq_getElem, he] at h2
    exact ⟨_, List.getElem?_eq_getElem _, by rw [h2.1]; exact hgen⟩
  · by_cases h3 : i = 3
    · subst h3
      obtain ⟨h1, h2, h3⟩ := C117_topup hd hpl hw hi h hdo hm
      rw [h1, dueCount, dueCount]
      by_cases hdue : Due w' c.t.topups id
      · obtain ⟨k1, k2⟩ := h2 hdue
        rw [if_pos hdue, if_pos k1, k2]
      · rw [if_neg hdue]
        rcases h3 with h3 | ⟨h3, h4⟩
        · omega
        · rw [if_pos ⟨0, le_refl _, h4⟩, h3]
    · have hq := others_quiet hd hpl hw hi h hs m
      rw [hq.2 h3]
      have key : Due w' c.t.topups id → Due w c.t.topups id ∨ 1 ≤ talks m logs := by
        intro hdue
        obtain ⟨-, ⟨h0, hk⟩ | ⟨-, h1, -⟩⟩ := C117_trigger hd hpl hw hi h3 h hm ⟨s, hs⟩
        · rw [Due, hk] at hdue
          exact .inl hdue
        · exact .inr h1.ge
      rw [dueCount, dueCount]
      by_cases hdue : Due w' c.t.topups id
      · rw [if_pos hdue]
        rcases key hdue with k | k
        · rw [if_pos k]
          omega
        · omega
      · rw [if_neg hdue]
        omega

theorem topups_run (hd : c.Distinct) (hpl : c.Placed) {w w' : World σ γ} {evs : List (Int × Event)}
    (h : Played env (c.chains env fmt) w evs w') (hw : Plays env c w) (hdo : Dormant w c.t.topups) {id m : Val}
    (hm : Numbered w c.t.sims id m) : topUps m (emitted evs) + dueCount w' c.t.topups id ≤
      talks m (emitted evs) + dueCount w c.t.topups id := by
  induction h with
  | nil w => exact le_refl _
  | @exec w w1 w' evs i ops logs hi h rest ih =>
    have e : emitted ((w.clock.current, Event.exec i logs) :: evs) = logs ++ emitted evs := rfl
    obtain ⟨k1, k2, k3⟩ := topups_step hd hpl hw hi h hdo hm
    have := ih (exec_step hd hw hi h).1 k1 k2
    rw [e, topUps_append, talks_append]
    omega
  | @tick w w' evs rest ih =>
    exact ih ⟨hw.wf, hw.ids, hw.fields, hw.rels, hw.sims, hw.subs⟩ hdo ⟨hm.has, hm.only⟩

/-- **C117** In any run of the six stories, a SIM that was not due for a top-up in the beginning is not topped up more
often than it called and sent messages; if it is due in the end, at least once less. -/
theorem C117_run (hd : c.Distinct) (hpl : c.Placed) {w w' : World σ γ} {evs : List (Int × Event)}
    (h : Played env (c.chains env fmt) w evs w') (hw : Plays env c w) (hdo : Dormant w c.t.topups) {id m : Val}
    (hm : Numbered w c.t.sims id m) (hdue : ¬ Due w c.t.topups id) :
    topUps m (emitted evs) ≤ talks m (emitted evs) ∧
      (Due w' c.t.topups id → topUps m (emitted evs) < talks m (emitted evs)) := by
  have := topups_run hd hpl h hw hdo hm
  rw [dueCount, dueCount, if_neg hdue] at this
  refine ⟨by omega, fun h' => ?_⟩
  rw [if_pos h'] at this
  omega

/-- **C117** With a trigger (test_cdr.py:368-370), whatever its mapper: after a call or a message that leaves on the account a balance
for which the probability is at least 1, the SIM is topped up at the next execution of the top-ups; after one that
leaves a balance for which it is at most 0, nothing changes for it. -/
theorem C117_certain {env : Env σ (AnyGen σ)} (hsem : env.sem = AnyGen.sem env.R) (hd : c.Distinct) (hpl : c.Placed)
    {w w' : World σ (AnyGen σ)} (hw : Plays env c w) {i : Nat} {ops : List (Op (World σ (AnyGen σ)))} {logs : Logs}
    (hi : (c.chains env fmt)[i]? = some ops) (h3 : i ≠ 3) (h : World.execute env ops i w = .ok logs w') {id m : Val}
    (hm : Numbered w c.t.sims id m) (hs : ∃ s, w.stories[c.t.topups]? = some s) (hna : id ≠ .na)
    {f : List Rat → List Rat} {f' : Rat → Rat} (hf : ∀ l, f l = l.map f') {r : σ}
    (hg : Began env w c.t.rechargeTrigger (.trigger f r)) (ht : talks m logs ≠ 0) :
    ∃ q : Rat, ValueOf w' c.t.sims "MAIN_ACCT" id (.num q) ∧
      (1 ≤ f' q → timerIn w' c.t.topups id = some (some 0)) ∧
      (f' q ≤ 0 → timerIn w' c.t.topups id = timerIn w c.t.topups id) := by
  obtain ⟨-, ⟨h0, -⟩ | ⟨-, -, a, v, h1, h2, h4, h5⟩⟩ := C117_trigger hd hpl hw hi h3 h hm hs
  · exact absurd h0 (by tauto)
  obtain ⟨q, b, rfl, rfl, k1, k2⟩ := replies_trigger hsem hf (h2 _ hg)
  refine ⟨q, h1, fun hq => h4 (by rw [k2 hq]), fun hq => h5 (by rw [k1 hq]; decide)⟩

/-- **C117** In any run of the scenario from its construction on, no number is topped up more often than it is told
to have called or sent messages. -/
theorem C117_built {R : Rng σ} {env : Env σ (AnyGen σ)} (hsem : env.sem = AnyGen.sem R) {p : Params}
    {g : Parts (AnyGen σ)} {fmt : Int → Cell} {name : String} {seed start step : Int}
    {c c' : Circus σ (AnyGen σ)} {chains : List (List (Op (World σ (AnyGen σ))))}
    (hnew : Circus.new env.R name seed start step = .ok c) (hbuild : build env p g fmt c = .ok chains c')
    {cc : String} {pref : List String} {len : Nat} (hpref : pref.Nodup)
    (hg : ∀ seed, g.msisdns seed = .msisdn (MsisdnGen.new cc pref len) seed)
    {w' : World σ (AnyGen σ)} {evs : List (Int × Event)} (h : Played env chains c'.world evs w') :
    ∃ cast : Cast, chains = cast.chains env fmt ∧ ∀ s m, ValueOf w' cast.t.sims "MSISDN" s (.scalar m) →
      topUps m (emitted evs) ≤ talks m (emitted evs) := by
  obtain ⟨cast, subs, sims, cells, rfl, hd, hw, ho⟩ := C115_built hnew hbuild
  refine ⟨cast, rfl, fun s m hm => ?_⟩
  have hm' := ((C111_constant hd h hw env.orders).1 "MSISDN" (by decide) s _).1 hm
  obtain ⟨st, h1, h2, h3⟩ := ho.dormant
  exact (C117_run hd ho.placed h hw ⟨st, h1, h2⟩
    ⟨hm', fun s' hs' => C115_numbers_unique hsem ho hpref hg hs' hm'⟩ (by rw [due_iff h1]; exact h3 s)).1

/-- **C116** In any run of the scenario from its construction on, a call or a message between two cells where the
probability is at least 1 is not dropped, and one with a cell where it is at most 0 is dropped. -/
theorem C116_built {env : Env σ (AnyGen σ)} (hsem : env.sem = AnyGen.sem env.R) {p : Params}
    {g : Parts (AnyGen σ)} {fmt : Int → Cell} {name : String} {seed start step : Int}
    {c c' : Circus σ (AnyGen σ)} {chains : List (List (Op (World σ (AnyGen σ))))}
    (hnew : Circus.new env.R name seed start step = .ok c) (hbuild : build env p g fmt c = .ok chains c')
    {m : List Rat → List Rat} {f : Rat → Rat} (hm : ∀ l, m l = l.map f) {rng : Int → σ}
    (hg : ∀ seed, g.flatTrigger seed = .trigger m (rng seed))
    {w' : World σ (AnyGen σ)} {evs : List (Int × Event)} (h : Played env chains c'.world evs w') :
    ∃ cast : Cast, chains = cast.chains env fmt ∧
      ∀ t ∈ tablesOf "voice_cdr" (emitted evs) ++ tablesOf "sms_cdr" (emitted evs), ∃ e1 e2 u, evs = e1 ++ e2 ∧
        Played env chains c'.world e1 u ∧ ∀ r ∈ t.rows, ∀ x y, cell t r "CELL_A" = .scalar x →
          cell t r "CELL_B" = .scalar y → ∃ p q : Rat, ValueOf u cast.t.cells "HEALTH" x (.num p) ∧
            ValueOf u cast.t.cells "HEALTH" y (.num q) ∧ (1 ≤ f p → 1 ≤ f q → cell t r "STATUS" = .str "OK") ∧
            (f p ≤ 0 ∨ f q ≤ 0 → cell t r "STATUS" = .str "DROPPED") := by
  obtain ⟨cast, subs, sims, cells, rfl, hd, hw, ho⟩ := C115_built hnew hbuild
  obtain ⟨sd, hb⟩ := ho.accepts
  rw [hg] at hb
  exact ⟨cast, rfl, C116_certain hsem hd h hw hm hb⟩

end Cdr
end Trumania
