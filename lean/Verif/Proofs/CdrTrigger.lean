import Verif.Proofs.CdrRun
import Verif.Proofs.CdrFine
import Verif.Proofs.CdrObjects
import Verif.Props.Trigger

/-! Helper lemmas: which members of the story of the top-ups get scheduled, and by whom. -/

namespace Trumania
namespace Cdr
open Spec World Story
variable {σ γ : Type} {env : Env σ γ} {fmt : Int → Cell} {b : Nat}

/-! ### A story nobody of which acts by itself -/

/-- What the execution of a story whose timers are drawn at -1 does to its members: those that act are no longer
scheduled, and nobody gets scheduled. -/
theorem dormant_exec_self {w w1 : World σ γ} {ops : List (Op (World σ γ))} {logs : Logs} {s : Story σ}
    (hops : ∀ op ∈ ops, BuiltIn env (· ≠ b) (· ≠ b) op) (hs : w.stories[b]? = some s)
    (hn : s.ids.Nodup) (hgen : s.timerGen = .constant (.num (-1))) (h : execute env ops b w = .ok logs w1) :
    ∃ s', w1.stories[b]? = some s' ∧ SameStatic s s' ∧
      ∀ id, (Acts s id → ¬ Scheduled s' id) ∧ (Scheduled s' id → Scheduled s id) := by
  by_cases hauto : s.autoReset = false
  · exact trigger_exec_self hops hs hn hauto h
  have hauto : s.autoReset = true := by simpa using hauto
  obtain ⟨t, w2, s2, s', ht, hafter, h2, h3, -, h5, h6, -, -, hrows⟩ := execute_ok h
  rw [hs] at ht; cases ht
  have hapis := afterOps_apis (fun op hop => builtIn_respects (GenKept.any (env := env)) (hops op hop)) hs hafter
  have hstat : SameStatic s s2 ∧ ∀ id, timerOf s2 id = timerOf s id ∧ id ∉ s2.forced := by
    obtain ⟨s3, e1, e2, e3⟩ := apis_story (i := b)
      (P := fun t => ∀ id, timerOf t id = timerOf s id ∧ id ∉ t.forced)
      (fun x y _ hx hstep id => by
        rcases hstep.timer id with ⟨k1, k2⟩ | ⟨k, -⟩ | ⟨k, -⟩
        · exact ⟨k1.trans (hx id).1, fun hc => (hx id).2 (k2.1 hc)⟩
        · exact absurd rfl k
        · exact absurd rfl k) GenKept.any hapis trivial (started_get hs)
        (fun id => ⟨rfl, by simp⟩)
    rw [h2] at e1; cases e1
    refine ⟨⟨?_, e2.2⟩, e3⟩
    rw [e2.1]
  have hstat' : SameStatic s s' := hstat.1.trans ⟨by rw [h5], h6⟩
  have hauto2 : s2.autoReset = true := by rw [hstat.1.1]; exact hauto
  have hgen2 : s2.timerGen = .constant (.num (-1)) := by rw [hstat.1.1]; exact hgen
  obtain ⟨r1, -, r3, -, r5⟩ := hrows hn
  refine ⟨s', by rw [h3, set_get h2, if_pos rfl], hstat', fun id => ?_⟩
  have hact : Acts s id → timerOf s' id = some (some (-1)) := by
    intro ha
    have hm : id ∈ s2.minusForced s.activeIds := mem_minusForced.2 ⟨acts_iff.1 ha, (hstat.2 id).2⟩
    obtain ⟨w3, params, cells, k1, k2, k3, k4⟩ := r5 hauto2 (fun e => by rw [e] at hm; cases hm)
    rw [hgen2] at k2
    obtain ⟨k, hk⟩ := List.mem_iff_getElem?.1 hm
    have hlt := (List.getElem?_eq_some_iff.1 hk).1
    have hp : params[k]? = some (params[k]'(k1.length_eq ▸ hlt)) := List.getElem?_eq_getElem _
    have hc : cells[k]? = some (cells[k]'(k3.symm ▸ hlt)) := List.getElem?_eq_getElem _
    obtain ⟨j1, j2⟩ := k4 k id _ _ hk hp hc
    have hv := observe_constant k2 _ (List.mem_of_getElem? hc)
    by_cases ha0 : (params[k]'(k1.length_eq ▸ hlt)).activity = 0
    · exact j1 ha0
    · rcases j2 ha0 with ⟨q, e1, e2⟩ | ⟨e1, e2⟩
      · rw [hv] at e1
        cases e1
        exact e2
      · rw [hv] at e1
        cases e1
  constructor
  · rintro ha ⟨q, hq, hc⟩
    rw [hact ha] at hc
    cases hc
    exact absurd hq (by norm_num)
  · rintro ⟨q, hq, hc⟩
    by_cases ha : Acts s id
    · rw [hact ha] at hc
      cases hc
      exact absurd hq (by norm_num)
    · have htimer : timerOf s' id = if id ∈ s.ids then (timerOf s id).map ticked else timerOf s id := by
        rw [← (hstat.2 id).1]
        by_cases hid : id ∈ s.ids
        · rw [if_pos hid, timerOf_eq, timerOf_eq, r3 id hid ha (hstat.2 id).2]
          cases s2.row? id <;> rfl
        · rw [if_neg hid, timerOf_eq, timerOf_eq, r1 id hid]
      rw [htimer] at hc
      split at hc
      · obtain ⟨p, hp, he⟩ := Option.map_eq_some_iff.1 hc
        cases p with
        | none => cases he
        | some p =>
          rw [ticked] at he
          split at he
          · rename_i h0
            exact ⟨p, h0, hp⟩
          · cases he
            exact absurd hq ‹_›
      · exact ⟨q, hq, hc⟩

/-! ### Operations that leave a story alone -/

/-- the story `b` of `w'` is as `s`, and all the timers too -/
def StillAs (b : Nat) (s : Story σ) (w' : World σ γ) : Prop :=
  ∃ s', w'.stories[b]? = some s' ∧ SameStatic s s' ∧ ∀ id, timerOf s' id = timerOf s id

theorem still_builtIn {ops : List (Op (World σ γ))} (hf : ∀ op ∈ ops, BuiltIn env (· ≠ b) (· ≠ b) op)
    {data out : Frame} {ls : List Logs} {w w' : World σ γ} {s : Story σ} (hs : StillAs b s w) (h : Runs ops data w out ls w') :
    StillAs b s w' := by
  obtain ⟨s1, h1, h2, h3⟩ := hs
  obtain ⟨t', e1, e2, e3⟩ := apis_story (i := b) (P := fun x => ∀ id, timerOf x id = timerOf s1 id)
    (fun x y _ hx hstep id => by
      rcases hstep.timer id with ⟨k1, -⟩ | ⟨k, -⟩ | ⟨k, -⟩
      · exact k1.trans (hx id)
      · exact absurd rfl k
      · exact absurd rfl k) GenKept.any
    (runs_apis (fun op hop => builtIn_respects (GenKept.any (env := env)) (hf op hop)) h) trivial h1
    (fun _ => rfl)
  exact ⟨t', e1, h2.trans e2, fun id => (e3 id).trans (h3 id)⟩

theorem still_runs {ops : List (Op (World σ γ))} (hf : ∀ op ∈ ops, Fine env (· ≠ b) op) {data out : Frame}
    {ls : List Logs} {w w' : World σ γ} {s : Story σ} (hs : StillAs b s w) (h : Runs ops data w out ls w') :
    StillAs b s w' := still_builtIn (fun op hop => (hf op hop).1) hs h

section Talks
variable {t : Talk}

/-- What the calls or the messages whose data is `f` do to the members of the story of the top-ups, that was `s`. -/
structure Prompted (env : Env σ γ) (w : World σ γ) (t : Talk) (f : Frame) (s s' : Story σ) : Prop where
  same : SameStatic s s'
  kept : ∀ id, id = .na ∨ (∀ i ∈ f.index, valueAt f i "SIM_A" ≠ .scalar id) → timerOf s' id = timerOf s id
  prompt : ∀ i ∈ f.index, ∀ id, id ≠ .na → valueAt f i "SIM_A" = .scalar id → ∃ v,
    (∀ g, Began env w t.rechargeTrigger g → Replies env g (valueAt f i "MAIN_ACCT_NEW") v) ∧
    (v = .bool true → id ∈ s.ids ∧ timerOf s' id = some (some 0)) ∧
    (v ≠ .bool true → timerOf s' id = timerOf s id)

theorem tail_prompted {logId : String} {cols : List String} {own : Nat} {data out : Frame} {ls : List Logs}
    {w w' : World σ γ} {s : Story σ} (hc : t.calls ≠ t.topups) (hm : t.sms ≠ t.topups)
    {p : Population} {ac : Attribute} (hp : w.pops[t.sims]? = some p) (hwf : Population.WF p)
    (hac : attributeOf p "MAIN_ACCT" ac) (hsim : "SIM_A" ∈ data.cols)
    (hnew : ∀ c ∈ ["MAIN_ACCT_NEW", "SHOULD_TOP_UP"] ++ burstyNew, c ∉ data.cols) (hlog : cols ≠ [])
    (hr : Rect data) (hn : data.index.Nodup)
    (hu : ∀ i ∈ out.index, ∀ j ∈ out.index, valueAt out i "SIM_A" = valueAt out j "SIM_A" → i = j)
    (hs : StillAs t.topups s w)
    (h : Runs [nested env (updateAccounts t), nested env (triggerTopups env t), nested env (getBursty env t),
      Ops.fieldLogger logId cols [], Ops.maybeBackToDefault env own] data w out ls w') :
    ∃ s', w'.stories[t.topups]? = some s' ∧ Prompted env w t out s s' := by
  obtain ⟨d1, w1, l1, lb, h1, h', rfl⟩ := runs_split (a := [_]) h
  have hs1 := still_runs (b := t.topups) (fun op hop => by
    rw [List.mem_singleton] at hop
    subst hop
    exact .nested (updateAccounts_fine t)) hs h1
  have hb1 : ∀ g, Began env w t.rechargeTrigger g → Began env w1 t.rechargeTrigger g := fun g hg =>
    began_runs (F := fun _ => True) (Z := fun _ => True) (fun op hop => by
      rw [List.mem_singleton] at hop
      subst hop
      exact (Fine.nested (updateAccounts_fine t)).1) h1 hg
  obtain ⟨d2, w2, l2, lc, h2, h3, rfl⟩ := runs_split (a := [_]) h'
  cases h1 with
  | @cons _ _ _ _ _ _ _ _ _ _ h1 h1' =>
  cases h1'
  cases h2 with
  | @cons _ _ _ _ _ _ _ _ _ _ h2 h2' =>
  cases h2'
  obtain ⟨ls1, h1, -⟩ := nested_ok h1
  obtain ⟨ls2, h2, -⟩ := nested_ok h2
  have hout : ∀ n ∈ ["MAIN_ACCT_NEW", "SHOULD_TOP_UP"] ++ burstyNew, n ∉ data.cols := hnew
  obtain ⟨-, -, -, a4, -⟩ := updateAccounts_runs hp hwf hac rfl (hout _ (by decide)) hsim hr hn h1 env
  have hsh : "SHOULD_TOP_UP" ∉ d1.cols := by
    rw [a4.cols, List.mem_append]
    exact fun hm => hm.elim (hout _ (by decide)) (by decide)
  rw [triggerTopups] at h2
  cases h2 with
  | @cons _ _ _ m1 _ _ u1 _ k1 _ h2 h2' =>
  cases h2' with
  | @cons _ _ _ m2 _ _ u2 _ k2 _ h4 h5 =>
  cases h5
  obtain ⟨-, g1, i1⟩ := grows_adder (env := env) (.randomValuesFromField _ _) a4.rect a4.nodup hsh h2
  have hrep := fun g hg => answered_field (g := g) a4.rect a4.nodup hsh h2 hg
  obtain ⟨s1, j1, j2, j3⟩ := still_runs (b := t.topups) (ops := [_]) (fun op hop => by
    rw [List.mem_singleton] at hop
    subst hop
    exact .adder (.randomValuesFromField _ _)) hs1 (.cons h2 (.nil _ _))
  obtain ⟨rfl, -, s2, f1, f2, f3, f4, f5, -⟩ := C94_force_act_next j1 h4
  have hf := still_runs (b := t.topups) (fun op hop => by
    simp only [List.mem_cons, List.not_mem_nil, or_false] at hop
    rcases hop with rfl | rfl | rfl
    · exact .nested (getBursty_fine t hc hm)
    · exact .logger _ _ _
    · exact .back _) ⟨s2, by rw [f1]; exact (set_get j1).trans (by rw [if_pos rfl]), .refl _, fun _ => rfl⟩ h3
  obtain ⟨s', q1, q2, q3⟩ := hf
  -- the fields at the end
  cases h3 with
  | @cons _ _ _ e1 _ _ v1 _ _ _ h6 h3 =>
  cases h3 with
  | @cons _ _ _ e2 _ _ v2 _ _ _ h7 h3 =>
  cases h3 with
  | @cons _ _ _ e3 _ _ v3 _ _ _ h8 h3 =>
  cases h3
  obtain ⟨ls6, h6, -⟩ := nested_ok h6
  obtain ⟨-, -, ic, c3⟩ := getBursty_runs (cols := data.cols ++ ["MAIN_ACCT_NEW"] ++ ["SHOULD_TOP_UP"])
    (by rw [g1.cols, a4.cols]) (by
      intro c hc hm
      rw [List.append_assoc, List.mem_append] at hm
      have key : ∀ c ∈ burstyNew, c ∉ ["MAIN_ACCT_NEW"] ++ ["SHOULD_TOP_UP"] := by decide
      exact hm.elim (hout c (List.mem_append_right _ hc)) (key c hc)) g1.rect g1.nodup h6
  obtain ⟨rfl, rfl, tbl, rfl, -, -⟩ := logged_rows hlog c3.nodup h7
  obtain ⟨rfl, rfl⟩ := effect_same (env := env) (.maybeBackToDefault _) h8
  have hidx : ∀ i, i ∈ out.index ↔ i ∈ d2.index := fun i => by rw [ic]
  have hsimO : ∀ i ∈ out.index, valueAt out i "SIM_A" = valueAt d2 i "SIM_A" := fun i hi =>
    c3.kept i hi _ (by rw [g1.cols, a4.cols]; simp [hsim])
  have hnewO : ∀ i ∈ out.index, valueAt out i "MAIN_ACCT_NEW" = valueAt d1 i "MAIN_ACCT_NEW" := fun i hi =>
    (g1.trans c3).kept i hi _ (by rw [a4.cols]; simp)
  have named : ∀ id, Names d2 "SIM_A" (some "SHOULD_TOP_UP") id ↔ id ≠ .na ∧ ∃ i ∈ out.index,
      valueAt out i "SIM_A" = .scalar id ∧ valueAt d2 i "SHOULD_TOP_UP" = .bool true := by
    intro id
    constructor
    · rintro ⟨hna, x, hx, hp1, hp2⟩
      have hi : x.idx ∈ out.index := (hidx _).2 (mem_index.2 ⟨x, hx, rfl⟩)
      refine ⟨hna, x.idx, hi, ?_, ?_⟩
      · rw [hsimO _ hi, valueAt_row g1.nodup hx]
        exact hp2
      · rw [valueAt_row g1.nodup hx]
        exact hp1 _ rfl
    · rintro ⟨hna, i, hi, e1, e2⟩
      obtain ⟨x, hx, rfl⟩ := mem_index.1 ((hidx i).1 hi)
      rw [valueAt_row g1.nodup hx] at e2
      rw [hsimO _ hi, valueAt_row g1.nodup hx] at e1
      refine ⟨hna, x, hx, fun c hc => ?_, e1⟩
      cases hc
      exact e2
  have hids : s1.ids = s.ids := j2.2
  refine ⟨s', q1, ⟨(j2.trans ⟨by rw [f2], f3⟩).trans q2, fun id hid => ?_, fun i hi id hna hid => ?_⟩⟩
  · rw [q3, (f5 id fun hN => ?_).2, j3]
    obtain ⟨hna, i, hi, e1, -⟩ := (named id).1 hN
    exact hid.elim hna fun hid => hid i hi e1
  · refine ⟨valueAt d2 i "SHOULD_TOP_UP", fun g hg => ?_, fun hv => ?_, fun hv => ?_⟩
    · rw [hnewO i hi]
      exact hrep g (hb1 g hg) i ((hidx i).1 hi)
    · obtain ⟨k1, -, k3⟩ := f4 id ((named id).2 ⟨hna, i, hi, hid, hv⟩)
      exact ⟨hids ▸ k1, by rw [q3]; exact k3⟩
    · rw [q3, (f5 id fun hN => ?_).2, j3]
      obtain ⟨-, j, hj, e1, e2⟩ := (named id).1 hN
      have := hu i hi j hj (hid.trans e1.symm)
      subst this
      exact hv e2

end Talks

variable {c : Cast}

/-- what an execution of the calls or of the messages is -/
structure TalkExec (env : Env σ γ) (o : Orders) (c : Cast) (w w' : World σ γ) (logs : Logs) (logId : String)
    (p : Population) (am ac : Attribute) (f tbl : Frame) (ac' : Attribute) (s s' : Story σ) : Prop where
  pop : w.pops[c.t.sims]? = some p
  numbers : attributeOf p "MSISDN" am
  account : attributeOf p "MAIN_ACCT" ac
  tables : tablesOf logId logs = [tbl]
  quiet : ∀ id, id ≠ logId → tablesOf id logs = []
  run : ∃ cols value ao rf rs data ls p', "MSISDN_A" ∈ cols ∧ w.rels[c.t.friends]? = some rf ∧
    w.rels[c.t.simsOf]? = some rs ∧
    TalkRun c.t (Verdict env w c.t.flatTrigger) logId cols value data w.pops w'.pops p ao am ac
      (rf.get_relations o) (rs.get_relations o) ls f tbl p' ac'
  story : w'.stories[c.t.topups]? = some s'
  prompted : Prompted env w c.t f s s'

theorem talk_exec (hd : c.Distinct) (hpl : c.Placed) {w w' : World σ γ} (hw : Plays env c w) {i : Nat}
    {ops : List (Op (World σ γ))} {logs : Logs} (hi : (c.chains env fmt)[i]? = some ops) (h45 : i = 4 ∨ i = 5)
    (h : World.execute env ops i w = .ok logs w') {s : Story σ} (hs : w.stories[c.t.topups]? = some s)
    (o : Orders) :
    (logs = [] ∧ w'.pops = w.pops ∧ StillAs c.t.topups s w') ∨
    ∃ logId p am ac f tbl ac' s', (logId = "voice_cdr" ∨ logId = "sms_cdr") ∧
      TalkExec env o c w w' logs logId p am ac f tbl ac' s s' := by
  have hit : i ≠ c.t.topups := by
    rw [hpl.topups]
    omega
  have hct : c.t.calls ≠ c.t.topups := by
    rw [hpl.calls, hpl.topups]
    decide
  have hmt : c.t.sms ≠ c.t.topups := by
    rw [hpl.sms, hpl.topups]
    decide
  obtain ⟨si, w1, s1, s'', hsi, ⟨s2, hs2, hafter⟩, -, hst, hrest, -⟩ := execute_ok h
  rw [hsi] at hs2
  cases hs2
  have hs0 : StillAs c.t.topups s (started w i si) := ⟨s, by rw [started_get_ne hit]; exact hs, .refl _, fun _ => rfl⟩
  have hfin : ∀ k, w1.stories[c.t.topups]? = some k → w'.stories[c.t.topups]? = some k := fun k hk => by
    rw [hst, List.getElem?_set_ne hit]
    exact hk
  rcases hafter with ⟨-, rfl, rfl⟩ | ⟨-, last, h5⟩
  · obtain ⟨k, k1, k2⟩ := hs0
    exact .inl ⟨rfl, hrest.pops, k, hfin k k1, k2⟩
  obtain ⟨hwf, ls, hr, hl⟩ := (chain_sequential env.logSet _ _ last _ w1).1 logs h5
  have hl : ∀ id, tablesOf id logs = (foldVals Frame.concat (ls.filterMap (·.get? id))).toList := fun id => by
    rw [tablesOf_dict hwf, hl]
  have hnd := hw.ids si (List.mem_of_getElem? hsi)
  have hfield : ["CELL_ID", "CELL_ID", "A_ID", "SIM_ID", "A_ID", "A_ID"][i]? = some si.idField := by
    rw [← hw.fields, List.getElem?_map, hsi]
    rfl
  have rel : ∀ j ∈ c.rels, ∃ r, (started w i si).rels[j]? = some r ∧ Relationship.Reachable env.R r := hw.rels
  obtain ⟨p, ao, am, ac, hp, hao, ham, hac⟩ := hw.sims
  have hwfp := hw.wf p (List.mem_of_getElem? hp)
  obtain ⟨rf, hr1, hr2⟩ := rel c.t.friends (by simp [Cast.rels])
  obtain ⟨rs, hr3, hr4⟩ := rel c.t.simsOf (by simp [Cast.rels])
  have hcols0 : ∀ x ∈ ["MAIN_ACCT_NEW", "SHOULD_TOP_UP"] ++ burstyNew, x ∉ "A_ID" :: (abNew ++ statusNew) := by
    decide
  right
  rcases h45 with rfl | rfl
  · cases hi
    have hf : si.idField = "A_ID" := (Option.some.inj hfield).symm
    obtain ⟨n1, n2, n3⟩ := acting_names hnd hf
    obtain ⟨tbl, p', ac', hm⟩ := callOps_runs o (w := started w 4 si) hw.wf hp hao ham hac
      hr1 hr2 hr3 hd.friends (by rw [hf]) n1 n2 n3 hr
    rw [callOps] at hr
    obtain ⟨d1, u1, l1, lb, h1, h', -⟩ := runs_split (a := [_, _]) hr
    obtain ⟨d2, u2, l2, l3, h2, h3, -⟩ := runs_split (a := [_, _, _]) h'
    have e1 := head_runs o (w := started w 4 si) hw.wf hp hao ham hac hr1 hr2 hr3 hd.friends (by rw [hf]) n1 n2 n3 h1
    have g1 := e1.2.2.1
    have c1 : d1.cols = "A_ID" :: (abNew ++ statusNew) := by rw [g1.cols, hf]; rfl
    obtain ⟨-, b2, b3, -⟩ := callMid_runs (t := c.t) g1.rect g1.nodup c1 h2
    have f1 : ∀ op ∈ [nested env (abFields env fmt c.t), nested env (cellStatus env c.t)],
        Fine env (· ≠ c.t.topups) op := by
      intro op hop
      simp only [List.mem_cons, List.not_mem_nil, or_false] at hop
      rcases hop with rfl | rfl
      · exact .nested (abFields_fine _)
      · exact .nested (cellStatus_fine _)
    have f2 : ∀ op ∈ [Ops.randomValues env (.constant (.str "VOICE")) "PRODUCT" none,
        Ops.randomValues env c.t.durations "DURATION" none,
        Ops.applyFrame ["DURATION", "DATETIME", "TYPE"] ["VALUE"] callValue], Fine env (· ≠ c.t.topups) op := by
      intro op hop
      simp only [List.mem_cons, List.not_mem_nil, or_false] at hop
      rcases hop with rfl | rfl | rfl
      · exact .adder (.randomValues _ _)
      · exact .adder (.randomValues _ _)
      · exact .apply _ _ _ fun d r h => (callValue_ok h).1.1
    obtain ⟨s', q1, q2⟩ := tail_prompted (t := c.t) hct hmt (by rw [b2, e1.2.1]; exact hp) hwfp hac
      (by rw [b3.cols, c1]; simp [abNew]) (fun x hx hm => by
        rw [b3.cols, c1, List.mem_append] at hm
        exact hm.elim (hcols0 x hx) (by revert x; decide)) (by decide) b3.rect b3.nodup hm.sims
      (still_runs f2 (still_runs f1 hs0 h1) h2) h3
    have q3 : Prompted env w c.t last s s' := ⟨q2.same, q2.kept, fun i hi id k1 k2 => by
      obtain ⟨v, v1, v2⟩ := q2.prompt i hi id k1 k2
      exact ⟨v, fun g hg => v1 g (began_runs (fun op hop => (f2 op hop).1) h2
        (began_runs (fun op hop => (f1 op hop).1) h1 hg)), v2⟩⟩
    have ht := tables_of_one hl hm.logged hm.quiet
    have hpops : w'.pops = w1.pops := hrest.pops
    rw [← hpops] at hm
    exact ⟨_, p, am, ac, last, tbl, ac', s', .inl rfl, ⟨hp, ham, hac, (ht _).trans hm.logged,
      fun id hid => (ht id).trans (hm.quiet id hid),
      ⟨_, _, _, rf, rs, _, ls, p', by decide, hr1, hr3, hm⟩, hfin _ q1, q3⟩⟩
  · cases hi
    have hf : si.idField = "A_ID" := (Option.some.inj hfield).symm
    obtain ⟨n1, n2, n3⟩ := acting_names hnd hf
    obtain ⟨tbl, p', ac', hm⟩ := smsOps_runs o (w := started w 5 si) hw.wf hp hao ham hac
      hr1 hr2 hr3 hd.friends (by rw [hf]) n1 n2 n3 hr
    rw [smsOps] at hr
    obtain ⟨d1, u1, l1, lb, h1, h', -⟩ := runs_split (a := [_, _]) hr
    obtain ⟨d2, u2, l2, l3, h2, h3, -⟩ := runs_split (a := [_, _]) h'
    have e1 := head_runs o (w := started w 5 si) hw.wf hp hao ham hac hr1 hr2 hr3 hd.friends (by rw [hf]) n1 n2 n3 h1
    have g1 := e1.2.2.1
    have c1 : d1.cols = "A_ID" :: (abNew ++ statusNew) := by rw [g1.cols, hf]; rfl
    obtain ⟨-, b2, b3, -⟩ := smsMid_runs g1.rect g1.nodup c1 h2
    have f1 : ∀ op ∈ [nested env (abFields env fmt c.t), nested env (cellStatus env c.t)],
        Fine env (· ≠ c.t.topups) op := by
      intro op hop
      simp only [List.mem_cons, List.not_mem_nil, or_false] at hop
      rcases hop with rfl | rfl
      · exact .nested (abFields_fine _)
      · exact .nested (cellStatus_fine _)
    have f2 : ∀ op ∈ [Ops.randomValues env (.constant (.str "SMS")) "PRODUCT" none,
        Ops.applyFrame ["DATETIME", "TYPE"] ["VALUE"] smsValue], Fine env (· ≠ c.t.topups) op := by
      intro op hop
      simp only [List.mem_cons, List.not_mem_nil, or_false] at hop
      rcases hop with rfl | rfl
      · exact .adder (.randomValues _ _)
      · exact .apply _ _ _ fun d r h => (smsValue_ok h).1.1
    obtain ⟨s', q1, q2⟩ := tail_prompted (t := c.t) hct hmt (by rw [b2, e1.2.1]; exact hp) hwfp hac
      (by rw [b3.cols, c1]; simp [abNew]) (fun x hx hm => by
        rw [b3.cols, c1, List.mem_append] at hm
        exact hm.elim (hcols0 x hx) (by revert x; decide)) (by decide) b3.rect b3.nodup hm.sims
      (still_runs f2 (still_runs f1 hs0 h1) h2) h3
    have q3 : Prompted env w c.t last s s' := ⟨q2.same, q2.kept, fun i hi id k1 k2 => by
      obtain ⟨v, v1, v2⟩ := q2.prompt i hi id k1 k2
      exact ⟨v, fun g hg => v1 g (began_runs (fun op hop => (f2 op hop).1) h2
        (began_runs (fun op hop => (f1 op hop).1) h1 hg)), v2⟩⟩
    have ht := tables_of_one hl hm.logged hm.quiet
    have hpops : w'.pops = w1.pops := hrest.pops
    rw [← hpops] at hm
    exact ⟨_, p, am, ac, last, tbl, ac', s', .inr rfl, ⟨hp, ham, hac, (ht _).trans hm.logged,
      fun id hid => (ht id).trans (hm.quiet id hid),
      ⟨_, _, _, rf, rs, _, ls, p', by decide, hr1, hr3, hm⟩, hfin _ q1, q3⟩⟩

/-- what an execution of the top-ups is -/
structure TopupExec (env : Env σ γ) (o : Orders) (c : Cast) (w w' : World σ γ) (logs : Logs)
    (p : Population) (am : Attribute) (f tbl : Frame) (s : Story σ) : Prop where
  pop : w.pops[c.t.sims]? = some p
  numbers : attributeOf p "MSISDN" am
  tables : tablesOf "topups" logs = [tbl]
  quiet : ∀ id, id ≠ "topups" → tablesOf id logs = []
  run : ∃ ao ac ag ls p' ac', TopupRun c.t.sims ⟨[s.idField], actingRows s⟩ w.pops w'.pops p ao am ac ag ls f tbl p' ac'

theorem topup_exec {w w' : World σ γ} (hw : Plays env c w)
    {ops : List (Op (World σ γ))} {logs : Logs} (hi : (c.chains env fmt)[3]? = some ops)
    (h : World.execute env ops 3 w = .ok logs w') {s : Story σ} (hs : w.stories[3]? = some s) (o : Orders) :
    logs = [] ∨ ∃ p am f tbl, TopupExec env o c w w' logs p am f tbl s := by
  rcases execute_runs_pops hs h with ⟨-, h2, rfl⟩ | ⟨w1, out, ls, -, h2, hr, hl⟩
  · exact .inl rfl
  have hnd := hw.ids s (List.mem_of_getElem? hs)
  have hfield : ["CELL_ID", "CELL_ID", "A_ID", "SIM_ID", "A_ID", "A_ID"][3]? = some s.idField := by
    rw [← hw.fields, List.getElem?_map, hs]
    rfl
  have rel : ∀ j ∈ c.rels, ∃ r, (started w 3 s).rels[j]? = some r ∧ Relationship.Reachable env.R r := hw.rels
  obtain ⟨p, ao, am, ac, hp, hao, ham, hac⟩ := hw.sims
  have hwf := hw.wf p (List.mem_of_getElem? hp)
  cases hi
  have hf : s.idField = "SIM_ID" := (Option.some.inj hfield).symm
  obtain ⟨n1, n2, n3⟩ := acting_names hnd hf
  obtain ⟨r, hr1, hr2⟩ := rel c.agents (by simp [Cast.rels])
  obtain ⟨tbl, p', ac', hm⟩ := topupOps_runs o (w := started w 3 s) hp hwf hao ham hac
    hr1 hr2 (by rw [hf]) n1 n2 n3 hr
  rw [← h2] at hm
  have ht := tables_of_one hl hm.logged hm.quiet
  exact .inr ⟨p, am, out, tbl, hp, ham, (ht _).trans hm.logged, fun id hid => (ht id).trans (hm.quiet id hid),
    _, _, _, _, _, _, hm⟩

/-- the other stories but the one of the top-ups leave it alone -/
theorem other_exec (hpl : c.Placed) {w w' : World σ γ} {i : Nat} {ops : List (Op (World σ γ))} {logs : Logs}
    (hi : (c.chains env fmt)[i]? = some ops) (h4 : i ≠ 4) (h5 : i ≠ 5) (h3 : i ≠ 3)
    (h : World.execute env ops i w = .ok logs w') {s : Story σ} (hs : w.stories[c.t.topups]? = some s) :
    StillAs c.t.topups s w' := by
  have hit : i ≠ c.t.topups := by
    rw [hpl.topups]
    exact h3
  have hf := chain_fine (env := env) (fmt := fmt) (c := c) (F := (· ≠ c.t.topups))
    (by rw [hpl.repair, hpl.topups]; decide) (by rw [hpl.calls, hpl.topups]; decide)
    (by rw [hpl.sms, hpl.topups]; decide) hi (.inr ⟨h4, h5⟩)
  obtain ⟨si, w1, s1, s'', hsi, ⟨s2, hs2, hafter⟩, -, hst, hrest, -⟩ := execute_ok h
  rw [hsi] at hs2
  cases hs2
  have hs0 : StillAs c.t.topups s (started w i si) := ⟨s, by rw [started_get_ne hit]; exact hs, .refl _, fun _ => rfl⟩
  have h1 : StillAs c.t.topups s w1 := by
    rcases hafter with ⟨-, rfl, rfl⟩ | ⟨-, last, h5⟩
    · exact hs0
    · obtain ⟨-, ls, hr, -⟩ := (chain_sequential env.logSet _ _ last _ w1).1 logs h5
      exact still_runs hf hs0 hr
  obtain ⟨k, k1, k2⟩ := h1
  exact ⟨k, by rw [hst, List.getElem?_set_ne hit]; exact k1, k2⟩
end Cdr
end Trumania
