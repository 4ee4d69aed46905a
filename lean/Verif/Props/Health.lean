import Verif.Proofs.Health
import Verif.Props.CdrStatus
import Verif.Props.CdrBuild
import Verif.Props.Shop

/-!
# C123: the log of the cells and their health
-/

namespace Trumania
namespace Cdr
open Spec World
variable {σ γ : Type} {env : Env σ γ} {fmt : Int → Cell} {c : Cast} {g : γ} {w w' : World σ γ}

/-- what an execution of a story does to the cells and to their log -/
inductive Touched (env : Env σ γ) (c : Cast) (i : Nat) (w w' : World σ γ) (s : Story σ) (p : Population)
    (ah : Attribute) (logs : Logs) : Prop
  | aside (act : i ≤ 1 → s.activeIds = []) (quiet : tablesOf "cell_status" logs = [])
      (same : w'.pops[c.u.cells]? = w.pops[c.u.cells]?)
  | down {ls : List Logs} {tbl : Frame} {p' : Population} {ah' : Attribute} (hi : i = 0)
      (tables : tablesOf "cell_status" logs = [tbl])
      (h : HealthRun env c.u.cells c.u.unhealthy ⟨[s.idField], actingRows s⟩ w w' p ah ls tbl p' ah')
  | repair {ls : List Logs} {tbl : Frame} {p' : Population} {ah' : Attribute} (hi : i = 1)
      (tables : tablesOf "cell_status" logs = [tbl])
      (h : HealthRun env c.u.cells c.u.healthy ⟨[s.idField], actingRows s⟩ w w' p ah ls tbl p' ah')

theorem reset_mid {story : Nat} (d x : Frame) (l : List Logs) (u v : World σ γ)
    (h : Runs [Ops.resetTimers env story (some "CELL_ID")] d u x l v) :
    x = d ∧ (∀ y ∈ l, y = []) ∧ v.pops = u.pops := by
  cases h with
  | @cons _ _ _ d1 _ _ w1 _ l1 _ h1 h =>
  cases h
  have h2 := h1
  obtain ⟨rfl, rfl⟩ := effect_same (env := env) (.resetTimers _ _ trivial) h1
  refine ⟨rfl, by simp, List.ext_getElem? fun k => ?_⟩
  exact Snd.KeepsPop.resetTimers (k := k) (env := env) _ _ _ _ h2

theorem touched_of (hd : c.Distinct) (hw : Plays env c w) {i : Nat} {ops : List (Op (World σ γ))} {logs : Logs}
    (hi : (c.chains env fmt)[i]? = some ops) (h : World.execute env ops i w = .ok logs w') {s : Story σ}
    (hs : w.stories[i]? = some s) {p : Population} {ah : Attribute} (hp : w.pops[c.u.cells]? = some p)
    (hah : attributeOf p "HEALTH" ah) : Touched env c i w w' s p ah logs := by
  have hh := ((exec_step hd hw hi h).2 env.orders).1
  have h0 : ∀ {ls : List Logs} {logId : String}, (∀ id, tablesOf id logs = ls.filterMap (·.get? id)) →
      (∀ id, id ≠ logId → ls.filterMap (·.get? id) = []) → ∀ id, id ≠ logId → tablesOf id logs = [] :=
    fun a b id hid => (a id).trans (b id hid)
  have hnd := hw.ids s (List.mem_of_getElem? hs)
  have hwf := hw.wf p (List.mem_of_getElem? hp)
  have hfield : ["CELL_ID", "CELL_ID", "A_ID", "SIM_ID", "A_ID", "A_ID"][i]? = some s.idField := by
    rw [← hw.fields, List.getElem?_map, hs]
    rfl
  obtain ⟨s0, w1, s1, s', hs0, ⟨s2, hs2, hafter⟩, -, -, hrest, -⟩ := execute_ok h
  rw [hs] at hs2
  cases hs2
  rcases hafter with ⟨hnil, rfl, rfl⟩ | ⟨-, last, h5⟩
  · exact .aside (fun _ => Story.actingRows_eq_nil.1 hnil) (by simp [tablesOf]) (by rw [hrest.pops]; rfl)
  obtain ⟨hdict, ls, hr, hl⟩ := (chain_sequential env.logSet _ _ last _ w1).1 logs h5
  have hl' : ∀ id, tablesOf id logs = (foldVals Frame.concat (ls.filterMap (·.get? id))).toList :=
    fun id => by rw [tablesOf_dict hdict, hl]
  have rel : ∀ j ∈ c.rels, ∃ r, w.rels[j]? = some r ∧ Relationship.Reachable env.R r := hw.rels
  obtain ⟨m, ao, am, ac, hm, hao, ham, hac⟩ := hw.sims
  obtain ⟨q, cc, hq, hcc⟩ := hw.subs
  have hwfm := hw.wf m (List.mem_of_getElem? hm)
  have key : ∀ {logId : String} {tbl : Frame} {k : Nat}, ls.filterMap (·.get? logId) = [tbl] →
      (∀ id, id ≠ logId → ls.filterMap (·.get? id) = []) → "cell_status" ≠ logId → c.u.cells ≠ k →
      (∀ n, n ≠ k → w1.pops[n]? = w.pops[n]?) → tablesOf "cell_status" logs = [] ∧ w'.pops[c.u.cells]? = w.pops[c.u.cells]? :=
    fun e1 e2 e3 e4 e5 => ⟨h0 (tables_of_one hl' e1 e2) e2 _ e3,
      by rw [hrest.pops]; exact e5 _ e4⟩
  match i with
  | 0 =>
    cases hi
    have hf : s.idField = "CELL_ID" := (Option.some.inj hfield).symm
    obtain ⟨n1, n2, n3⟩ := acting_names hnd hf
    obtain ⟨tbl, p', ah', k⟩ := health_runs (mid := [_]) (w := started w 0 s) reset_mid hp hwf hah (by rw [hf]) n1 n2 n3 hr
    refine .down rfl ((tables_of_one hl' k.logged k.quiet _).trans k.logged)
      ⟨k.logged, k.quiet, k.index, k.own, k.drawn, ?_, ?_, k.attr, k.values⟩
    · rw [hrest.pops]; exact k.others
    · rw [hrest.pops]; exact k.pop
  | 1 =>
    cases hi
    have hf : s.idField = "CELL_ID" := (Option.some.inj hfield).symm
    obtain ⟨n1, n2, n3⟩ := acting_names hnd hf
    obtain ⟨tbl, p', ah', k⟩ := health_runs (mid := []) (w := started w 1 s)
      (fun d x l u v h => by cases h; exact ⟨rfl, by simp, rfl⟩) hp hwf hah (by rw [hf]) n1 n2 n3 hr
    refine .repair rfl ((tables_of_one hl' k.logged k.quiet _).trans k.logged)
      ⟨k.logged, k.quiet, k.index, k.own, k.drawn, ?_, ?_, k.attr, k.values⟩
    · rw [hrest.pops]; exact k.others
    · rw [hrest.pops]; exact k.pop
  | 2 =>
    cases hi
    have hf : s.idField = "A_ID" := (Option.some.inj hfield).symm
    obtain ⟨n1, n2, n3⟩ := acting_names hnd hf
    obtain ⟨r, hr1, hr2⟩ := rel c.places (by simp [Cast.rels])
    obtain ⟨tbl, p', ac', k⟩ := mobilityOps_runs env.orders (w := started w 2 s) hq
      (hw.wf q (List.mem_of_getElem? hq)) hcc hr1 hr2 (by rw [hf]) n1 n2 n3 hr
    have := key k.logged k.quiet (by decide) hd.cellsSubs k.others
    exact .aside (fun h => by omega) this.1 this.2
  | 3 =>
    cases hi
    have hf : s.idField = "SIM_ID" := (Option.some.inj hfield).symm
    obtain ⟨n1, n2, n3⟩ := acting_names hnd hf
    obtain ⟨r, hr1, hr2⟩ := rel c.agents (by simp [Cast.rels])
    obtain ⟨tbl, p', ac', k⟩ := topupOps_runs env.orders (w := started w 3 s) hm hwfm hao ham hac
      hr1 hr2 (by rw [hf]) n1 n2 n3 hr
    have := key k.logged k.quiet (by decide) hd.cellsSims k.others
    exact .aside (fun h => by omega) this.1 this.2
  | 4 =>
    cases hi
    have hf : s.idField = "A_ID" := (Option.some.inj hfield).symm
    obtain ⟨n1, n2, n3⟩ := acting_names hnd hf
    obtain ⟨rf, hr1, hr2⟩ := rel c.t.friends (by simp [Cast.rels])
    obtain ⟨rs, hr3, hr4⟩ := rel c.t.simsOf (by simp [Cast.rels])
    obtain ⟨tbl, p', ac', k⟩ := callOps_runs env.orders (w := started w 4 s) hw.wf hm hao ham hac
      hr1 hr2 hr3 hd.friends (by rw [hf]) n1 n2 n3 hr
    have := key k.logged k.quiet (by decide) hd.cellsSims k.others
    exact .aside (fun h => by omega) this.1 this.2
  | 5 =>
    cases hi
    have hf : s.idField = "A_ID" := (Option.some.inj hfield).symm
    obtain ⟨n1, n2, n3⟩ := acting_names hnd hf
    obtain ⟨rf, hr1, hr2⟩ := rel c.t.friends (by simp [Cast.rels])
    obtain ⟨rs, hr3, hr4⟩ := rel c.t.simsOf (by simp [Cast.rels])
    obtain ⟨tbl, p', ac', k⟩ := smsOps_runs env.orders (w := started w 5 s) hw.wf hm hao ham hac
      hr1 hr2 hr3 hd.friends (by rw [hf]) n1 n2 n3 hr
    have := key k.logged k.quiet (by decide) hd.cellsSims k.others
    exact .aside (fun h => by omega) this.1 this.2
  | k + 6 => cases hi

/-- the story of an execution -/
theorem executed_story {ops : List (Op (World σ γ))} {i : Nat} {logs : Logs}
    (h : World.execute env ops i w = .ok logs w') : ∃ s, w.stories[i]? = some s := by
  obtain ⟨s, -, hs, -⟩ := execute_gen_at (i := 0) h
  exact ⟨s, hs⟩

theorem statusRecords_append {l l' : Logs} : statusRecords (l ++ l') = statusRecords l ++ statusRecords l' := by
  simp [statusRecords, tablesOf]

theorem lastLevel_append {a : Val} {v : Cell} {l l' : Logs} :
    lastLevel a v (l ++ l') = lastLevel a (lastLevel a v l) l' := by
  rw [lastLevel, levelsOf, statusRecords_append, List.filter_append, List.map_append]
  change (levelsOf a l ++ levelsOf a l').getLastD v = _
  rw [lastLevel, lastLevel]
  cases h : levelsOf a l' with
  | nil => rw [List.append_nil]; rfl
  | cons x t => simp [List.getLastD_eq_getLast?, List.getLast?_append]

/-- the records of a run of the break-downs or of the repairs -/
theorem health_last {cells : Nat} {r : GenRef} {data tbl : Frame} {p p' : Population} {ah ah' : Attribute}
    {ls : List Logs} {logs : Logs} (hn : data.index.Nodup) (hwf : Population.WF p) (hah : attributeOf p "HEALTH" ah)
    (htab : tablesOf "cell_status" logs = [tbl]) (h : HealthRun env cells r data w w' p ah ls tbl p' ah')
    (hp : w.pops[cells]? = some p) {a : Val} {v : Cell} (hv : ValueOf w cells "HEALTH" a v) :
    ValueOf w' cells "HEALTH" a (lastLevel a v logs) := by
  rw [valueOf_iff hp hwf hah] at hv
  refine ⟨p', ah', h.pop, h.attr, (h.values _ _).2 ?_⟩
  have e1 : levelsOf a logs = (tbl.rows.filter fun x => decide (x.idx = a)).map fun x =>
      cell tbl x "NEW_HEALTH_LEVEL" := by
    rw [levelsOf, statusRecords, htab, List.flatMap_cons, List.flatMap_nil, List.append_nil, List.filter_map,
      List.map_map]
    have : tbl.rows.filter ((fun x : Cell × Cell => decide (x.1 = .scalar a)) ∘
        fun x => (cell tbl x "CELL_ID", cell tbl x "NEW_HEALTH_LEVEL")) =
        tbl.rows.filter fun x => decide (x.idx = a) := by
      refine List.filter_congr fun x hx => ?_
      rw [Function.comp_apply, h.own x hx]
      simp
    rw [this]
    rfl
  have hnd : (tbl.rows.map (·.idx)).Nodup := by
    rw [← h.index] at hn
    exact hn
  by_cases ha : a ∈ data.index
  · have ha' := ha
    rw [← h.index] at ha'
    obtain ⟨x, hx, rfl⟩ := mem_index.1 ha'
    rw [filter_label hnd hx (fun y _ => decide_eq_true_iff)] at e1
    exact .inl ⟨x, hx, rfl, by rw [lastLevel, e1]; rfl⟩
  · have e2 : tbl.rows.filter (fun x => decide (x.idx = a)) = [] := by
      rw [List.filter_eq_nil_iff]
      intro x hx e
      refine ha ?_
      rw [← h.index, ← decide_eq_true_iff.1 e]
      exact List.mem_map.2 ⟨x, hx, rfl⟩
    rw [e2] at e1
    exact .inr ⟨ha, by rw [lastLevel, e1]; exact hv⟩

/-- **C123** one execution: the health of a cell is afterwards the level logged for it, and as before if none was -/
theorem C123_execution (hd : c.Distinct) (hw : Plays env c w) {i : Nat} {ops : List (Op (World σ γ))} {logs : Logs}
    (hi : (c.chains env fmt)[i]? = some ops) (h : World.execute env ops i w = .ok logs w') {a : Val} {v : Cell}
    (hv : ValueOf w c.u.cells "HEALTH" a v) : ValueOf w' c.u.cells "HEALTH" a (lastLevel a v logs) := by
  obtain ⟨s, hs⟩ := executed_story h
  obtain ⟨p, ah, hp, hah, hv'⟩ := id hv
  have hwf := hw.wf p (List.mem_of_getElem? hp)
  have hn : (Frame.mk [s.idField] (actingRows s)).index.Nodup :=
    (acting_names (hw.ids s (List.mem_of_getElem? hs)) rfl).2.1
  cases touched_of hd hw hi h hs hp hah with
  | aside _ quiet same =>
    have e : lastLevel a v logs = v := by simp [lastLevel, levelsOf, statusRecords, quiet]
    rw [e]
    exact ⟨p, ah, same.trans hp, hah, hv'⟩
  | down _ tables h => exact health_last hn hwf hah tables h hp hv
  | repair _ tables h => exact health_last hn hwf hah tables h hp hv

/-- **C123** one execution: the break-downs and the repairs log one record for each cell that acts, the other
stories none -/
theorem C123_records (hd : c.Distinct) (hw : Plays env c w) {i : Nat} {ops : List (Op (World σ γ))} {logs : Logs}
    (hi : (c.chains env fmt)[i]? = some ops) (h : World.execute env ops i w = .ok logs w') {a : Val} {v : Cell}
    (hv : ValueOf w c.u.cells "HEALTH" a v) {s : Story σ} (hs : w.stories[i]? = some s) :
    (statusRecords logs).map Prod.fst = if i ≤ 1 then s.activeIds.map Cell.scalar else [] := by
  obtain ⟨p, ah, hp, hah, -⟩ := hv
  have key : ∀ {r : GenRef} {ls : List Logs} {tbl : Frame} {p' : Population} {ah' : Attribute},
      tablesOf "cell_status" logs = [tbl] →
      HealthRun env c.u.cells r ⟨[s.idField], actingRows s⟩ w w' p ah ls tbl p' ah' →
      (statusRecords logs).map Prod.fst = s.activeIds.map Cell.scalar := by
    intro r ls tbl p' ah' e k
    rw [statusRecords, e, List.flatMap_cons, List.flatMap_nil, List.append_nil, List.map_map]
    have e2 : tbl.rows.map (·.idx) = s.activeIds := by
      have := k.index
      rw [Frame.index, Frame.index, Story.actingRows_eq, List.map_map] at this
      rw [this]
      exact List.map_id _
    rw [← e2, List.map_map]
    exact List.map_congr_left fun x hx => k.own x hx
  cases touched_of hd hw hi h hs hp hah with
  | aside act quiet _ =>
    have e : statusRecords logs = [] := by simp [statusRecords, quiet]
    rw [e]
    split
    · next h => rw [act h]; rfl
    · rfl
  | down hi tables h => rw [key tables h, if_pos (by omega)]
  | repair hi tables h => rw [key tables h, if_pos (by omega)]

/-- **C123** one execution: the levels that the break-downs log are drawn from one generator, those that the
repairs log from the other one -/
theorem C123_levels (hd : c.Distinct) (hw : Plays env c w) {i : Nat} {ops : List (Op (World σ γ))} {logs : Logs}
    (hi : (c.chains env fmt)[i]? = some ops) (h : World.execute env ops i w = .ok logs w') {a : Val} {v : Cell}
    (hv : ValueOf w c.u.cells "HEALTH" a v) {gu gh : γ} (hu : Began env w c.u.unhealthy gu)
    (hh : Began env w c.u.healthy gh) :
    ∀ x ∈ statusRecords logs, i = 0 ∧ CanDraw env gu x.2 ∨ i = 1 ∧ CanDraw env gh x.2 := by
  obtain ⟨s, hs⟩ := executed_story h
  obtain ⟨p, ah, hp, hah, -⟩ := hv
  intro x hx
  cases touched_of hd hw hi h hs hp hah with
  | aside _ quiet _ => simp [statusRecords, quiet] at hx
  | down hi tables h =>
    simp only [statusRecords, tables, List.flatMap_cons, List.flatMap_nil, List.append_nil, List.mem_map] at hx
    obtain ⟨r, hr, rfl⟩ := hx
    exact .inl ⟨hi, h.drawn _ hu r hr⟩
  | repair hi tables h =>
    simp only [statusRecords, tables, List.flatMap_cons, List.flatMap_nil, List.append_nil, List.mem_map] at hx
    obtain ⟨r, hr, rfl⟩ := hx
    exact .inr ⟨hi, h.drawn _ hh r hr⟩

/-- **C123** In any run of the six stories, the health of a cell is at each moment the last level logged for it, or
the one that it had in the beginning if none was. -/
theorem C123_journal (hd : c.Distinct) {evs : List (Int × Event)} (h : Played env (c.chains env fmt) w evs w')
    (hw : Plays env c w) {a : Val} {v : Cell} (hv : ValueOf w c.u.cells "HEALTH" a v) :
    ValueOf w' c.u.cells "HEALTH" a (lastLevel a v (emitted evs)) := by
  induction h generalizing v with
  | nil w => exact hv
  | @exec w w1 w' evs i ops logs hi h rest ih =>
    have e : emitted ((w.clock.current, Event.exec i logs) :: evs) = logs ++ emitted evs := rfl
    rw [e, lastLevel_append]
    exact ih (exec_step hd hw hi h).1 (C123_execution hd hw hi h hv)
  | @tick w w' evs rest ih =>
    exact ih ⟨hw.wf, hw.ids, hw.fields, hw.rels, hw.sims, hw.subs⟩ hv

theorem played_began {evs : List (Int × Event)} (h : Played env (c.chains env fmt) w evs w') {r : GenRef}
    (hg : Began env w r g) : Began env w' r g := by
  induction h with
  | nil w => exact hg
  | exec hi h _ ih => exact ih (began_execute hi h hg)
  | tick _ ih => exact ih (began_tick hg)

/-- **C123** In any run, each record of the log of the cells has a level that one of the two generators drew: in an
execution of the break-downs the one of the unhealthy levels, in one of the repairs the other. -/
theorem C123_drawn (hd : c.Distinct) {evs e1 e2 : List (Int × Event)} {d : Int} {i : Nat} {logs : Logs}
    (h : Played env (c.chains env fmt) w evs w') (e : evs = e1 ++ (d, .exec i logs) :: e2) (hw : Plays env c w)
    {a : Val} {v : Cell} (hv : ValueOf w c.u.cells "HEALTH" a v) {gu gh : γ} (hu : Began env w c.u.unhealthy gu)
    (hh : Began env w c.u.healthy gh) :
    ∀ x ∈ statusRecords logs, i = 0 ∧ CanDraw env gu x.2 ∨ i = 1 ∧ CanDraw env gh x.2 := by
  obtain ⟨u, u', ops, h1, hi, h2, -, -⟩ := Shop.played_at h e
  exact C123_levels hd (played_plays hd h1 hw).1 hi h2 (C123_journal hd h1 hw hv) (played_began h1 hu)
    (played_began h1 hh)

/-- **C123** In any run, the logs alone tell the status of the calls and of the messages: each of the two cells let
them through or not as the trigger answered to the last level that had been logged for it, or to the health that it
had in the beginning. `e1` is what happened before the record was logged. -/
theorem C123_status (hd : c.Distinct) (hc : c.t.cells = c.u.cells) {evs e1 e2 : List (Int × Event)} {d : Int}
    {i : Nat} {logs : Logs} (h : Played env (c.chains env fmt) w evs w')
    (e : evs = e1 ++ (d, .exec i logs) :: e2) (hw : Plays env c w) (hg : Began env w c.t.flatTrigger g) :
    ∀ t ∈ tablesOf "voice_cdr" logs ++ tablesOf "sms_cdr" logs, ∀ r ∈ t.rows, ∀ x y vx vy,
      cell t r "CELL_A" = .scalar x → cell t r "CELL_B" = .scalar y →
      ValueOf w c.u.cells "HEALTH" x vx → ValueOf w c.u.cells "HEALTH" y vy →
      ∃ a b : Bool, cell t r "STATUS" = .str (if a = true ∧ b = true then "OK" else "DROPPED") ∧
        Replies env g (lastLevel x vx (emitted e1)) (.bool a) ∧
        Replies env g (lastLevel y vy (emitted e1)) (.bool b) := by
  obtain ⟨u, u', ops, h1, hi, h2, -, -⟩ := Shop.played_at h e
  intro t ht r hr x y vx vy hx hy hvx hvy
  have hu := (played_plays hd h1 hw).1
  obtain ⟨a, b, h3, h4, h5⟩ := C116_status hd hu hi h2 (played_began h1 hg) t ht r hr
  obtain ⟨p, k1, k2⟩ := h4 x hx
  obtain ⟨q, k3, k4⟩ := h5 y hy
  rw [hc] at k1 k3
  have l1 := C123_journal hd h1 hw hvx
  have l2 := C123_journal hd h1 hw hvy
  obtain ⟨pop, ah, e1', e2', -⟩ := id l1
  have hwf := hu.wf pop (List.mem_of_getElem? e1')
  rw [valueOf_iff e1' hwf e2'] at l1 l2 k1 k3
  rw [← holds_unique (hwf.values _ e2') k1 l1, ← holds_unique (hwf.values _ e2') k3 l2]
  exact ⟨a, b, h3, k2, k4⟩

/-- **C123** In any run of the scenario that the constructor builds, the health of each cell is drawn in the
beginning, and later on it is the last level logged for it. The levels that the break-downs log are drawn from one
generator, those that the repairs log from another one; the seeds of the three do not depend on the one of the
circus. -/
theorem C123_built {p : Params} {g : Parts γ} {name : String} {seed start step : Int}
    {k k' : Circus σ γ} {chains : List (List (Op (World σ γ)))}
    (hnew : Circus.new env.R name seed start step = .ok k) (hbuild : build env p g fmt k = .ok chains k')
    {evs : List (Int × Event)} (h : Played env chains k'.world evs w') :
    ∃ cast subs sims cells s1 s2 s3, chains = cast.chains env fmt ∧ Opening env p g cast k'.world subs sims cells ∧
      LocalSeeds env s1 s2 s3 ∧
      (∀ a ∈ cells, ∃ v, CanDraw env (g.cellHealth s3) v ∧ ValueOf k'.world cast.t.cells "HEALTH" a v ∧
        ValueOf w' cast.t.cells "HEALTH" a (lastLevel a v (emitted evs))) ∧
      ∀ e1 e2 d i logs, evs = e1 ++ (d, .exec i logs) :: e2 → cells ≠ [] → ∀ x ∈ statusRecords logs,
        i = 0 ∧ CanDraw env (g.unhealthy s1) x.2 ∨ i = 1 ∧ CanDraw env (g.healthy s2) x.2 := by
  obtain ⟨cast, subs, sims, cells, rfl, hd, hw, ho⟩ := C115_built hnew hbuild
  obtain ⟨s1, s2, s3, l1, l2, l3, l4, l5⟩ := ho.levels
  refine ⟨cast, subs, sims, cells, s1, s2, s3, rfl, ho, l1, fun a ha => ?_, ?_⟩
  · obtain ⟨v, hv⟩ := l4 a ha
    have hv' := hv
    rw [ho.sameCells] at hv'
    exact ⟨v, (l5 a v hv).2, hv, ho.sameCells ▸ C123_journal hd h hw hv'⟩
  · intro e1 e2 d i logs e hne
    obtain ⟨a, ha⟩ := List.exists_mem_of_ne_nil _ hne
    obtain ⟨v, hv⟩ := l4 a ha
    rw [ho.sameCells] at hv
    exact C123_drawn hd h e hw hv l2 l3

end Cdr
end Trumania
