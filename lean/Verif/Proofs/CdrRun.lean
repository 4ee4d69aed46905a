import Verif.Spec.Cdr
import Verif.Proofs.CdrTopups
import Verif.Proofs.SndSims
import Verif.Props.Ledger
import Verif.Props.Population

/-! Helper lemmas: the executions of the six stories of test_cdr.py. -/

namespace Trumania
namespace Cdr
open Spec World
variable {σ γ : Type} {env : Env σ γ} {fmt : Int → Cell} {c : Cast}

/-- what the execution of a story leaves in relationships, populations and logs -/
theorem execute_runs_pops {ops : List (Op (World σ γ))} {i : Nat} {w w' : World σ γ} {logs : Logs}
    {s : Story σ} (hs : w.stories[i]? = some s) (h : World.execute env ops i w = .ok logs w') :
    (w'.rels = w.rels ∧ w'.pops = w.pops ∧ logs = []) ∨ ∃ w1 out ls, w'.rels = w1.rels ∧ w'.pops = w1.pops ∧
      Runs ops ⟨[s.idField], actingRows s⟩ (started w i s) out ls w1 ∧
      ∀ id, tablesOf id logs = (foldVals Frame.concat (ls.filterMap (·.get? id))).toList := by
  obtain ⟨s0, w1, s1, s', hs0, ⟨s2, hs2, hafter⟩, -, -, hrest, -⟩ := execute_ok h
  rw [hs] at hs2
  cases hs2
  rcases hafter with ⟨-, rfl, rfl⟩ | ⟨-, last, h5⟩
  · exact .inl ⟨hrest.rels, hrest.pops, rfl⟩
  · obtain ⟨hwf, ls, hr, hl⟩ := (chain_sequential env.logSet _ _ last _ w1).1 logs h5
    exact .inr ⟨w1, last, ls, hrest.rels, hrest.pops, hr, fun id => by rw [tablesOf_dict hwf, hl]⟩

/-- what an execution of a story of the scenario may be; `logs` are its logs -/
inductive Happened (env : Env σ γ) (o : Orders) (c : Cast) (w w' : World σ γ) (logs : Logs) : Prop
  | aside (quiet : ∀ id ∈ ["voice_cdr", "sms_cdr", "topups", "mobility_logs"], tablesOf id logs = [])
      (sims : w'.pops[c.t.sims]? = w.pops[c.t.sims]?) (subs : w'.pops[c.t.subs]? = w.pops[c.t.subs]?)
  | moved {r : Relationship σ} {data : Frame} {p : Population} {ac : Attribute} {ls : List Logs} {f tbl : Frame}
      {p' : Population} {ac' : Attribute} (hrel : w.rels[c.places]? = some r) (hp : w.pops[c.t.subs]? = some p)
      (hac : attributeOf p "CELL" ac) (tables : ∀ id, tablesOf id logs = ls.filterMap (·.get? id))
      (h : MoveRun c.t.subs data w.pops w'.pops p ac (r.get_relations o) ls f tbl p' ac')
  | topped {r : Relationship σ} {data : Frame} {p : Population} {ao am ac : Attribute} {ls : List Logs}
      {f tbl : Frame} {p' : Population} {ac' : Attribute} (hrel : w.rels[c.agents]? = some r)
      (hp : w.pops[c.t.sims]? = some p) (hao : attributeOf p "OPERATOR" ao) (ham : attributeOf p "MSISDN" am)
      (hac : attributeOf p "MAIN_ACCT" ac) (tables : ∀ id, tablesOf id logs = ls.filterMap (·.get? id))
      (h : TopupRun c.t.sims data w.pops w'.pops p ao am ac (r.get_relations o) ls f tbl p' ac')
  | called {rf rs : Relationship σ} {data : Frame} {p : Population} {ao am ac : Attribute} {ls : List Logs}
      {f tbl : Frame} {p' : Population} {ac' : Attribute} (hrf : w.rels[c.t.friends]? = some rf)
      (hrs : w.rels[c.t.simsOf]? = some rs) (hp : w.pops[c.t.sims]? = some p) (hao : attributeOf p "OPERATOR" ao)
      (ham : attributeOf p "MSISDN" am) (hac : attributeOf p "MAIN_ACCT" ac)
      (tables : ∀ id, tablesOf id logs = ls.filterMap (·.get? id))
      (h : TalkRun c.t (Verdict env w c.t.flatTrigger) "voice_cdr" callLog (fun v => doubled (v "DURATION") = .ok (v "VALUE"))
        data w.pops w'.pops p ao am ac (rf.get_relations o) (rs.get_relations o) ls f tbl p' ac')
  | texted {rf rs : Relationship σ} {data : Frame} {p : Population} {ao am ac : Attribute} {ls : List Logs}
      {f tbl : Frame} {p' : Population} {ac' : Attribute} (hrf : w.rels[c.t.friends]? = some rf)
      (hrs : w.rels[c.t.simsOf]? = some rs) (hp : w.pops[c.t.sims]? = some p) (hao : attributeOf p "OPERATOR" ao)
      (ham : attributeOf p "MSISDN" am) (hac : attributeOf p "MAIN_ACCT" ac)
      (tables : ∀ id, tablesOf id logs = ls.filterMap (·.get? id))
      (h : TalkRun c.t (Verdict env w c.t.flatTrigger) "sms_cdr" smsLog (fun v => v "VALUE" = .num 10)
        data w.pops w'.pops p ao am ac (rf.get_relations o) (rs.get_relations o) ls f tbl p' ac')

/-- at most one table per log id -/
theorem tables_of_one {logs : Logs} {ls : List Logs} {logId : String} {tbl : Frame}
    (hl : ∀ id, tablesOf id logs = (foldVals Frame.concat (ls.filterMap (·.get? id))).toList)
    (h1 : ls.filterMap (·.get? logId) = [tbl]) (h2 : ∀ id, id ≠ logId → ls.filterMap (·.get? id) = []) (id : String) :
    tablesOf id logs = ls.filterMap (·.get? id) := by
  rw [hl]
  by_cases h : id = logId
  · subst h
    rw [h1]
    simp [foldVals]
  · rw [h2 id h]
    simp [foldVals]

theorem aside_step {ops : List (Op (World σ γ))} {data out : Frame} {ls : List Logs} {w0 w w1 w' : World σ γ}
    {logs : Logs} {o : Orders} (h0 : w0.pops = w.pops) (h' : w'.pops = w1.pops)
    (hl : ∀ id, tablesOf id logs = (foldVals Frame.concat (ls.filterMap (·.get? id))).toList)
    (hw : ∀ op ∈ ops, OpWithin env (fun _ => True) (fun _ => True) (fun _ => True) (fun _ => True)
      (fun id => id ∉ ["voice_cdr", "sms_cdr", "topups", "mobility_logs"]) op)
    (hk : ∀ op ∈ ops, Snd.KeepsPop c.t.sims op ∧ Snd.KeepsPop c.t.subs op)
    (h : Runs ops data w0 out ls w1) : Happened env o c w w' logs := by
  refine .aside (fun id hid => ?_) ?_ ?_
  · rw [hl, runs_quiet hw (fun h => h hid) h]
    simp [foldVals]
  · rw [h', Snd.runs_keepsPop (fun op hop => (hk op hop).1) h, h0]
  · rw [h', Snd.runs_keepsPop (fun op hop => (hk op hop).2) h, h0]

theorem down_within {u : Uganda.Parts} {own repair : Nat} : ∀ op ∈ Uganda.breakDownOps env u fmt own repair,
    OpWithin env (fun _ => True) (fun _ => True) (fun _ => True) (fun _ => True)
      (fun id => id ∉ ["voice_cdr", "sms_cdr", "topups", "mobility_logs"]) op := by
  intro op hop
  simp only [Uganda.breakDownOps, List.mem_cons, List.not_mem_nil, or_false] at hop
  rcases hop with rfl | rfl | rfl | rfl | rfl | rfl
  · exact .randomValues _ _ _ trivial fun _ _ => trivial
  · exact .effect (.attrUpdate _ _ _ _)
  · exact .effect (.resetTimers _ _ trivial)
  · exact .timestamp _ _ _ trivial
  · exact .fieldLogger _ _ _ (by decide)
  · exact .effect (.maybeBackToDefault _)

theorem repair_within {u : Uganda.Parts} {own : Nat} : ∀ op ∈ Uganda.repairOps env u fmt own,
    OpWithin env (fun _ => True) (fun _ => True) (fun _ => True) (fun _ => True)
      (fun id => id ∉ ["voice_cdr", "sms_cdr", "topups", "mobility_logs"]) op := by
  intro op hop
  simp only [Uganda.repairOps, List.mem_cons, List.not_mem_nil, or_false] at hop
  rcases hop with rfl | rfl | rfl | rfl | rfl
  · exact .randomValues _ _ _ trivial fun _ _ => trivial
  · exact .effect (.attrUpdate _ _ _ _)
  · exact .timestamp _ _ _ trivial
  · exact .fieldLogger _ _ _ (by decide)
  · exact .effect (.maybeBackToDefault _)

theorem down_keepsPop {u : Uganda.Parts} {own repair k : Nat} (hk : u.cells ≠ k) :
    ∀ op ∈ Uganda.breakDownOps env u fmt own repair, Snd.KeepsPop k op := by
  intro op hop
  simp only [Uganda.breakDownOps, List.mem_cons, List.not_mem_nil, or_false] at hop
  rcases hop with rfl | rfl | rfl | rfl | rfl | rfl
  · exact .adder (env := env) (.randomValues _ _)
  · exact KeepsPop.attrUpdate hk
  · exact .resetTimers
  · exact .adder (env := env) (.timestamp _ _)
  · exact .fieldLogger
  · exact .maybeBack

theorem repair_keepsPop {u : Uganda.Parts} {own k : Nat} (hk : u.cells ≠ k) :
    ∀ op ∈ Uganda.repairOps env u fmt own, Snd.KeepsPop k op := by
  intro op hop
  simp only [Uganda.repairOps, List.mem_cons, List.not_mem_nil, or_false] at hop
  rcases hop with rfl | rfl | rfl | rfl | rfl
  · exact .adder (env := env) (.randomValues _ _)
  · exact KeepsPop.attrUpdate hk
  · exact .adder (env := env) (.timestamp _ _)
  · exact .fieldLogger
  · exact .maybeBack

theorem SameStories.fields {w w' : World σ γ} (h : SameStories w w') :
    w'.stories.map (·.idField) = w.stories.map (·.idField) := by
  have h : List.Forall₂ World.SameStatic w.stories w'.stories := h
  generalize w.stories = l at h
  generalize w'.stories = l' at h
  induction h with
  | nil => rfl
  | cons h _ ih => rw [List.map_cons, List.map_cons, ih, h.1]

/-- the data on which a story starts -/
theorem acting_names {s : Story σ} (hn : s.ids.Nodup) {field : String} (hf : s.idField = field) :
    Rect ⟨[s.idField], actingRows s⟩ ∧ (Frame.mk [s.idField] (actingRows s)).index.Nodup ∧
    ∀ i ∈ (Frame.mk [s.idField] (actingRows s)).index,
      valueAt ⟨[s.idField], actingRows s⟩ i field = .scalar i := by
  obtain ⟨h1, h2, h3⟩ := actingRows_namesOwn hn
  refine ⟨h1, h2, fun i hi => ?_⟩
  obtain ⟨x, hx, rfl⟩ := mem_index.1 hi
  rw [valueAt_row h2 hx, ← hf]
  exact h3 x hx

theorem happened_of (hd : c.Distinct) {w w' : World σ γ} (hw : Plays env c w) {i : Nat}
    {ops : List (Op (World σ γ))} {logs : Logs} (hi : (c.chains env fmt)[i]? = some ops)
    (h : World.execute env ops i w = .ok logs w') (o : Orders) : Happened env o c w w' logs := by
  obtain ⟨s, -, hs, -⟩ := execute_gen_at (i := 0) h
  rcases execute_runs_pops hs h with ⟨-, h2, rfl⟩ | ⟨w1, out, ls, -, h2, hr, hl⟩
  · exact .aside (fun _ _ => by simp [tablesOf]) (by rw [h2]) (by rw [h2])
  have hnd := hw.ids s (List.mem_of_getElem? hs)
  have hfield : ["CELL_ID", "CELL_ID", "A_ID", "SIM_ID", "A_ID", "A_ID"][i]? = some s.idField := by
    rw [← hw.fields, List.getElem?_map, hs]
    rfl
  have rel : ∀ j ∈ c.rels, ∃ r, (started w i s).rels[j]? = some r ∧ Relationship.Reachable env.R r := hw.rels
  obtain ⟨p, ao, am, ac, hp, hao, ham, hac⟩ := hw.sims
  obtain ⟨q, cc, hq, hcc⟩ := hw.subs
  have hwf := hw.wf p (List.mem_of_getElem? hp)
  match i with
  | 0 =>
    cases hi
    exact aside_step (w0 := started w 0 s) rfl h2 hl down_within (fun op hop =>
      ⟨down_keepsPop hd.cellsSims op hop, down_keepsPop hd.cellsSubs op hop⟩) hr
  | 1 =>
    cases hi
    exact aside_step (w0 := started w 1 s) rfl h2 hl repair_within (fun op hop =>
      ⟨repair_keepsPop hd.cellsSims op hop, repair_keepsPop hd.cellsSubs op hop⟩) hr
  | 2 =>
    cases hi
    have hf : s.idField = "A_ID" := (Option.some.inj hfield).symm
    obtain ⟨n1, n2, n3⟩ := acting_names hnd hf
    obtain ⟨r, hr1, hr2⟩ := rel c.places (by simp [Cast.rels])
    obtain ⟨tbl, p', ac', hm⟩ := mobilityOps_runs o (w := started w 2 s) hq (hw.wf q (List.mem_of_getElem? hq)) hcc
      hr1 hr2 (by rw [hf]) n1 n2 n3 hr
    rw [← h2] at hm
    exact .moved hr1 hq hcc (tables_of_one hl hm.logged hm.quiet) hm
  | 3 =>
    cases hi
    have hf : s.idField = "SIM_ID" := (Option.some.inj hfield).symm
    obtain ⟨n1, n2, n3⟩ := acting_names hnd hf
    obtain ⟨r, hr1, hr2⟩ := rel c.agents (by simp [Cast.rels])
    obtain ⟨tbl, p', ac', hm⟩ := topupOps_runs o (w := started w 3 s) hp hwf hao ham hac
      hr1 hr2 (by rw [hf]) n1 n2 n3 hr
    rw [← h2] at hm
    exact .topped hr1 hp hao ham hac (tables_of_one hl hm.logged hm.quiet) hm
  | 4 =>
    cases hi
    have hf : s.idField = "A_ID" := (Option.some.inj hfield).symm
    obtain ⟨n1, n2, n3⟩ := acting_names hnd hf
    obtain ⟨rf, hr1, hr2⟩ := rel c.t.friends (by simp [Cast.rels])
    obtain ⟨rs, hr3, hr4⟩ := rel c.t.simsOf (by simp [Cast.rels])
    obtain ⟨tbl, p', ac', hm⟩ := callOps_runs o (w := started w 4 s) hw.wf hp hao ham hac
      hr1 hr2 hr3 hd.friends (by rw [hf]) n1 n2 n3 hr
    rw [← h2] at hm
    exact .called hr1 hr3 hp hao ham hac (tables_of_one hl hm.logged hm.quiet) hm
  | 5 =>
    cases hi
    have hf : s.idField = "A_ID" := (Option.some.inj hfield).symm
    obtain ⟨n1, n2, n3⟩ := acting_names hnd hf
    obtain ⟨rf, hr1, hr2⟩ := rel c.t.friends (by simp [Cast.rels])
    obtain ⟨rs, hr3, hr4⟩ := rel c.t.simsOf (by simp [Cast.rels])
    obtain ⟨tbl, p', ac', hm⟩ := smsOps_runs o (w := started w 5 s) hw.wf hp hao ham hac
      hr1 hr2 hr3 hd.friends (by rw [hf]) n1 n2 n3 hr
    rw [← h2] at hm
    exact .texted hr1 hr3 hp hao ham hac (tables_of_one hl hm.logged hm.quiet) hm
  | k + 6 => cases hi

/-- the operators and the numbers of the SIMs never change -/
theorem happened_sims (hd : c.Distinct) {o : Orders} {w w' : World σ γ} {logs : Logs}
    (h : Happened env o c w w' logs) {p : Population} {ao am ac : Attribute}
    (hwf : ∀ p ∈ w.pops, Population.WF p)
    (hp : w.pops[c.t.sims]? = some p) (hao : attributeOf p "OPERATOR" ao) (ham : attributeOf p "MSISDN" am)
    (hac : attributeOf p "MAIN_ACCT" ac) : ∃ p' ac', w'.pops[c.t.sims]? = some p' ∧ attributeOf p' "OPERATOR" ao ∧
      attributeOf p' "MSISDN" am ∧ attributeOf p' "MAIN_ACCT" ac' := by
  cases h with
  | aside _ h1 _ => exact ⟨p, ac, h1.trans hp, hao, ham, hac⟩
  | moved _ _ _ _ h => exact ⟨p, ac, (h.others _ hd.subsSims.symm).trans hp, hao, ham, hac⟩
  | topped _ hp' _ _ _ _ h =>
    rw [hp] at hp'
    cases hp'
    exact ⟨_, _, h.pop, (h.attrs _ _ (by decide)).2 hao, (h.attrs _ _ (by decide)).2 ham, h.acct⟩
  | called _ _ hp' _ _ _ _ h =>
    rw [hp] at hp'
    cases hp'
    exact ⟨_, _, h.pop, (h.attrs _ _ (by decide)).2 hao, (h.attrs _ _ (by decide)).2 ham, h.acct⟩
  | texted _ _ hp' _ _ _ _ h =>
    rw [hp] at hp'
    cases hp'
    exact ⟨_, _, h.pop, (h.attrs _ _ (by decide)).2 hao, (h.attrs _ _ (by decide)).2 ham, h.acct⟩

theorem happened_subs (hd : c.Distinct) {o : Orders} {w w' : World σ γ} {logs : Logs}
    (h : Happened env o c w w' logs) {p : Population} {ac : Attribute}
    (hp : w.pops[c.t.subs]? = some p) (hac : attributeOf p "CELL" ac) :
    ∃ p' ac', w'.pops[c.t.subs]? = some p' ∧ attributeOf p' "CELL" ac' := by
  cases h with
  | aside _ _ h1 => exact ⟨p, ac, h1.trans hp, hac⟩
  | moved _ _ _ _ h => exact ⟨_, _, h.pop, h.cell⟩
  | topped _ _ _ _ _ _ h => exact ⟨p, ac, (h.others _ hd.subsSims).trans hp, hac⟩
  | called _ _ _ _ _ _ _ h => exact ⟨p, ac, (h.others _ hd.subsSims).trans hp, hac⟩
  | texted _ _ _ _ _ _ _ h => exact ⟨p, ac, (h.others _ hd.subsSims).trans hp, hac⟩

theorem exec_step (hd : c.Distinct) {w w' : World σ γ} (hw : Plays env c w) {i : Nat}
    {ops : List (Op (World σ γ))} {logs : Logs} (hi : (c.chains env fmt)[i]? = some ops)
    (h : World.execute env ops i w = .ok logs w') :
    Plays env c w' ∧ ∀ o, Happened env o c w w' logs ∧ ∀ j ∈ c.rels, (stockAt o w' j).Perm (stockAt o w j) := by
  have hf := chains_fine (env := env) (fmt := fmt) (c := c) ops (List.mem_of_getElem? hi)
  have hh := happened_of hd hw hi h
  obtain ⟨s, -, hs, -⟩ := execute_gen_at (i := 0) h
  have hrels : StocksOk env c.rels w' ∧ ∀ o, ∀ j ∈ c.rels, (stockAt o w' j).Perm (stockAt o w j) := by
    rcases execute_runs_pops hs h with ⟨h1, -, -⟩ | ⟨w1, out, ls, h1, -, hr, -⟩
    · exact (RelsKept.of_eq (S := (· ∈ c.rels)) h1).stockAt hw.rels
    · have h2 : RelsKept env (fun _ => True) (started w i s) w1 := runs_apart (fun op hop => (hf op hop).2) hr
      have h3 : RelsKept env (· ∈ c.rels) w w' := fun j _ r hj hre => by
        rw [h1]
        exact h2 j trivial r hj hre
      exact h3.stockAt hw.rels
  have hsame := execute_sameStories (fun op hop => (hf op hop).1) h
  obtain ⟨p, ao, am, ac, hp, hao, ham, hac⟩ := hw.sims
  obtain ⟨q, cc, hq, hcc⟩ := hw.subs
  obtain ⟨p', ac', e1, e2, e3, e4⟩ := happened_sims hd (hh env.orders) hw.wf hp hao ham hac
  exact ⟨⟨C51_in_execution (fun op hop => (hf op hop).1) h hw.wf, SameStories.nodup hsame hw.ids,
    (SameStories.fields hsame).trans hw.fields, hrels.1, ⟨p', ao, am, ac', e1, e2, e3, e4⟩,
    happened_subs hd (hh env.orders) hq hcc⟩, fun o => ⟨hh o, hrels.2 o⟩⟩

end Cdr
end Trumania
