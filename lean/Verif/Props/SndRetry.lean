import Verif.Props.Snd
import Verif.Proofs.CdrTrigger
import Verif.Proofs.SndResets
import Verif.Spec.SndRetry

/-! Property C130: an agent of the supply network of test_snd.py whose purchase failed tries again the next time that
the story is executed, and the other buyers wait for a newly drawn time. -/

namespace Trumania
namespace Snd
open Spec World Story Cdr
variable {σ γ : Type} {env : Env σ γ} {fmt : Int → Cell}

/-- the story `b` of `w'` is as `s`, with its timers and marks -/
def Untouched (b : Nat) (s : Story σ) (w' : World σ γ) : Prop :=
  ∃ s', w'.stories[b]? = some s' ∧ SameStatic s s' ∧
    ∀ id, timerOf s' id = timerOf s id ∧ (id ∈ s'.forced ↔ id ∈ s.forced)

theorem untouched_runs {b : Nat} {ops : List (Op (World σ γ))} (hf : ∀ op ∈ ops, BuiltIn env (· ≠ b) (· ≠ b) op)
    {data out : Frame} {ls : List Logs} {w w' : World σ γ} {s : Story σ} (hs : w.stories[b]? = some s)
    (h : Runs ops data w out ls w') : Untouched b s w' :=
  apis_story (i := b) (P := fun x => ∀ id, timerOf x id = timerOf s id ∧ (id ∈ x.forced ↔ id ∈ s.forced))
    (fun x y _ hx hstep id => by
      rcases hstep.timer id with ⟨k1, k2⟩ | ⟨k, -⟩ | ⟨k, -⟩
      · exact ⟨k1.trans (hx id).1, k2.trans (hx id).2⟩
      · exact absurd rfl k
      · exact absurd rfl k) GenKept.any
    (runs_apis (fun op hop => builtIn_respects (GenKept.any (env := env)) (hf op hop)) h) trivial hs
    (fun _ => ⟨rfl, Iff.rfl⟩)

theorem early_within : ∀ op ∈ [Ops.timestamp env "DATETIME" true fmt,
    Ops.selectOne env 3 "AGENT" "DEALER" false false false none,
    Ops.selectOne env 1 "DEALER" "SOLD_SIM" true true false none,
    Ops.applySeries ["SOLD_SIM"] "FAILED_SALE" isNull],
    OpWithin env (· ≠ 1) (· ≠ 1) (Clear "AGENT") (fun _ => True) (· ≠ "purchases") op := by
  intro op hop
  simp only [List.mem_cons, List.not_mem_nil, or_false] at hop
  rcases hop with rfl | rfl | rfl | rfl
  · exact .timestamp _ _ _ (clear_of (by decide))
  · exact .selectOne _ _ _ _ _ _ _ (clear_of (by decide))
  · exact .selectOne _ _ _ _ _ _ _ (clear_of (by decide))
  · exact .applySeries _ _ _ (clear_of (by decide))

theorem late_within : ∀ op ∈ [Ops.dropRow "FAILED_SALE", Ops.relAdd env 2 "AGENT" "SOLD_SIM",
    Ops.maybeBackToDefault env 1],
    OpWithin env (· ≠ 1) (· ≠ 1) (fun _ => True) (fun _ => True) (· ≠ "purchases") op := by
  intro op hop
  simp only [List.mem_cons, List.not_mem_nil, or_false] at hop
  rcases hop with rfl | rfl | rfl
  · exact .dropRow _
  · exact .effect (.relAdd _ _ _)
  · exact .effect (.maybeBackToDefault _)

/-- the purchases mark exactly the members whose purchases failed -/
theorem purchase_marks {data out : Frame} {ls : List Logs} {w w' : World σ γ} {s : Story σ}
    (hd : NamesOwn "AGENT" data) (hna : Val.na ∉ data.index) (hs : w.stories[1]? = some s)
    (h : Runs (purchaseOps env fmt 1 3 1 2) data w out ls w') :
    ∃ t s', ls.filterMap (·.get? "purchases") = [t] ∧ NamesOwn "AGENT" t ∧ (∀ i ∈ t.index, i ∈ data.index) ∧
      w'.stories[1]? = some s' ∧ SameStatic s s' ∧ ∀ id,
      ((∃ r ∈ t.rows, cell t r "AGENT" = .scalar id ∧ cell t r "FAILED_SALE" = .bool true) →
        id ∈ s'.forced ∧ timerOf s' id = some (some 0)) ∧
      (¬ (∃ r ∈ t.rows, cell t r "AGENT" = .scalar id ∧ cell t r "FAILED_SALE" = .bool true) →
        (id ∈ s'.forced ↔ id ∈ s.forced)) := by
  obtain ⟨d1, w1, l1, lb, r1, r2, rfl⟩ := runs_split (a := [Ops.timestamp env "DATETIME" true fmt,
    Ops.selectOne env 3 "AGENT" "DEALER" false false false none,
    Ops.selectOne env 1 "DEALER" "SOLD_SIM" true true false none,
    Ops.applySeries ["SOLD_SIM"] "FAILED_SALE" isNull]) h
  obtain ⟨d2, w2, l2, lc, hforce, r3, rfl⟩ := Snd.cons_runs r2
  obtain ⟨d3, w3, l3, ld, hlog, r4, rfl⟩ := Snd.cons_runs r3
  have own1 := within_namesOwn early_within r1 hd
  obtain ⟨-, hidx⟩ := C44_at_each_point (fun op hop => (early_within (fmt := fmt) op hop).builtIn) hd.2.1 r1
  have q1 := runs_quiet early_within (id := "purchases") (fun h => h rfl) r1
  have q4 := runs_quiet late_within (id := "purchases") (fun h => h rfl) r4
  obtain ⟨s1, e1, e2, e3⟩ := untouched_runs (fun op hop => (early_within (fmt := fmt) op hop).builtIn) hs r1
  obtain ⟨rfl, rfl, s2, rfl, f2, f3, f4, f5, -⟩ := C94_force_act_next e1 hforce
  obtain ⟨t0, hl1, hl2, rfl⟩ := fieldLogger_eq_ok.1 hlog
  cases hl1
  cases hl2
  have hset : (w1.stories.set 1 s2)[1]? = some s2 := (set_get e1).trans (by rw [if_pos rfl])
  obtain ⟨s3, g1, g2, g3⟩ := untouched_runs (fun op hop => (late_within op hop).builtIn) hset r4
  refine ⟨_, s3, ?_, own1, hidx, g1, e2.trans (SameStatic.trans ⟨by rw [f2], f3⟩ g2), fun id => ⟨?_, ?_⟩⟩
  · simp only [List.filterMap_append, List.filterMap_cons, Dict.get?, if_true, q1, q4, List.nil_append]
  · rintro ⟨r, hr, ha, hb⟩
    have hid : id ≠ .na := by
      rintro rfl
      rw [own1.2.2 r hr] at ha
      injection ha with ha
      exact hna (hidx _ (mem_index.2 ⟨r, hr, ha⟩))
    obtain ⟨-, k2, k3⟩ := f4 id ⟨hid, r, hr, fun c hc => by cases hc; exact hb, ha⟩
    exact ⟨(g3 id).2.2 k2, (g3 id).1.trans k3⟩
  · intro hno
    rw [(g3 id).2, (f5 id _).1, (e3 id).2]
    rintro ⟨-, r, hr, hp, ha⟩
    exact hno ⟨r, hr, ha, hp _ rfl⟩

theorem purchase_builtIn : ∀ op ∈ purchaseOps env fmt 1 3 1 2, BuiltIn env (fun _ => True) (fun _ => True) op := by
  intro op hop
  simp only [purchaseOps, List.mem_cons, List.not_mem_nil, or_false] at hop
  rcases hop with rfl | rfl | rfl | rfl | rfl | rfl | rfl | rfl | rfl
  · exact .adder (.timestamp _ _)
  · exact .selectOne _ _ _ _ _ _ _
  · exact .selectOne _ _ _ _ _ _ _
  · exact .adder (.applySeries _ _)
  · exact .effect (.forceActNext _ _ _ trivial)
  · exact .fieldLogger _ _ _
  · exact .dropRow _
  · exact .effect (.relAdd _ _ _)
  · exact .effect (.maybeBackToDefault _)

/-- **C130** One execution of the purchases of test_snd.py, whatever the state of the circus. A member that acts and
whose purchase is logged as failed has its timer at zero afterwards: it acts again at the next execution. A member that
acts and has no such line (it bought a SIM, or the SIM it drew went to another one and nothing is logged of it) gets a
new timer, if the story resets them. Each line is that of a member that acts. -/
theorem C130_execution {w w' : World σ γ} {s : Story σ} {logs : Logs} (hs : w.stories[1]? = some s)
    (hf : s.idField = "AGENT") (hn : s.ids.Nodup) (hna : Val.na ∉ s.ids)
    (h : execute env (purchaseOps env fmt 1 3 1 2) 1 w = .ok logs w') :
    (∀ t ∈ tablesOf "purchases" logs, ∀ r ∈ t.rows, ∃ id, cell t r "AGENT" = .scalar id ∧ Acts s id) ∧
    ∀ id, Acts s id →
      (FailedIn "purchases" logs id → timerIn w' 1 id = some (some 0)) ∧
      (¬ FailedIn "purchases" logs id → s.autoReset = true → Retimed env w w' 1 id) := by
  obtain ⟨t, w1, s1, s', ht, hafter, h1, h2, -, h4, h5, h6, h7, hrows⟩ := execute_ok h
  rw [hs] at ht; cases ht
  obtain ⟨t, ht, hafter⟩ := hafter
  rw [hs] at ht; cases ht
  have hs' : w'.stories[1]? = some s' := by rw [h2, set_get h1, if_pos rfl]
  rcases hafter with ⟨hno, rfl, -⟩ | ⟨-, last, hch⟩
  · refine ⟨by simp [tablesOf], fun id ha => ?_⟩
    rw [acts_iff, actingRows_eq_nil.1 hno] at ha
    cases ha
  obtain ⟨hwf, ls, hr, hl⟩ := (chain_sequential env.logSet _ _ last _ w1).1 logs hch
  have hown := actingRows_namesOwn hn
  obtain ⟨t, s2, k1, k2, k3, k4, k5, k6⟩ := purchase_marks (s := { s with forced := [] }) (hf ▸ hown)
    (fun hc => hna (actingRows_ids hc)) (started_get hs) hr
  rw [h1] at k4
  cases k4
  have hT : tablesOf "purchases" logs = [t] := by
    rw [tablesOf_dict hwf, hl, k1]
    rfl
  have hfail : ∀ id, FailedIn "purchases" logs id ↔
      ∃ r ∈ t.rows, cell t r "AGENT" = .scalar id ∧ cell t r "FAILED_SALE" = .bool true := fun id => by
    rw [FailedIn, hT]
    simp
  obtain ⟨-, -, -, -, r5⟩ := hrows hn
  refine ⟨?_, fun id ha => ⟨fun hfl => ?_, fun hfl hauto => ?_⟩⟩
  · intro t' ht' r hr'
    rw [hT, List.mem_singleton] at ht'
    subst ht'
    exact ⟨r.idx, k2.2.2 r hr', k3 _ (mem_index.2 ⟨r, hr', rfl⟩)⟩
  · obtain ⟨m1, m2⟩ := (k6 id).1 ((hfail id).1 hfl)
    rw [timerIn, hs', Option.bind_some, timerOf_eq, h7 id m1, ← timerOf_eq]
    exact m2
  · have hnf : id ∉ s1.forced := fun hc => by
      have := ((k6 id).2 (fun hx => hfl ((hfail id).2 hx))).1 hc
      cases this
    have hst : SameStatic s s1 := ⟨by rw [k5.1], k5.2⟩
    have hm : id ∈ s1.minusForced s.activeIds := mem_minusForced.2 ⟨acts_iff.1 ha, hnf⟩
    obtain ⟨w3, params, cells, j1, j2, j3, j4⟩ := r5 (by rw [hst.1]; exact hauto) (fun e => by rw [e] at hm; cases hm)
    obtain ⟨k, hk⟩ := List.mem_iff_getElem?.1 hm
    have hlt := (List.getElem?_eq_some_iff.1 hk).1
    have hp : params[k]? = some (params[k]'(j1.length_eq ▸ hlt)) := List.getElem?_eq_getElem _
    have hc : cells[k]? = some (cells[k]'(j3.symm ▸ hlt)) := List.getElem?_eq_getElem _
    obtain ⟨i1, i2⟩ := j4 k id _ _ hk hp hc
    refine ⟨s, s', _, hs, hs', ?_, i1, fun h0 => ?_⟩
    · have := Forall₂_get j1 hk hp
      rw [← this, paramsOf, paramsOf, h6, h4]
    · refine ⟨_, fun g hg => ?_, i2 h0⟩
      have hg1 : Began env w1 s1.timerGen g := by
        rw [show s1.timerGen = s.timerGen by rw [hst.1]]
        exact began_runs purchase_builtIn hr hg
      refine began_observe hg1 j2 (_, _) ?_
      refine List.mem_iff_getElem?.2 ⟨k, ?_⟩
      rw [List.getElem?_zip_eq_some, List.getElem?_map, hp]
      exact ⟨rfl, hc⟩

/-! ### In a run -/

/-- the operations of the other stories leave the story of the purchases alone, but for its states -/
theorem others_builtIn {rg xg : GenRef} {i : Nat} {ops : List (Op (World σ γ))}
    (hi : [restockOps env fmt 0 0 0 (.ref 1), purchaseOps env fmt 1 3 1 2, bulkOps env fmt 2 0 1 0 4 0 1,
      leaveOps env fmt 3 1 4, returnOps env fmt 4 1, reviewOps env fmt 5 2 3 rg xg][i]? = some ops) (h1 : i ≠ 1) :
    ∀ op ∈ ops, BuiltIn env (· ≠ 1) (· ≠ 1) op := by
  intro op hop
  match i with
  | 0 =>
    cases hi
    simp only [restockOps, List.mem_cons, List.not_mem_nil, or_false] at hop
    rcases hop with rfl | rfl | rfl | rfl | rfl | rfl | rfl
    all_goals first
      | exact .adder (.timestamp _ _) | exact .effect (.relAddGrouped _ _ _) | exact .effect (.maybeBackToDefault _)
      | exact .fieldLogger _ _ _ | exact .effect (.attrAdd _ _ _ _ _) | exact .adder (.randomValues _ _)
      | exact .lookup _ _ _
  | 2 =>
    cases hi
    simp only [bulkOps, List.mem_cons, List.not_mem_nil, or_false] at hop
    rcases hop with rfl | rfl | rfl | rfl | rfl | rfl | rfl | rfl | rfl | rfl
    all_goals first
      | exact .adder (.timestamp _ _) | exact .effect (.relAddGrouped _ _ _) | exact .effect (.maybeBackToDefault _)
      | exact .fieldLogger _ _ _ | exact .effect (.attrAdd _ _ _ _ _) | exact .selectOne _ _ _ _ _ _ _
      | exact .selectMany _ _ _ _ _ _ | exact .adder (.applySeries _ _) | exact .lookup _ _ _
      | exact .effect (.forceActNext _ _ _ (by decide))
  | 3 =>
    cases hi
    simp only [leaveOps, List.mem_cons, List.not_mem_nil, or_false] at hop
    rcases hop with rfl | rfl | rfl | rfl | rfl | rfl
    all_goals first
      | exact .adder (.timestamp _ _) | exact .effect (.transitToState _ _ _ _) | exact .effect (.maybeBackToDefault _)
      | exact .fieldLogger _ _ _ | exact .effect (.resetTimers _ _ (by decide)) | exact .adder (.randomValues _ _)
  | 4 =>
    cases hi
    simp only [returnOps, List.mem_cons, List.not_mem_nil, or_false] at hop
    rcases hop with rfl | rfl | rfl | rfl | rfl
    all_goals first
      | exact .adder (.timestamp _ _) | exact .effect (.transitToState _ _ _ _) | exact .effect (.maybeBackToDefault _)
      | exact .fieldLogger _ _ _ | exact .adder (.randomValues _ _)
  | 5 =>
    cases hi
    simp only [reviewOps, List.mem_cons, List.not_mem_nil, or_false] at hop
    rcases hop with rfl | rfl | rfl | rfl | rfl | rfl | rfl
    all_goals first
      | exact .adder (.timestamp _ _) | exact .effect (.maybeBackToDefault _) | exact .lookup _ _ _
      | exact .effect (.popUpdate _ _ _) | exact .fieldLogger _ _ _ | exact .adder (.randomValues _ _)
  | (n + 6) => simp at hi

/-- the purchases in the circuses that the runs of the network reach: the same members and settings as in the
beginning -/
def SameBuyers (s0 : Story σ) (w : World σ γ) : Prop := ∃ s, w.stories[1]? = some s ∧ SameStatic s0 s

/-- an execution of another story, or a tick of the clock, changes no timer of the purchases -/
theorem others_exec {b i : Nat} (hb : i ≠ b) {ops : List (Op (World σ γ))}
    (hops : ∀ op ∈ ops, BuiltIn env (· ≠ b) (· ≠ b) op) {w w' : World σ γ} {logs : Logs} {s : Story σ}
    (hs : w.stories[b]? = some s) (h : execute env ops i w = .ok logs w') : Untouched b s w' := by
  obtain ⟨si, w1, s1, s'', hsi, hafter, -, hst, -⟩ := execute_ok h
  have hs0 : (started w i si).stories[b]? = some s := by rw [started_get_ne hb]; exact hs
  have hap := afterOps_apis (fun op hop => builtIn_respects (GenKept.any (env := env)) (hops op hop)) hsi hafter
  obtain ⟨s', e1, e2, e3⟩ := apis_story (i := b)
    (P := fun x => ∀ id, timerOf x id = timerOf s id ∧ (id ∈ x.forced ↔ id ∈ s.forced))
    (fun x y _ hx hstep id => by
      rcases hstep.timer id with ⟨k1, k2⟩ | ⟨k, -⟩ | ⟨k, -⟩
      · exact ⟨k1.trans (hx id).1, k2.trans (hx id).2⟩
      · exact absurd rfl k
      · exact absurd rfl k) GenKept.any hap trivial hs0 (fun _ => ⟨rfl, Iff.rfl⟩)
  exact ⟨s', by rw [hst, List.getElem?_set_ne hb]; exact e1, e2, e3⟩

theorem buyers_exec {rg xg : GenRef} {i : Nat} {ops : List (Op (World σ γ))}
    (hi : [restockOps env fmt 0 0 0 (.ref 1), purchaseOps env fmt 1 3 1 2, bulkOps env fmt 2 0 1 0 4 0 1,
      leaveOps env fmt 3 1 4, returnOps env fmt 4 1, reviewOps env fmt 5 2 3 rg xg][i]? = some ops)
    {w w' : World σ γ} {logs : Logs} {s0 : Story σ} (hs : SameBuyers s0 w)
    (h : execute env ops i w = .ok logs w') : SameBuyers s0 w' := by
  obtain ⟨s, h1, h2⟩ := hs
  by_cases hi1 : i = 1
  · subst hi1
    cases hi
    have hsame := execute_sameStories purchase_builtIn h
    obtain ⟨hlt, -⟩ := List.getElem?_eq_some_iff.1 h1
    have hlt' : 1 < w'.stories.length := hsame.length_eq ▸ hlt
    exact ⟨_, List.getElem?_eq_getElem hlt', h2.trans (Forall₂_get hsame h1 (List.getElem?_eq_getElem hlt'))⟩
  · obtain ⟨s', k1, k2, -⟩ := others_exec hi1 (others_builtIn hi hi1) h1 h
    exact ⟨s', k1, h2.trans k2⟩

/-- **C130** In the network of test_snd.py, built and run in any way: when the purchases are executed, each member
that acts and whose purchase is logged as failed acts again in the next execution of the purchases, whatever the other
stories do in between; and each other member that acted got a new timer. -/
theorem C130_run {p : Params} {g : Parts γ} {name : String} {seed start step : Int} {c c' : Circus σ γ}
    {chains : List (List (Op (World σ γ)))} {w1 w2 : World σ γ} {before : List (Int × Event)}
    {ops : List (Op (World σ γ))} {logs : Logs} {s0 : Story σ}
    (hc : Circus.new env.R name seed start step = .ok c) (hbuild : build env p g fmt c = .ok chains c')
    (hs0 : c'.world.stories[1]? = some s0) (hna : Val.na ∉ s0.ids) (hplay : Played env chains c'.world before w1)
    (hops : chains[1]? = some ops) (h : execute env ops 1 w1 = .ok logs w2) :
    ∃ s1, w1.stories[1]? = some s1 ∧ s1.ids = s0.ids ∧
    (∀ t ∈ tablesOf "purchases" logs, ∀ r ∈ t.rows, ∃ id, cell t r "AGENT" = .scalar id ∧ Acts s1 id) ∧
    ∀ id, Acts s1 id →
      (FailedIn "purchases" logs id → ∀ (evs : List (Int × Event)) (w3 : World σ γ), Played env chains w2 evs w3 →
        (∀ e ∈ evs, e.2.story ≠ some 1) → ∃ s3, w3.stories[1]? = some s3 ∧ Acts s3 id) ∧
      (¬ FailedIn "purchases" logs id → Retimed env w1 w2 1 id) := by
  have hresets := build_resets _ _ _ hbuild (by rw [(List.map_eq_nil_iff.1 (new_shape hc).stories :)]; simp) s0
    (List.mem_of_getElem? hs0)
  obtain ⟨r0, r1, r2, r3, r4, distIds, dealerIds, agentIds, n, rc, sims, T, t1, t2, t3, t5, rg, xg, owners0,
    owners1, rfl, hs, -, ⟨nd0, nd1, nd2⟩, -⟩ := (build_shape (new_shape hc) hbuild).built
  have hstory : s0.name = "purchases" ∧ s0.idField = "AGENT" ∧ s0.ids = agentIds := by
    have he := hs.stories
    have he := congrArg (·[1]?) he
    simp only [List.getElem?_map, hs0] at he
    injection he with he
    injection he with e0 he
    injection he with e1 he
    injection he with e2 _
    exact ⟨e0, e1, e2⟩
  have hauto : s0.autoReset = true := hresets (by rw [hstory.1]; decide)
  replace hstory := hstory.2
  let chains : List (List (Op (World σ γ))) := [restockOps env fmt 0 0 0 (.ref 1), purchaseOps env fmt 1 3 1 2,
    bulkOps env fmt 2 0 1 0 4 0 1, leaveOps env fmt 3 1 4, returnOps env fmt 4 1, reviewOps env fmt 5 2 3 rg xg]
  have hinv : ∀ {w w' : World σ γ} {evs : List (Int × Event)}, Played env chains w evs w' → SameBuyers s0 w →
      SameBuyers s0 w' := by
    intro w w' evs h
    induction h with
    | nil => exact id
    | exec hi h rest ih => exact fun hw => ih (buyers_exec hi hw h)
    | tick rest ih => exact fun hw => ih hw
  obtain ⟨s1, hs1, hst1⟩ := hinv hplay ⟨s0, hs0, .refl _⟩
  have hids : s1.ids = s0.ids := hst1.2
  cases hops
  obtain ⟨k1, k2⟩ := C130_execution hs1 (by rw [hst1.1]; exact hstory.1) (by rw [hids, hstory.2]; exact nd2)
    (by rw [hids]; exact hna) h
  obtain ⟨s2, hs2, hst2⟩ := buyers_exec (rg := rg) (xg := xg) (i := 1) rfl ⟨s1, hs1, .refl _⟩ h
  refine ⟨s1, hs1, hids, k1, fun id ha => ⟨fun hfail evs w3 hrun hno => ?_, fun hfail => ?_⟩⟩
  · have h0 := (k2 id ha).1 hfail
    have hwait : ∀ {w w' : World σ γ} {evs : List (Int × Event)}, Played env chains w evs w' →
        (∀ e ∈ evs, e.2.story ≠ some 1) → (∃ s, w.stories[1]? = some s ∧ SameStatic s0 s ∧
          timerOf s id = some (some 0)) → ∃ s, w'.stories[1]? = some s ∧ SameStatic s0 s ∧
          timerOf s id = some (some 0) := by
      intro w w' evs h
      induction h with
      | nil => exact fun _ h => h
      | exec hi h rest ih =>
        rintro hno ⟨s, j1, j2, j3⟩
        have hi1 := fun e => hno _ (List.mem_cons_self ..) (congrArg some e)
        obtain ⟨s', i1, i2, i3⟩ := others_exec hi1 (others_builtIn hi hi1) j1 h
        exact ih (fun e he => hno e (List.mem_cons_of_mem _ he)) ⟨s', i1, j2.trans i2, (i3 id).1.trans j3⟩
      | tick rest ih => exact fun hno hw => ih (fun e he => hno e (List.mem_cons_of_mem _ he)) hw
    rw [timerIn, hs2, Option.bind_some] at h0
    obtain ⟨s3, i1, i2, i3⟩ := hwait hrun hno ⟨s2, hs2, hst1.trans hst2, h0⟩
    refine ⟨s3, i1, acts_iff.2 ((mem_activeIds ?_).2 i3)⟩
    rw [i2.2, hstory.2]
    exact nd2
  · exact (k2 id ha).2 hfail (by rw [hst1.1]; exact hauto)

/-! ### The hypotheses are met -/

/-- the fourth execution of the purchases in the run of C105 -/
def exFourth : Option (Story Nat × Story Nat × Logs × World Nat (AnyGen Nat)) :=
  exBuilt.bind fun x => (x.2.world.stories[1]?).bind fun s0 =>
    (play exEnv x.1 (oneStep ++ oneStep ++ oneStep ++ [some 0]) x.2.world).bind fun r =>
    (r.2.stories[1]?).bind fun s1 => (x.1[1]?).bind fun ops =>
      match execute exEnv ops 1 r.2 with
      | .ok logs w2 => some (s0, s1, logs, w2)
      | .error _ _ => none

/-- what is seen of it: the members, whether timers are reset, who acts, and the purchases -/
def exSeen (x : Story Nat × Story Nat × Logs × World Nat (AnyGen Nat)) :
    List Val × Bool × List Val × List (List (Cell × Cell)) :=
  (x.1.ids, x.1.autoReset, (actingRows x.2.1).map (·.idx),
    (tablesOf "purchases" x.2.2.1).map fun t => t.rows.map fun r => (cell t r "AGENT", cell t r "FAILED_SALE"))

set_option synthInstance.maxSize 1000 in
/-- Both agents act; the one whose dealer is broke fails and the other one buys. -/
theorem exRetry : exFourth.map exSeen =
    some ([.str "AGENT_000", .str "AGENT_001"], true, [.str "AGENT_000", .str "AGENT_001"],
      [[(.scalar (.str "AGENT_000"), .bool true), (.scalar (.str "AGENT_001"), .bool false)]]) := by
  decide +kernel

/-- the hypotheses of `C130_run` hold of this execution, with a member whose purchase failed and another one -/
example : ∃ c c' chains before w1 ops logs w2 s0 s1, Circus.new exEnv.R "snd" 1234 0 (3600 * nsPerSec) = .ok c ∧
    build exEnv exParams exParts exFmt c = .ok chains c' ∧ c'.world.stories[1]? = some s0 ∧ Val.na ∉ s0.ids ∧
    Played exEnv chains c'.world before w1 ∧ chains[1]? = some ops ∧ execute exEnv ops 1 w1 = .ok logs w2 ∧
    w1.stories[1]? = some s1 ∧ s0.autoReset = true ∧
    (Acts s1 (.str "AGENT_000") ∧ FailedIn "purchases" logs (.str "AGENT_000")) ∧
    Acts s1 (.str "AGENT_001") ∧ ¬ FailedIn "purchases" logs (.str "AGENT_001") := by
  obtain ⟨⟨s0, s1, logs, w2⟩, h, hv⟩ := Option.map_eq_some_iff.1 exRetry
  obtain ⟨⟨chains, c'⟩, h1, h⟩ := Option.bind_eq_some_iff.1 h
  obtain ⟨s0', h2, h⟩ := Option.bind_eq_some_iff.1 h
  obtain ⟨⟨before, w1⟩, h3, h⟩ := Option.bind_eq_some_iff.1 h
  obtain ⟨s1', h4, h⟩ := Option.bind_eq_some_iff.1 h
  obtain ⟨ops, h5, h⟩ := Option.bind_eq_some_iff.1 h
  split at h
  · rename_i hx
    cases h
    simp only [exSeen, Prod.mk.injEq] at hv
    obtain ⟨v1, v2, v3, v4⟩ := hv
    obtain ⟨t, ht⟩ : ∃ t, tablesOf "purchases" logs = [t] := by
      cases hT : tablesOf "purchases" logs with
      | nil => rw [hT] at v4; cases v4
      | cons t l =>
        cases l with
        | nil => exact ⟨t, rfl⟩
        | cons => rw [hT] at v4; simp at v4
    rw [ht, List.map_singleton, List.singleton_inj] at v4
    rw [exBuilt] at h1
    split at h1
    · rename_i c hc
      split at h1
      · rename_i hb
        cases h1
        refine ⟨c, c', chains, before, w1, ops, logs, w2, s0, s1, hc, hb, h2, by rw [v1]; decide, play_played h3, h5,
          hx, h4, v2, ⟨?_, t, by rw [ht]; simp, ?_⟩, ?_, ?_⟩
        · rw [Acts, v3]; decide
        · have : (Cell.scalar (.str "AGENT_000"), Cell.bool true) ∈
              t.rows.map fun r => (cell t r "AGENT", cell t r "FAILED_SALE") := by rw [v4]; decide
          obtain ⟨r, hr, e⟩ := List.mem_map.1 this
          exact ⟨r, hr, (Prod.mk.inj e).1, (Prod.mk.inj e).2⟩
        · rw [Acts, v3]; decide
        · rintro ⟨t', ht', r, hr, e1, e2⟩
          rw [ht, List.mem_singleton] at ht'
          subst ht'
          have : (Cell.scalar (.str "AGENT_001"), Cell.bool true) ∈
              t'.rows.map fun r => (cell t' r "AGENT", cell t' r "FAILED_SALE") :=
            List.mem_map.2 ⟨r, hr, by rw [e1, e2]⟩
          rw [v4] at this
          revert this
          decide
      · cases h1
    · cases h1
  · cases h

end Snd
end Trumania
