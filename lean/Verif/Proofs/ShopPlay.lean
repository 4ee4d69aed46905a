import Verif.Proofs.ShopRun

/-! Helper lemmas: the executions of the stories of steps 4 and 5 of examples/tutorial/example2.py. -/

namespace Trumania
namespace Shop
open Spec World Cdr
variable {σ : Type} {env : Env σ (AnyGen σ)} {w w' w0 w1 : World σ (AnyGen σ)} {data out : Frame} {ls : List Logs}
  {o : Orders} {a : SeqGen} {vols poss : List Val} {T : String → List Frame} {given : List (Val × Val)} {sc : Scene}

/-! ### What follows the purchases -/

theorem idle_nil : Idle env [] := by
  refine ⟨by simp [Harmless], ?_⟩
  intro d u d' l u' _ _ _ _ _ h
  cases h
  exact ⟨rfl, rfl, fun _ => rfl⟩

theorem force_kept {k : Nat} {f : String} {cond : Option String} {l : Logs}
    (h : Ops.forceActNext k f cond data w = .ok (out, l) w') :
    out = data ∧ l = [] ∧ w'.rels = w.rels ∧ w'.pops = w.pops := by
  obtain ⟨h1, h2⟩ := sideEffect_eq_ok.1 h
  cases h2
  refine ⟨rfl, rfl, ?_⟩
  split at h1
  · obtain ⟨-, rfl⟩ := Act.pure_eq_ok.1 h1
    exact ⟨rfl, rfl⟩
  · obtain ⟨cells, u1, h2, h1⟩ := Act.bind_eq_ok.1 h1
    obtain ⟨-, rfl⟩ := Act.ofPy_eq_ok.1 h2
    obtain ⟨ids, u2, h3, h1⟩ := Act.bind_eq_ok.1 h1
    obtain ⟨-, rfl⟩ := Act.ofPy_eq_ok.1 h3
    obtain ⟨s, s', -, -, rfl⟩ := World.onStory_eq_ok.1 h1
    exact ⟨rfl, rfl⟩

theorem trigger_harmless {t : Nat} (ht : t ≠ 4) : Harmless env (triggerOps env 0 0 (.ref t)) := by
  intro op hop
  simp only [triggerOps, List.mem_cons, List.not_mem_nil, or_false] at hop
  rcases hop with rfl | rfl | rfl
  · exact .neighbourhoodSize _ _ _ trivial
  · exact .randomValuesFromField _ _ _ trivial fun i hi => by
      obtain rfl := List.mem_singleton.1 hi
      exact ht
  · exact .effect (.forceActNext _ _ _ trivial)

theorem idle_trigger {t : Nat} (ht : t ≠ 4) : Idle env (triggerOps env 0 0 (.ref t)) := by
  refine ⟨trigger_harmless ht, ?_⟩
  intro d u d' l u' _ _ hr hn hc h
  rw [triggerOps] at h
  obtain ⟨d1, w1, l1, ls1, h1, k1, rfl⟩ := Snd.cons_runs h
  obtain ⟨d2, w2, l2, ls2, h2, k2, rfl⟩ := Snd.cons_runs k1
  obtain ⟨d3, w3, l3, ls3, h3, k3, rfl⟩ := Snd.cons_runs k2
  cases k3
  obtain ⟨rfl, g1, i1⟩ := grows_adder (env := env) (.neighbourhoodSize _ _) hr hn (by rw [hc]; decide) h1
  have r1 : w1.rels = u.rels := columnAdder_rels (env := env) (.neighbourhoodSize _ _) h1
  have p1 : w1.pops = u.pops := columnAdder_pops (env := env) (.neighbourhoodSize _ _) h1
  obtain ⟨rfl, -⟩ := grows_adder (env := env) (.randomValuesFromField _ _) g1.rect g1.nodup
    (by rw [g1.cols, hc]; decide) h2
  have r2 : w2.rels = w1.rels := columnAdder_rels (env := env) (.randomValuesFromField _ _) h2
  have p2 : w2.pops = w1.pops := columnAdder_pops (env := env) (.randomValuesFromField _ _) h2
  obtain ⟨rfl, rfl, r3, p3⟩ := force_kept h3
  exact ⟨r3.trans (r2.trans r1), p3.trans (p2.trans p1), fun id => rfl⟩

/-! ### The executions -/

theorem restock_builtIn {F : Nat → Prop} {time : Int → Cell} {own : Nat} {v i : GenRef} :
    ∀ op ∈ restockOps env time own 0 0 v i, BuiltIn env F F op := by
  intro op hop
  simp only [restockOps, Ops.setOperations, List.cons_append, List.nil_append, List.mem_cons, List.not_mem_nil,
    or_false] at hop
  rcases hop with rfl | rfl | rfl | rfl | rfl | rfl | rfl | rfl | rfl
  · exact .adder (.timestamp _ _)
  · exact .lookup _ _ _
  · exact .adder (.neighbourhoodSize _ _)
  · exact .adder (.randomValues _ _)
  · exact .adder (.randomValuesFromField _ _)
  · exact .effect (.relAddGrouped _ _ _)
  · exact .adder (.neighbourhoodSize _ _)
  · exact .fieldLogger _ _ _
  · exact .effect (.maybeBackToDefault _)

theorem periodic_builtIn {F : Nat → Prop} {day : Int → Cell} {own : Nat} {v i : GenRef} :
    ∀ op ∈ periodicOps env day own 0 0 v i, BuiltIn env F F op := by
  intro op hop
  simp only [periodicOps, Ops.setOperations, List.cons_append, List.nil_append, List.mem_cons, List.not_mem_nil,
    or_false] at hop
  rcases hop with rfl | rfl | rfl | rfl | rfl | rfl | rfl
  · exact .adder (.timestamp _ _)
  · exact .lookup _ _ _
  · exact .adder (.randomValues _ _)
  · exact .adder (.randomValuesFromField _ _)
  · exact .effect (.relAddGrouped _ _ _)
  · exact .fieldLogger _ _ _
  · exact .effect (.maybeBackToDefault _)

theorem report_builtIn {F : Nat → Prop} {day : Int → Cell} {own : Nat} :
    ∀ op ∈ reportOps env day own 0, BuiltIn env F F op := by
  intro op hop
  simp only [reportOps, Ops.setOperations, List.cons_append, List.nil_append, List.mem_cons, List.not_mem_nil,
    or_false] at hop
  rcases hop with rfl | rfl | rfl | rfl
  · exact .adder (.timestamp _ _)
  · exact .adder (.neighbourhoodSize _ _)
  · exact .fieldLogger _ _ _
  · exact .effect (.maybeBackToDefault _)

theorem purchase_builtIn {F : Nat → Prop} {own : Nat} {c : GenRef} :
    ∀ op ∈ purchaseOps env own 1 0 0 1 c, BuiltIn env F F op := by
  intro op hop
  simp only [purchaseOps, Ops.setOperations, List.cons_append, List.nil_append, List.mem_cons, List.not_mem_nil,
    or_false] at hop
  rcases hop with rfl | rfl | rfl | rfl | rfl | rfl | rfl
  · exact .lookup _ _ _
  · exact .adder (.randomValues _ _)
  · exact .lookup _ _ _
  · exact .selectOne _ _ _ _ _ _ _
  · exact .effect (.relAdd _ _ _)
  · exact .fieldLogger _ _ _
  · exact .effect (.maybeBackToDefault _)

theorem trigger_builtIn {F : Nat → Prop} (hF : F 0) {t : GenRef} :
    ∀ op ∈ triggerOps env 0 0 t, BuiltIn env F F op := by
  intro op hop
  simp only [triggerOps, List.mem_cons, List.not_mem_nil, or_false] at hop
  rcases hop with rfl | rfl | rfl
  · exact .adder (.neighbourhoodSize _ _)
  · exact .adder (.randomValuesFromField _ _)
  · exact .effect (.forceActNext _ _ _ hF)

/-- the operations are built-in, and only the purchases schedule restocks -/
theorem chain_builtIn {F : Nat → Prop} {i : Nat} {ops : List (Op (World σ (AnyGen σ)))}
    (hi : (sc.chains env)[i]? = some ops) (hF : F 0 ∨ i ≠ 2) : ∀ op ∈ ops, BuiltIn env F F op := by
  rw [Scene.chains] at hi
  split at hi
  · match i with
    | 0 => cases hi; exact periodic_builtIn
    | 1 => cases hi; exact report_builtIn
    | 2 => cases hi; exact purchase_builtIn
    | k + 3 => cases hi
  · match i with
    | 0 => cases hi; exact restock_builtIn
    | 1 => cases hi; exact report_builtIn
    | 2 =>
      cases hi
      intro op hop
      rcases List.mem_append.1 hop with h | h
      · exact purchase_builtIn op h
      · exact trigger_builtIn (hF.resolve_right (by simp)) op h
    | k + 3 => cases hi

theorem chains_builtIn {i : Nat} {ops : List (Op (World σ (AnyGen σ)))} (hi : (sc.chains env)[i]? = some ops) :
    ∀ op ∈ ops, BuiltIn env (fun _ => True) (fun _ => True) op := chain_builtIn hi (.inl trivial)

/-- an execution: nothing happens, or the operations run and the timers are reset -/
theorem execute_stepped {ops : List (Op (World σ (AnyGen σ)))} {i : Nat} {logs : Logs}
    (hops : ∀ op ∈ ops, BuiltIn env (fun _ => True) (fun _ => True) op) (hnt : NoTimerUses 4 w) (h : World.execute env ops i w = .ok logs w') : ∃ s, w.stories[i]? = some s ∧
    ((w'.rels = w.rels ∧ w'.pops = w.pops ∧ w'.gens[4]? = w.gens[4]? ∧ logs = [] ∧ actingRows s = []) ∨ ∃ w1 out ls,
      Runs ops ⟨[s.idField], actingRows s⟩ (started w i s) out ls w1 ∧ NoTimerUses 4 (started w i s) ∧
      w'.rels = w1.rels ∧ w'.pops = w1.pops ∧ w'.gens[4]? = w1.gens[4]? ∧
      ∀ id, tablesOf id logs = (foldVals Frame.concat (tabs ls id)).toList) := by
  obtain ⟨s, w1, hs, h1, h2, h3, h4⟩ := execute_gen_at (i := 4) h
  obtain ⟨s0, w2, s1, s', hs0, h2', -, -, hrest, -⟩ := execute_ok h
  obtain ⟨-, rfl⟩ := afterOps_unique h2 h2'
  refine ⟨s, hs, ?_⟩
  obtain ⟨s3, hs3, hafter⟩ := h2
  rw [hs] at hs3
  cases hs3
  rcases hafter with ⟨hno, rfl, rfl⟩ | ⟨-, last, h5⟩
  · exact .inl ⟨hrest.rels, hrest.pops, h4 (h1.noTimer hnt), rfl, hno⟩
  · obtain ⟨hwf, ls, hr, hl⟩ := (chain_sequential env.logSet _ _ last _ w1).1 logs h5
    have hsame : SameStories (started w i s) w1 := by
      have := chain_apis (fun op hop => builtIn_respects (GenKept.any (env := env)) (hops op hop)) h5
      clear h5 h3 hrest h4 h2' hr
      induction this with
      | refl => exact .refl _
      | tail _ h ih => exact ih.trans (api_same h)
    exact .inr ⟨w1, last, ls, hr, h1.noTimer hnt, hrest.rels, hrest.pops, h4 (hsame.noTimer (h1.noTimer hnt)),
      fun id => by rw [tablesOf_dict hwf, hl]⟩

/-- what an execution of story `i`, whose members `s` has, does and logs -/
structure Happened (env : Env σ (AnyGen σ)) (sc : Scene) (vols poss : List Val) (o : Orders) (a : SeqGen) (i : Nat)
    (s : Story σ) (w w' : World σ (AnyGen σ)) (logs : Logs) (given : List (Val × Val)) : Prop where
  effect : Effect env stocks o vols a w w' (fun id => tablesOf id logs) given
  one : ∀ id, (tablesOf id logs).length ≤ 1
  other : ∀ id, id ≠ ["restock", "report", "purchases"].getD i "" → tablesOf id logs = []
  /-- those that act are restocked, or reported about -/
  acting : i ≠ 2 → actingRows s = [] ∧ logs = [] ∨
    ∃ t, tablesOf (["restock", "report", "purchases"].getD i "") logs = [t] ∧ t.index = (actingRows s).map (·.idx)
  buyers : ∀ t ∈ tablesOf "purchases" logs, (∀ i ∈ t.index, i ∈ (actingRows s).map (·.idx)) ∧
    ∀ r ∈ t.rows, idIn (cell t r "POS_ID") ∈ poss
  levels : sc.trigger ≠ none → ∀ t ∈ tablesOf "restock" logs, ∀ r ∈ t.rows,
    cell t r "PREV_STOCK_LEVEL" = .num (held o w 0 r.idx : Rat) ∧
    cell t r "NEW_STOCK_LEVEL" = .num (held o w' 0 r.idx : Rat)

theorem Effect.logs_eq {S : List Nat} {T' : String → List Frame} (h : Effect env S o vols a w w' T given)
    (e : ∀ id, T' id = T id) : Effect env S o vols a w w' T' given := by
  have : T' = T := funext e
  rw [this]
  exact h

/-- what the operations do and log when there are members that act -/
def Ran (env : Env σ (AnyGen σ)) (sc : Scene) (vols poss : List Val) (o : Orders) (a : SeqGen) (i : Nat)
    (s : Story σ) (w w1 : World σ (AnyGen σ)) (ls : List Logs) : Prop :=
  ∃ given logId tbl, logId = ["restock", "report", "purchases"].getD i "" ∧
  Effect env stocks o vols a (started w i s) w1 (tabs ls) given ∧ tabs ls logId = [tbl] ∧
  (∀ id, id ≠ logId → tabs ls id = []) ∧ (i ≠ 2 → tbl.index = (actingRows s).map (·.idx)) ∧
  (∀ t ∈ tabs ls "purchases", (∀ i ∈ t.index, i ∈ (actingRows s).map (·.idx)) ∧
    ∀ r ∈ t.rows, idIn (cell t r "POS_ID") ∈ poss) ∧
  (sc.trigger ≠ none → ∀ t ∈ tabs ls "restock", ∀ r ∈ t.rows,
    cell t r "PREV_STOCK_LEVEL" = .num (held o w 0 r.idx : Rat) ∧
    cell t r "NEW_STOCK_LEVEL" = .num (held o w1 0 r.idx : Rat))

theorem happened_of (hsem : env.sem = AnyGen.sem env.R) (hd : sc.Distinct)
    (hvols : ∀ x ∈ vols, ∃ n : Nat, x = .num (n : Rat)) (hw : Plays env sc vols poss w) {i : Nat}
    {ops : List (Op (World σ (AnyGen σ)))} {logs : Logs} (hi : (sc.chains env)[i]? = some ops)
    (h : World.execute env ops i w = .ok logs w') (o : Orders) (ha : w.gens[4]? = some (.seq a)) :
    ∃ s given, w.stories[i]? = some s ∧ Happened env sc vols poss o a i s w w' logs given := by
  have hb := chains_builtIn hi
  have hsame := execute_sameStories hb h
  obtain ⟨s, hs, hc⟩ := execute_stepped hb hw.own h
  refine ⟨s, ?_⟩
  have hfield : ["POS_ID", "POS_ID", "CUST_ID"][i]? = some s.idField := by
    rw [← hw.fields, List.getElem?_map, hs]
    rfl
  have hn := hw.ids s (List.mem_of_getElem? hs)
  rcases hc with ⟨r1, p1, g1, rfl, hno⟩ | ⟨w1, out, ls, hr, hnt, r1, p1, g1, hl⟩
  · exact ⟨[], hs, ⟨Effect.congr (w := w) (w' := w) (Effect.none hw.stocks ha rfl rfl (by simp [tablesOf])) rfl rfl
      r1 p1 g1, fun id => by simp [tablesOf], fun id _ => rfl, fun _ => .inl ⟨hno, rfl⟩, fun t ht => by simp [tablesOf] at ht,
      fun _ t ht => by simp [tablesOf] at ht⟩⟩
  obtain ⟨vp, vr, hv⟩ := hw.volumes
  obtain ⟨cp, cr, hch⟩ := hw.choice
  have hidx : (Frame.mk [s.idField] (actingRows s)).index = (actingRows s).map (·.idx) := rfl
  -- the members run
  have main : Ran env sc vols poss o a i s w w1 ls := by
    have hrest : i < 3 := (List.getElem?_eq_some_iff.1 hfield).1
    rw [Scene.chains] at hi
    have quiet : ∀ {given logId tbl}, logId ≠ "purchases" →
        logId = ["restock", "report", "purchases"].getD i "" →
        Effect env stocks o vols a (started w i s) w1 (tabs ls) given → tabs ls logId = [tbl] →
        (∀ id, id ≠ logId → tabs ls id = []) → tbl.index = (actingRows s).map (·.idx) →
        (sc.trigger ≠ none → ∀ t ∈ tabs ls "restock", ∀ r ∈ t.rows,
          cell t r "PREV_STOCK_LEVEL" = .num (held o w 0 r.idx : Rat) ∧
          cell t r "NEW_STOCK_LEVEL" = .num (held o w1 0 r.idx : Rat)) →
        Ran env sc vols poss o a i s w w1 ls := by
      intro given logId tbl hp hlog he ht ht' hx hl'
      refine ⟨given, logId, tbl, hlog, he, ht, ht', fun _ => hx, fun t hm => ?_, hl'⟩
      rw [ht' _ (Ne.symm hp)] at hm
      cases hm
    have buy : ∀ {more : List (Op (World σ (AnyGen σ)))}, Idle env more → i = 2 →
        Runs (purchaseOps env 2 1 0 0 1 (.ref sc.choice) ++ more) ⟨[s.idField], actingRows s⟩ (started w i s) out ls w1 →
        Ran env sc vols poss o a i s w w1 ls := by
      intro more hmore h2 hr
      subst h2
      have hf : s.idField = "CUST_ID" := (Option.some.inj hfield).symm
      obtain ⟨n1, n2, n3⟩ := acting_names hn hf
      obtain ⟨tbl, e1, e2, e3, e4, e5, -⟩ := purchase_effect (w := started w 2 s) hmore hsem hd.choice hch hw.wf hw.stocks
        ha hnt (by rw [hf]) n1 n2 n3 hr
      refine ⟨[], "purchases", tbl, rfl, e1, e2, e3, fun h => absurd rfl h, fun t ht => ?_, fun _ t ht => ?_⟩
      · rw [e2, List.mem_singleton] at ht
        subst ht
        exact ⟨e4, e5⟩
      · rw [e3 _ (by decide)] at ht
        cases ht
    have rep : i = 1 → Runs (reportOps env sc.day 1 0) ⟨[s.idField], actingRows s⟩ (started w i s) out ls w1 →
        Ran env sc vols poss o a i s w w1 ls := by
      intro h1 hr
      subst h1
      have hf : s.idField = "POS_ID" := (Option.some.inj hfield).symm
      obtain ⟨n1, n2, n3⟩ := acting_names hn hf
      obtain ⟨e1, ⟨tbl, e2, e3⟩, e4, -⟩ := report_effect (S := stocks) (by simp) (w := started w 1 s) (o := o) (vols := vols) hw.stocks ha hnt
        (by rw [hf]) n1 n2 n3 hr
      refine quiet (by decide) rfl e1 e2 e4 e3 fun _ t ht => ?_
      rw [e4 _ (by decide)] at ht
      cases ht
    split at hi
    · rename_i htr
      obtain rfl | rfl | rfl : i = 0 ∨ i = 1 ∨ i = 2 := by omega
      · cases hi
        have hf : s.idField = "POS_ID" := (Option.some.inj hfield).symm
        obtain ⟨n1, n2, n3⟩ := acting_names hn hf
        obtain ⟨given, tbl, e1, e2, e3, e4⟩ := periodic_effect (S := stocks) (by simp) (w := started w 0 s) (o := o) hsem hd.volumes hvols hv
          hw.wf hw.stocks ha hnt (by rw [hf]) n1 n2 n3 hr
        exact quiet (by decide) rfl e1 e2 e4 e3 fun h => absurd htr h
      · cases hi
        exact rep rfl hr
      · cases hi
        exact buy idle_nil rfl (by rw [List.append_nil]; exact hr)
    · rename_i t htr
      obtain rfl | rfl | rfl : i = 0 ∨ i = 1 ∨ i = 2 := by omega
      · cases hi
        have hf : s.idField = "POS_ID" := (Option.some.inj hfield).symm
        obtain ⟨n1, n2, n3⟩ := acting_names hn hf
        obtain ⟨given, tbl, e1, e2, e3, e4, e5⟩ := restock_effect (S := stocks) (by simp) (w := started w 0 s) (o := o) hsem hd.volumes hvols
          hv hw.wf hw.stocks ha hnt (by rw [hf]) n1 n2 n3 hr
        refine quiet (by decide) rfl e1 e2 e4 e3 fun _ t ht => ?_
        rw [e2, List.mem_singleton] at ht
        subst ht
        exact e5
      · cases hi
        exact rep rfl hr
      · cases hi
        exact buy (idle_trigger fun e => hd.trigger (by rw [htr, e])) rfl hr
  obtain ⟨given, logId, tbl, rfl, he, ht, ht', hx, hbuy, hlev⟩ := main
  have hT := tables_of_one hl ht ht'
  have hT : ∀ id, tablesOf id logs = tabs ls id := hT
  refine ⟨given, hs, ((he.congr (u := w) rfl rfl r1 p1 g1)).logs_eq hT, fun id => ?_, fun id hid => (hT id).trans (ht' id hid),
    fun h2 => .inr ⟨tbl, (hT _).trans ht, hx h2⟩, by rw [hT]; exact hbuy, fun hsc => ?_⟩
  · rw [hT]
    by_cases hid : id = ["restock", "report", "purchases"].getD i ""
    · rw [hid, ht]
      exact le_refl _
    · rw [ht' id hid]
      exact Nat.zero_le _
  · rw [hT]
    intro t ht r hr'
    rw [held_eq, held_eq, stockAt_rels r1]
    exact hlev hsc t ht r hr'

/-- the scenario can go on -/
theorem exec_plays (hsem : env.sem = AnyGen.sem env.R) (hd : sc.Distinct)
    (hvols : ∀ x ∈ vols, ∃ n : Nat, x = .num (n : Rat)) (hw : Plays env sc vols poss w) {i : Nat}
    {ops : List (Op (World σ (AnyGen σ)))} {logs : Logs} (hi : (sc.chains env)[i]? = some ops)
    (h : World.execute env ops i w = .ok logs w') : Plays env sc vols poss w' := by
  have hb := chains_builtIn hi
  have hsame := execute_sameStories hb h
  obtain ⟨a, ha⟩ := hw.items
  obtain ⟨s, given, -, hh⟩ := happened_of hsem hd hvols hw hi h env.orders ha
  have began : ∀ {r : GenRef} {g : AnyGen σ}, Began env w r g → Began env w' r g := fun hg => by
    obtain ⟨j, hj, hb'⟩ := began_iff.1 hg
    exact began_iff.2 ⟨j, hj, execute_gens (beganAt_inv j).toGenKept
      (fun op hop => builtIn_respects (beganAt_inv j).toGenKept (hb op hop)) h hb'⟩
  obtain ⟨vp, vr, hv⟩ := hw.volumes
  obtain ⟨cp, cr, hch⟩ := hw.choice
  exact ⟨by rw [hh.effect.pops]; exact hw.wf, SameStories.nodup hsame hw.ids,
    (SameStories.fields hsame).trans hw.fields, hh.effect.ok, ⟨_, hh.effect.gen⟩, hsame.noTimer hw.own,
    ⟨vp, vr, began hv⟩, ⟨cp, cr, began hch⟩⟩

theorem tick_plays (hw : Plays env sc vols poss w) (hsem : env.sem = AnyGen.sem env.R) :
    Plays env sc vols poss (nextStep env w) ∧ (nextStep env w).gens[4]? = w.gens[4]? := by
  obtain ⟨a, ha⟩ := hw.items
  have hg : (nextStep env w).gens[4]? = w.gens[4]? := by
    change (w.gens.map env.sem.tick)[4]? = _
    rw [List.getElem?_map, ha, hsem]
    rfl
  have began : ∀ {r : GenRef} {g : AnyGen σ}, Began env w r g → Began env (nextStep env w) r g := fun hg => by
    obtain ⟨j, hj, hb⟩ := began_iff.1 hg
    exact began_iff.2 ⟨j, hj, (beganAt_inv j).tick _ hb⟩
  obtain ⟨vp, vr, hv⟩ := hw.volumes
  obtain ⟨cp, cr, hch⟩ := hw.choice
  exact ⟨⟨hw.wf, hw.ids, hw.fields, hw.stocks, ⟨a, hg.trans ha⟩, hw.own, ⟨vp, vr, began hv⟩, ⟨cp, cr, began hch⟩⟩, hg⟩

end Shop
end Trumania
