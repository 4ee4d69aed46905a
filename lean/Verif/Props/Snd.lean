import Verif.Proofs.Snd
import Verif.Props.Ledger
import Verif.Props.Logs
import Verif.Spec.ExampleWorld

/-!
# The scenario of test_snd.py
-/

namespace Trumania
namespace Snd
open Spec World Circus
variable {σ γ : Type} {env : Env σ γ}

/-- the account of the stock of the dealers: the log of the purchases, and that of the bulk purchases -/
def simLedger : Ledger :=
  ⟨1, "purchases", "DEALER", "SOLD_SIM", "bulk_purchases", "DEALER_ID", "NUMBER_OF_SIMS", by decide⟩

theorem lengths_ok : Ledger.Lengths lengths := by
  intro cs vs hc h
  replace h : cs.mapM lengthOf = .ok vs := h
  induction cs generalizing vs with
  | nil => cases h; rfl
  | cons c cs ih =>
    rw [mapM_ok_iff] at h
    cases h with
    | cons h1 h2 =>
      obtain ⟨items, rfl⟩ := hc c List.mem_cons_self
      rw [ih _ (fun c hc' => hc c (List.mem_cons_of_mem _ hc')) (mapM_ok_iff.2 h2)]
      cases h1
      rfl

theorem clear_of {a b : String} (h : (decide (b ≠ a) && decide (b ++ "_x" ≠ a) && decide (b ++ "_y" ≠ a)) = true) :
    Clear a b := by
  simp only [Bool.and_eq_true, decide_eq_true_eq] at h
  exact ⟨h.1.1, h.1.2, h.2⟩

variable {fmt : Int → Cell}

theorem purchase_sells : simLedger.Sells env "AGENT" (purchaseOps env fmt 1 3 1 2) := by
  refine ⟨[_, _], [_, _], [_, _, _], [], false, none, rfl, .inl rfl, by decide, clear_of (by decide), ?_, ?_, ?_⟩
  · intro op hop
    simp only [List.mem_cons, List.not_mem_nil, or_false] at hop
    rcases hop with rfl | rfl
    · exact ⟨.adder (.timestamp _ _), .timestamp _ _ _ (clear_of (by decide))⟩
    · exact ⟨.selectOne _ _ _ _ _ _ _ (by simp), .selectOne _ _ _ _ _ _ _ (clear_of (by decide))⟩
  · intro op hop
    simp only [List.mem_cons, List.not_mem_nil, or_false] at hop
    rcases hop with rfl | rfl
    · exact ⟨⟨.adder (.applySeries _ _), .applySeries _ _ _ ⟨clear_of (by decide), clear_of (by decide)⟩⟩,
        .adder (.applySeries _ _)⟩
    · exact ⟨⟨.forceActNext _ _ _, .effect (.forceActNext _ _ _ trivial)⟩, .effect (.forceActNext _ _ _ trivial)⟩
  · intro op hop
    simp only [List.mem_cons, List.not_mem_nil, or_false] at hop
    rcases hop with rfl | rfl | rfl
    · exact ⟨.dropRow _, .dropRow _⟩
    · exact ⟨.relAdd _ _ _ (by decide), .effect (.relAdd _ _ _)⟩
    · exact ⟨.maybeBackToDefault _, .effect (.maybeBackToDefault _)⟩

theorem bulk_delivers : simLedger.Delivers env "DEALER_ID" (bulkOps env fmt 2 0 1 0 4 0 1) := by
  refine ⟨[_, _, _, _], [], [_, _], [_], _, _, lengths, rfl, .inr ⟨by decide, by decide⟩, lengths_ok, by decide,
    clear_of (by decide), ?_, by simp, ?_, ?_⟩
  · intro op hop
    simp only [List.mem_cons, List.not_mem_nil, or_false] at hop
    rcases hop with rfl | rfl | rfl | rfl
    · exact ⟨.adder (.timestamp _ _), .timestamp _ _ _ (clear_of (by decide))⟩
    · exact ⟨.selectOne _ _ _ _ _ _ _ (by simp), .selectOne _ _ _ _ _ _ _ (clear_of (by decide))⟩
    · exact ⟨.lookup _ _ _, .lookup _ _ _ (by decide) (by
        intro s hs
        rw [List.mem_singleton] at hs
        subst hs
        exact clear_of (by decide))⟩
    · exact ⟨.selectMany _ _ _ _ _ _ (by decide), .selectMany _ _ _ _ _ _ (clear_of (by decide))⟩
  · intro op hop
    simp only [List.mem_cons, List.not_mem_nil, or_false] at hop
    rcases hop with rfl | rfl
    · exact ⟨⟨.attrAdd _ _ _ _ _, .effect (.attrAdd _ _ _ _ _)⟩, .effect (.attrAdd _ _ _ _ _)⟩
    · exact ⟨⟨.forceActNext _ _ _, .effect (.forceActNext _ _ _ trivial)⟩, .effect (.forceActNext _ _ _ trivial)⟩
  · intro op hop
    rw [List.mem_singleton] at hop
    subst hop
    exact ⟨.maybeBackToDefault _, .effect (.maybeBackToDefault _)⟩

theorem bulk_within : ∀ op ∈ bulkOps env fmt 2 0 1 0 4 0 1, OpWithin env (fun _ => True) (fun _ => True)
    (Clear "DEALER_ID") (fun _ => True) (fun _ => True) op := by
  intro op hop
  simp only [bulkOps, List.mem_cons, List.not_mem_nil, or_false] at hop
  rcases hop with rfl | rfl | rfl | rfl | rfl | rfl | rfl | rfl | rfl | rfl
  · exact .timestamp _ _ _ (clear_of (by decide))
  · exact .selectOne _ _ _ _ _ _ _ (clear_of (by decide))
  · exact .lookup _ _ _ (by decide) (by
      intro s hs
      rw [List.mem_singleton] at hs
      subst hs
      exact clear_of (by decide))
  · exact .selectMany _ _ _ _ _ _ (clear_of (by decide))
  · exact .effect (.relAddGrouped _ _ _)
  · exact .applySeries _ _ _ (clear_of (by decide))
  · exact .effect (.attrAdd _ _ _ _ _)
  · exact .effect (.forceActNext _ _ _ trivial)
  · exact .fieldLogger _ _ _ trivial
  · exact .effect (.maybeBackToDefault _)

theorem restock_bystanding : simLedger.Bystanding env (restockOps env fmt 0 0 0 (.ref 1)) := by
  intro op hop
  simp only [restockOps, List.mem_cons, List.not_mem_nil, or_false] at hop
  rcases hop with rfl | rfl | rfl | rfl | rfl | rfl | rfl
  · exact ⟨.adder (.timestamp _ _), .timestamp _ _ _ trivial⟩
  · exact ⟨.lookup _ _ _, .lookup _ _ _ (by decide) fun _ _ => trivial⟩
  · exact ⟨.adder (.randomValues _ _), .randomValues _ _ _ trivial fun _ _ => trivial⟩
  · exact ⟨.relAddGrouped _ _ _ (by decide), .effect (.relAddGrouped _ _ _)⟩
  · exact ⟨.attrAdd _ _ _ _ _, .effect (.attrAdd _ _ _ _ _)⟩
  · exact ⟨.fieldLogger _ _ _, .fieldLogger _ _ _ ⟨by decide, by decide⟩⟩
  · exact ⟨.maybeBackToDefault _, .effect (.maybeBackToDefault _)⟩

theorem leave_bystanding : simLedger.Bystanding env (leaveOps env fmt 3 1 4) := by
  intro op hop
  simp only [leaveOps, List.mem_cons, List.not_mem_nil, or_false] at hop
  rcases hop with rfl | rfl | rfl | rfl | rfl | rfl
  · exact ⟨.transitToState _ _ _ _, .effect (.transitToState _ _ _ _)⟩
  · exact ⟨.resetTimers _ _, .effect (.resetTimers _ _ trivial)⟩
  · exact ⟨.adder (.timestamp _ _), .timestamp _ _ _ trivial⟩
  · exact ⟨.adder (.randomValues _ _), .randomValues _ _ _ trivial fun _ _ => trivial⟩
  · exact ⟨.fieldLogger _ _ _, .fieldLogger _ _ _ ⟨by decide, by decide⟩⟩
  · exact ⟨.maybeBackToDefault _, .effect (.maybeBackToDefault _)⟩

theorem return_bystanding : simLedger.Bystanding env (returnOps env fmt 4 1) := by
  intro op hop
  simp only [returnOps, List.mem_cons, List.not_mem_nil, or_false] at hop
  rcases hop with rfl | rfl | rfl | rfl | rfl
  · exact ⟨.transitToState _ _ _ _, .effect (.transitToState _ _ _ _)⟩
  · exact ⟨.adder (.timestamp _ _), .timestamp _ _ _ trivial⟩
  · exact ⟨.adder (.randomValues _ _), .randomValues _ _ _ trivial fun _ _ => trivial⟩
  · exact ⟨.fieldLogger _ _ _, .fieldLogger _ _ _ ⟨by decide, by decide⟩⟩
  · exact ⟨.maybeBackToDefault _, .effect (.maybeBackToDefault _)⟩

theorem review_bystanding {rg xg : GenRef} : simLedger.Bystanding env (reviewOps env fmt 5 2 3 rg xg) := by
  intro op hop
  simp only [reviewOps, List.mem_cons, List.not_mem_nil, or_false] at hop
  rcases hop with rfl | rfl | rfl | rfl | rfl | rfl | rfl
  · exact ⟨.adder (.timestamp _ _), .timestamp _ _ _ trivial⟩
  · exact ⟨.lookup _ _ _, .lookup _ _ _ (by decide) fun _ _ => trivial⟩
  · exact ⟨.adder (.randomValues _ _), .randomValues _ _ _ trivial fun _ _ => trivial⟩
  · exact ⟨.adder (.randomValues _ _), .randomValues _ _ _ trivial fun _ _ => trivial⟩
  · exact ⟨.popUpdate _ _ _, .effect (.popUpdate _ _ _)⟩
  · exact ⟨.fieldLogger _ _ _, .fieldLogger _ _ _ ⟨by decide, by decide⟩⟩
  · exact ⟨.maybeBackToDefault _, .effect (.maybeBackToDefault _)⟩

/-! ### What is sold by the broke dealer -/

theorem new_shape {name : String} {seed start step : Int} {c : Circus σ γ}
    (h : Circus.new env.R name seed start step = .ok c) : Shape c.world [] [] [] [] := by
  rw [Circus.new] at h
  obtain ⟨⟨x, s⟩, -, h⟩ := bind_eq_ok.1 h
  cases h
  exact ⟨rfl, rfl, rfl, rfl⟩

/-- a story of the circus as built, by its position -/
theorem Shape.storyAt {w : World σ γ} {R : List (Relationship σ)} {P : List (List Val × Nat × Dict String Nat)}
    {S : List (String × String × List Val × GenRef)} {T : List γ} (h : Shape w R P S T) {j : Nat} {s : Story σ}
    (hs : w.stories[j]? = some s) : ∃ n g, S[j]? = some (n, s.idField, s.ids, g) := by
  refine ⟨s.name, s.timerGen, ?_⟩
  rw [← h.stories, List.getElem?_map, hs]
  rfl

theorem Shape.story_nodup {w : World σ γ} {R : List (Relationship σ)}
    {P : List (List Val × Nat × Dict String Nat)} {S : List (String × String × List Val × GenRef)} {T : List γ}
    (h : Shape w R P S T) (hn : ∀ x ∈ S, x.2.2.1.Nodup) : ∀ s ∈ w.stories, s.ids.Nodup := by
  intro s hs
  exact hn (storyCore s) (by rw [← h.stories]; exact List.mem_map_of_mem hs)

/-- no id drawn for the dealers is that of the broke dealer -/
def NotBroke (env : Env σ γ) (a : γ) : Prop :=
  ∀ n cells a', env.sem.generate a n = .ok (cells, a') → Cell.scalar brokeDealer ∉ cells

theorem drawn_not_broke {a : γ} {n : Nat} {ids : List Val} (ha : NotBroke env a) (h : Drawn env a n ids) :
    brokeDealer ∉ ids := by
  rcases h with rfl | ⟨cells, a', h1, h2⟩
  · simp
  · intro hb
    obtain ⟨c, hc, he⟩ := forall₂_exists_left (mapM_ok_iff.1 h2) hb
    cases c with
    | scalar v => cases he; exact ha _ _ _ h1 hc
    | list l => cases he

theorem build_stranger {p : Params} {g : Parts γ} {chains : List (List (Op (World σ γ)))} {w : World σ γ}
    (h : Built env p g fmt chains w) (hd : NotBroke env g.dealerIds) :
    simLedger.Stranger env chains w brokeDealer ∧ (∀ s ∈ w.stories, s.ids.Nodup) ∧
      StocksOk env [1] w ∧ ∀ o, NoEmptyItem o w 1 brokeDealer ∧ held o w 1 brokeDealer = 3 := by
  obtain ⟨r0, r1, r2, r3, r4, distIds, dealerIds, agentIds, n, rc, sims, T, t1, t2, t3, t5, rg, xg, owners0,
    owners1, rfl, hs, -, ⟨nd0, nd1, nd2⟩, hd1, -, -, -, ⟨hlen, hown, hfill⟩, -⟩ := h.built
  have hb := drawn_not_broke hd hd1
  have hr1 : w.rels[1]? = some r1 := by rw [hs.rels]; rfl
  refine ⟨?_, ?_, ?_, ?_⟩
  · intro j ops s hj hj'
    obtain ⟨nm, tg, hc⟩ := hs.storyAt hj'
    match j with
    | 0 => cases hj; exact .inr (.inl restock_bystanding)
    | 1 =>
      cases hj
      injection hc with hc
      injection hc with _ hc
      injection hc with hc _
      rw [← hc]
      exact .inl purchase_sells
    | 2 =>
      cases hj
      injection hc with hc
      injection hc with _ hc
      injection hc with hc hc2
      injection hc2 with hc2 _
      rw [← hc, ← hc2]
      exact .inr (.inr ⟨bulk_delivers, rfl, hb, bulk_within⟩)
    | 3 => cases hj; exact .inr (.inl leave_bystanding)
    | 4 => cases hj; exact .inr (.inl return_bystanding)
    | 5 => cases hj; exact .inr (.inl review_bystanding)
    | k + 6 => cases hj
  · refine hs.story_nodup fun x hx => ?_
    simp only [List.mem_cons, List.not_mem_nil, or_false] at hx
    rcases hx with rfl | rfl | rfl | rfl | rfl | rfl <;> assumption
  · intro i hi
    rw [List.mem_singleton] at hi
    subst hi
    exact ⟨r1, hr1, hfill.1⟩
  · intro o
    have hp : (stockAt o w 1).Perm (owners1.zip (dealerSims p) ++ brokePairs) := by
      simp only [stockAt, hr1]
      exact hfill.2 o
    have hz : ∀ x ∈ owners1.zip (dealerSims p), x.1 ≠ brokeDealer := fun x hx he =>
      hb (he ▸ hown _ (List.of_mem_zip hx).1)
    constructor
    · intro x hx hxb
      rcases List.mem_append.1 (hp.mem_iff.1 hx) with hm | hm
      · exact absurd hxb (hz x hm)
      · simp only [brokePairs, brokeSims, List.map_cons, List.map_nil, List.mem_cons, List.not_mem_nil,
          or_false] at hm
        rcases hm with rfl | rfl | rfl <;> simp
    · rw [held, hp.countP_eq, List.countP_append, List.countP_eq_zero.2 (by simpa using hz)]
      decide

/-- the rows of the log of purchases that name a dealer -/
def purchasesFrom (dealer : Val) (logs : Logs) : List (Frame × Row) :=
  (tablesOf "purchases" logs).flatMap fun t =>
    (t.rows.filter fun r => decide (cell t r "DEALER" = .scalar dealer)).map fun r => (t, r)

/-- the sales that are not flagged as failed: `sales[~sales["FAILED_SALE"]]` (test_snd.py:524) -/
def okSales (dealer : Val) (logs : Logs) : Nat :=
  (purchasesFrom dealer logs).countP fun x => decide (cell x.1 x.2 "FAILED_SALE" = .bool false)

/-- the field that `select_one` adds has single values -/
theorem selectOne_scalar {rel : Nat} {fromField name : String} {o2o pop discard : Bool}
    {weight : Option (Dict Val Rat)} {data out : Frame} {logs : Logs} {w w' : World σ γ}
    (hn : data.index.Nodup) (hrect : Rect data) (hname : name ∉ data.cols) {r : Relationship σ}
    (hrel : w.rels[rel]? = some r) (hreach : Relationship.Reachable env.R r)
    (h : Ops.selectOne env rel fromField name o2o pop discard weight data w = .ok (out, logs) w') :
    ∀ x ∈ out.rows, ∃ v, cell out x name = .scalar v := by
  obtain ⟨-, c1, r', chosen, -, -, c2, -⟩ := C92_select_one hn hrel hreach env.orders h
  intro x hx
  rw [c2] at hx
  obtain ⟨y, hy, he⟩ := List.mem_filterMap.1 hx
  cases ht : chosen y with
  | none => rw [ht] at he; cases he
  | some t =>
    rw [ht] at he
    cases he
    refine ⟨t.getD .na, ?_⟩
    rw [Frame.cell_append_right (f := data) (g := ⟨[name], []⟩) (a := y) (b := ⟨y.idx, [.scalar (t.getD .na)]⟩)
      (c1 hname) (hrect y hy) rfl hname]
    simp [cell]

/-- the purchases that one execution logs are flagged as failed exactly if they have no SIM -/
theorem purchase_flags {data out : Frame} {ls : List Logs} {w w' : World σ γ}
    (hc : data.cols = ["AGENT"]) (hr : Rect data) (hn : data.index.Nodup) (hok : StocksOk env [1] w)
    (h : Runs (purchaseOps env fmt 1 3 1 2) data w out ls w') :
    ∀ t ∈ ls.filterMap (·.get? "purchases"), ∀ r ∈ t.rows,
      ∃ v, cell t r "SOLD_SIM" = .scalar v ∧ cell t r "FAILED_SALE" = .bool (decide (v = .na)) := by
  have hpre : ∀ op ∈ [Ops.timestamp env "DATETIME" true fmt,
      Ops.selectOne env 3 "AGENT" "DEALER" false false false none],
      simLedger.Aside env (fun c => Clear "SOLD_SIM" c ∧ Clear "FAILED_SALE" c) op := by
    intro op hop
    simp only [List.mem_cons, List.not_mem_nil, or_false] at hop
    rcases hop with rfl | rfl
    · exact ⟨.adder (.timestamp _ _), .timestamp _ _ _ ⟨clear_of (by decide), clear_of (by decide)⟩⟩
    · exact ⟨.selectOne _ _ _ _ _ _ _ (by simp),
        .selectOne _ _ _ _ _ _ _ ⟨clear_of (by decide), clear_of (by decide)⟩⟩
  obtain ⟨d1, w1, l1, lb, r1, r2, rfl⟩ := runs_split (a := [Ops.timestamp env "DATETIME" true fmt,
      Ops.selectOne env 3 "AGENT" "DEALER" false false false none]) h
  obtain ⟨ok1, -, q1, -⟩ := aside_runs hpre hok env.orders r1
  obtain ⟨rect1, k1⟩ := C82_field_kept (name := "SOLD_SIM") (fun _ h => h.1) (fun op hop => (hpre op hop).2) hr r1
  obtain ⟨-, k1'⟩ := C82_field_kept (name := "FAILED_SALE") (fun _ h => h.2) (fun op hop => (hpre op hop).2) hr r1
  obtain ⟨nd1, -⟩ := C44_at_each_point (fun op hop => aside_builtIn (hpre op hop)) hn r1
  cases r2 with
  | @cons _ _ _ d2 _ _ w2 _ la ls2 ha r3 =>
  cases r3 with
  | @cons _ _ _ d3 _ _ w3 _ lb2 ls3 hb r4 =>
  cases r4 with
  | @cons _ _ _ d4 _ _ w4 _ lc ls4 hforce r5 =>
  cases r5 with
  | @cons _ _ _ d5 _ _ w5 _ ld ls5 hlog r6 =>
  have hs1 : "SOLD_SIM" ∉ d1.cols := by rw [k1.1, hc]; decide
  have hf1 : "FAILED_SALE" ∉ d1.cols := by rw [k1'.1, hc]; decide
  obtain ⟨rl, hrl, hreach⟩ := ok1 1 (List.mem_singleton.2 rfl)
  have hsc := selectOne_scalar nd1 rect1 hs1 hrl hreach ha
  obtain ⟨rfl, -⟩ := C92_select_one nd1 hrl hreach env.orders ha
  have hw2 : OpWithin env (fun _ => True) (fun _ => True) (Clear "FAILED_SALE") (fun _ => True) (fun _ => True)
      (Ops.selectOne env 1 "DEALER" "SOLD_SIM" true true false none) :=
    .selectOne _ _ _ _ _ _ _ (clear_of (by decide))
  obtain ⟨rect2, k2⟩ := within_kept (name := "FAILED_SALE") (fun _ h => h) hw2 ha rect1
  obtain ⟨nd2, -⟩ := builtIn_index hw2.builtIn ha nd1
  have hf2 : "FAILED_SALE" ∉ d2.cols := by rw [k2.1]; exact hf1
  obtain ⟨rfl, rfl, values, hv, hadd⟩ := C91_apply_series nd2 rect2 hf2 hb
  cases hv
  obtain ⟨-, hd4⟩ := sideEffect_eq_ok.1 hforce
  cases hd4
  have hs2 : "SOLD_SIM" ∈ d2.cols := by
    obtain ⟨-, c1, -⟩ := C92_select_one nd1 hrl hreach env.orders ha
    rw [c1 hs1]; simp
  have hpost : ∀ op ∈ [Ops.dropRow "FAILED_SALE", Ops.relAdd env 2 "AGENT" "SOLD_SIM",
      Ops.maybeBackToDefault env 1],
      OpWithin env (fun _ => True) (fun _ => True) (fun _ => True) (fun _ => True) (· ≠ "purchases") op := by
    intro op hop
    simp only [List.mem_cons, List.not_mem_nil, or_false] at hop
    rcases hop with rfl | rfl | rfl
    · exact .dropRow _
    · exact .effect (.relAdd _ _ _)
    · exact .effect (.maybeBackToDefault _)
  have q6 := runs_quiet hpost (id := "purchases") (fun h => h rfl) r6
  obtain ⟨t0, hl1, hl2, rfl⟩ := fieldLogger_eq_ok.1 hlog
  cases hl1
  cases hl2
  have q1 : l1.filterMap (·.get? "purchases") = [] := q1
  intro t ht r hrt
  simp only [List.filterMap_append, q1, List.nil_append, List.filterMap_cons, Dict.get?, if_true, q6,
    List.mem_singleton] at ht
  obtain rfl := ht
  have hkept := hadd.kept "SOLD_SIM" hs2
  have hadded := hadd.added
  rw [← hkept, Frame.cellsOf_eq, Frame.cellsOf_eq, List.map_map] at hadded
  have hfail := List.map_inj_left.1 hadded r hrt
  have hmem : cell t r "SOLD_SIM" ∈ cellsOf d2 "SOLD_SIM" := by
    rw [← hkept, Frame.cellsOf_eq]
    exact List.mem_map.2 ⟨r, hrt, rfl⟩
  rw [Frame.cellsOf_eq] at hmem
  obtain ⟨r2, hr2, he⟩ := List.mem_map.1 hmem
  obtain ⟨v, hv⟩ := hsc r2 hr2
  rw [hv] at he
  refine ⟨v, he.symm, ?_⟩
  rw [hfail, Function.comp_apply, ← he]
  simp

/-- what holds of each table that an execution logs under an id holds of all those of a run -/
theorem played_tables {chains : List (List (Op (World σ γ)))} {id : String} {Q : Frame → Prop}
    {I : World σ γ → Prop} (hstep : ∀ i ops logs w w1, I w → chains[i]? = some ops →
      World.execute env ops i w = .ok logs w1 → I w1 ∧ ∀ t ∈ tablesOf id logs, Q t)
    (htick : ∀ w, I w → I (nextStep env w)) {w w' : World σ γ} {evs : List (Int × Event)}
    (h : Played env chains w evs w') (hw : I w) : I w' ∧ ∀ t ∈ tablesOf id (emitted evs), Q t := by
  induction h with
  | nil w => exact ⟨hw, by simp [emitted, tablesOf]⟩
  | @exec w w1 w' evs i ops logs hi h rest ih =>
    obtain ⟨h1, h2⟩ := hstep i ops logs w w1 hw hi h
    obtain ⟨h3, h4⟩ := ih h1
    refine ⟨h3, fun t ht => ?_⟩
    have e : emitted ((w.clock.current, Event.exec i logs) :: evs) = logs ++ emitted evs := rfl
    rw [e, tablesOf, List.filter_append, List.map_append, List.mem_append] at ht
    exact ht.elim (h2 t) (h4 t)
  | @tick w w' evs rest ih => exact ih (htick w hw)

/-- a flagged purchase -/
def Flagged (t : Frame) : Prop := ∀ r ∈ t.rows,
  ∃ v, cell t r "SOLD_SIM" = .scalar v ∧ cell t r "FAILED_SALE" = .bool (decide (v = .na))

/-- the fields of the ids of the six stories -/
def fields : List String := ["DISTRIBUTOR_ID", "AGENT", "DEALER_ID", "AGENT", "AGENT", "AGENT"]

theorem build_flags {p : Params} {g : Parts γ} {chains : List (List (Op (World σ γ)))} {w w' : World σ γ}
    {evs : List (Int × Event)} (hbuilt : Built env p g fmt chains w) (hd : NotBroke env g.dealerIds)
    (h : Played env chains w evs w') : ∀ t ∈ tablesOf "purchases" (emitted evs), Flagged t := by
  obtain ⟨hst, hids, hok, -⟩ := build_stranger hbuilt hd
  obtain ⟨r0, r1, r2, r3, r4, distIds, dealerIds, agentIds, n, rc, sims, T, t1, t2, t3, t5, rg, xg, owners0,
    owners1, rfl, hs, -⟩ := hbuilt.built
  have h1 : ∀ (j : Nat) s, w.stories[j]? = some s → fields[j]? = some s.idField := by
    intro j s hj
    obtain ⟨nm, tg, hc⟩ := hs.storyAt hj
    have := congrArg (Option.map fun x : String × String × List Val × GenRef => x.2.1) hc
    rw [← List.getElem?_map] at this
    exact this
  clear hs
  refine (played_tables (env := env) (I := fun w => simLedger.Keeps env _ w ∧ (∀ s ∈ w.stories, s.ids.Nodup) ∧
    StocksOk env [1] w ∧ ∀ (j : Nat) s, w.stories[j]? = some s → fields[j]? = some s.idField) ?_ ?_ h
    ⟨hst.keeps, hids, hok, h1⟩).2
  · rintro i ops logs w w1 ⟨hw, hids, hok, h1⟩ hi h
    obtain ⟨s, -, hs, -⟩ := execute_gen_at (i := 0) h
    have hk := hw i ops s hi hs
    have hsame := execute_sameStories (keeps_builtIn hk) h
    obtain ⟨k1, k2, k3, -, -⟩ := C104_execution hw hids hok hi h env.orders
    refine ⟨⟨k1, k2, k3, ?_⟩, ?_⟩
    · intro j s' hs'
      have hlen := List.Forall₂.length_eq hsame
      have hj' : j < w1.stories.length := (List.getElem?_eq_some_iff.1 hs').1
      have e := (List.forall₂_iff_get.1 hsame).2 j (by omega) hj'
      rw [List.get_eq_getElem, List.get_eq_getElem, (List.getElem?_eq_some_iff.1 hs').2] at e
      have hf : s'.idField = (w.stories[j]'(by omega)).idField := by rw [e.1]
      rw [hf]
      exact h1 j _ (List.getElem?_eq_getElem (by omega))
    · rcases execute_runs hs h with ⟨-, rfl⟩ | ⟨w2, out, ls, -, hr, hl⟩
      · simp [tablesOf]
      have hnd := actingRows_namesOwn (hids s (List.mem_of_getElem? hs))
      have hok0 : StocksOk env [1] (started w i s) :=
        (RelsKept.of_rels (env := env) (w := w) rfl [1] env.orders).1.2 hok
      rw [hl]
      have quiet : simLedger.Bystanding env ops →
          ∀ t ∈ (foldVals Frame.concat (ls.filterMap (·.get? "purchases"))).toList, Flagged t := by
        intro hk
        obtain ⟨-, -, k5, -⟩ := aside_runs hk hok0 env.orders hr
        rw [show ls.filterMap (·.get? "purchases") = [] from k5]; simp [foldVals]
      match i with
      | 0 => cases hi; exact quiet restock_bystanding
      | 1 =>
        cases hi
        have hid : s.idField = "AGENT" := (Option.some.inj (h1 1 s hs)).symm
        have hfl := purchase_flags (by rw [hid]) hnd.1 hnd.2.1 hok0 hr
        obtain ⟨-, -, -, t, k5, -⟩ := C104_sale purchase_sells (by rw [hid]) hnd.1 hnd.2.1 hok0 env.orders hr
        have k5 : ls.filterMap (·.get? "purchases") = [t] := k5
        rw [k5] at hfl ⊢
        intro t' ht'
        exact hfl t' (by simpa [foldVals, eq_comm] using ht')
      | 2 =>
        cases hi
        have hd : simLedger.Delivers env s.idField (bulkOps env fmt 2 0 1 0 4 0 1) := by
          rw [← (Option.some.inj (h1 2 s hs) : "DEALER_ID" = _)]
          exact bulk_delivers
        obtain ⟨-, k5, -⟩ := C104_delivery hd rfl hnd.1 hnd.2.1 hok0 env.orders hr
        rw [show ls.filterMap (·.get? "purchases") = [] from k5]; simp [foldVals]
      | 3 => cases hi; exact quiet leave_bystanding
      | 4 => cases hi; exact quiet return_bystanding
      | 5 => cases hi; exact quiet review_bystanding
      | k + 6 => cases hi
  · exact fun w hw => hw

/-! ### At most three successful sales -/

theorem okSales_eq {dealer : Val} {logs : Logs} (h : ∀ t ∈ tablesOf "purchases" logs, Flagged t) :
    okSales dealer logs ≤ soldBy "purchases" "DEALER" "SOLD_SIM" dealer logs := by
  rw [okSales, purchasesFrom, soldBy, List.countP_flatMap]
  refine List.sum_le_sum fun t ht => ?_
  rw [Function.comp_apply, List.countP_map, List.countP_filter]
  refine List.countP_mono_left fun r hr hp => ?_
  obtain ⟨v, h1, h2⟩ := h t ht r hr
  simp only [Function.comp_apply, h2, Bool.and_eq_true, decide_eq_true_eq, Cell.scalar.injEq, Val.bool.injEq,
    decide_eq_false_iff_not] at hp
  rw [decide_eq_true_eq, hp.2, h1]
  exact ⟨rfl, hp.1⟩

/-- **C105** Whatever the sizes, the generators, the graphs and the random draws of the scenario of
test_snd.py: if no dealer is drawn the id "broke_dealer", then in any run of the circus that the constructor
builds, the SIMs that the broke dealer still has and the purchases from it that are logged with a SIM are
three in total. -/
theorem C105_broke_dealer {p : Params} {g : Parts γ} {name : String} {seed start step : Int} {c c' : Circus σ γ}
    {chains : List (List (Op (World σ γ)))} (hnew : Circus.new env.R name seed start step = .ok c)
    (hbuild : build env p g fmt c = .ok chains c') (hd : NotBroke env g.dealerIds)
    {evs : List (Int × Event)} {w' : World σ γ} (h : Played env chains c'.world evs w') (o : Orders) :
    held o w' 1 brokeDealer + soldBy "purchases" "DEALER" "SOLD_SIM" brokeDealer (emitted evs) = 3 := by
  have hbuilt := build_shape (new_shape hnew) hbuild
  obtain ⟨hst, hids, hok, hne⟩ := build_stranger hbuilt hd
  have := C104_stranger hst hids hok h o (hne o).1
  rw [show simLedger.stock = 1 from rfl, (hne o).2] at this
  exact this

/-- **C105** the assertion of the test (test_snd.py:523-525): at most three purchases from the broke dealer
are not flagged as failed -/
theorem C105_at_most_three {p : Params} {g : Parts γ} {name : String} {seed start step : Int} {c c' : Circus σ γ}
    {chains : List (List (Op (World σ γ)))} (hnew : Circus.new env.R name seed start step = .ok c)
    (hbuild : build env p g fmt c = .ok chains c') (hd : NotBroke env g.dealerIds)
    {evs : List (Int × Event)} {w' : World σ γ} (h : Played env chains c'.world evs w') :
    okSales brokeDealer (emitted evs) ≤ 3 := by
  have h1 := C105_broke_dealer hnew hbuild hd h env.orders
  have h2 := okSales_eq (dealer := brokeDealer) (build_flags (build_shape (new_shape hnew) hbuild) hd h)
  omega

/-- **C105** the same for `run`, with the files it writes: the assertion of the test is about the logs
loaded from them (C60, C78) -/
theorem C105_run {p : Params} {g : Parts γ} {name : String} {seed start step : Int} {c c' : Circus σ γ}
    {chains : List (List (Op (World σ γ)))} (hnew : Circus.new env.R name seed start step = .ok c)
    (hbuild : build env p g fmt c = .ok chains c') (hd : NotBroke env g.dealerIds)
    {cellFmt : Cell → Text} {folder : Path} (so : SetOrder String) (fuel depth : Nat) (duration : Int)
    (delete : Bool) (fs : FS) (s' : Sys σ γ) (ht : Tree fs) (hdepth : DepthBelow fs folder depth)
    (hfuel : depth < fuel)
    (h : Sys.run env cellFmt folder so fuel chains duration delete ⟨c', fs⟩ = .ok () s') :
    ∃ events fs0, Played env chains c'.world events s'.circus.world ∧
      LogsWritten cellFmt folder fs0 (emitted events) s'.fs ∧ okSales brokeDealer (emitted events) ≤ 3 := by
  have hk : ∀ ops ∈ chains, ∀ op ∈ ops, KeepsDate op := by
    obtain ⟨hst, -⟩ := build_stranger (build_shape (new_shape hnew) hbuild) hd
    obtain ⟨_, _, _, _, _, _, _, _, _, _, _, _, _, _, _, _, _, _, _, _, rfl, hs, -⟩ :=
      (build_shape (new_shape hnew) hbuild).built
    intro ops ho op hop
    obtain ⟨j, hj⟩ := List.mem_iff_getElem?.1 ho
    have hlt : j < c'.world.stories.length := by
      have := congrArg List.length hs.stories
      rw [List.length_map] at this
      rw [this]
      exact (List.getElem?_eq_some_iff.1 hj).1
    exact C59_builtIn_keepsDate op
      (keeps_builtIn (hst.keeps j ops _ hj (List.getElem?_eq_getElem hlt)) op hop)
  obtain ⟨n, events, fs0, -, h1, -, -, -, h2⟩ := C60_logs so fuel depth duration delete _ s' hk ht hdepth hfuel h
  exact ⟨events, fs0, h1, h2, C105_at_most_three hnew hbuild hd h1⟩

/-- the ids of the dealers (test_snd.py:130-131) are not that of the broke dealer -/
theorem C105_dealer_ids (R : Rng σ) {env : Env σ (AnyGen σ)} (hsem : env.sem = AnyGen.sem R) {a : SeqGen}
    (ha : a.pre = "DEALER_") : NotBroke env (.seq a) := by
  intro m cells a' h hm
  rw [hsem] at h
  cases h
  obtain ⟨s, hs, he⟩ := List.mem_map.1 hm
  have he : s = "broke_dealer" := by
    injection he with he
    injection he
  subst he
  obtain ⟨i, -, hi⟩ := List.mem_map.1 hs
  have := congrArg (fun s : String => s.toList.head?) hi
  simp [buildId, ha] at this

/-! ### Non-vacuity -/

def exParams : Params := ⟨2, 2, 1, 1, 2, 4⟩
def exParts : Parts (AnyGen Nat) where
  distributorIds := .seq ⟨0, "DISTRIBUTOR_", 1⟩
  simIds := .seq ⟨0, "SIM_", 30⟩
  dealerIds := .seq ⟨0, "DEALER_", 3⟩
  agentIds := .seq ⟨0, "AGENT_", 3⟩
  agentNames seed := .choice [.str "Ann", .str "Bob"] none (Rng.counter.seed seed)
  agentWeights := .constant (.num 1)
  graph _ _ _ _ := [(0, 2), (1, 3)]
  bulkSizes _ := .constant (.num 2)
  timer seed := .cyclic ⟨Rng.counter.seed seed, 1, [(0, 1)]⟩
  activity seed := .uniform 10 10 (Rng.counter.seed seed)
  holidayStart seed := .uniform 1 1 (Rng.counter.seed seed)
  holidayEnd seed := .uniform 1 1 (Rng.counter.seed seed)
  reviewIds := .seq ⟨0, "REVIEW_", 5⟩
  reviewTexts _ := .constant (.str "fine")

def exFmt (t : Int) : Cell := .num t

def exBuilt : Option (List (List (Op (World Nat (AnyGen Nat)))) × Circus Nat (AnyGen Nat)) :=
  match Circus.new Rng.counter "snd" 1234 0 (3600 * nsPerSec) with
  | .ok c => match build exEnv exParams exParts exFmt c with
    | .ok chains c' => some (chains, c')
    | .error _ _ => none
  | .error _ => none

/-- executions of stories, and increments of the clock (`none`) -/
def play {σ γ : Type} (env : Env σ γ) (chains : List (List (Op (World σ γ)))) :
    List (Option Nat) → World σ γ → Option (List (Int × Event) × World σ γ)
  | [], w => some ([], w)
  | none :: l, w =>
    (play env chains l (nextStep env w)).map fun r => ((w.clock.current, .tick) :: r.1, r.2)
  | some i :: l, w =>
    match chains[i]? with
    | none => none
    | some ops => match execute env ops i w with
      | .ok logs w1 => (play env chains l w1).map fun r => ((w.clock.current, .exec i logs) :: r.1, r.2)
      | .error _ _ => none

theorem play_played {chains : List (List (Op (World σ γ)))} {l : List (Option Nat)} {w w' : World σ γ}
    {evs : List (Int × Event)} (h : play env chains l w = some (evs, w')) : Played env chains w evs w' := by
  induction l generalizing w evs with
  | nil => cases h; exact .nil _
  | cons x l ih =>
    cases x with
    | none =>
      obtain ⟨⟨e, v⟩, h1, h2⟩ := Option.map_eq_some_iff.1 h
      cases h2
      exact .tick (ih h1)
    | some i =>
      simp only [play] at h
      split at h
      · cases h
      · rename_i ops hops
        split at h
        · rename_i logs w1 hx
          obtain ⟨⟨e, v⟩, h1, h2⟩ := Option.map_eq_some_iff.1 h
          cases h2
          exact .exec hops hx (ih h1)
        · cases h

/-- the six stories, and one increment of the clock -/
def oneStep : List (Option Nat) := [some 0, some 1, some 2, some 3, some 4, some 5, none]

/-- the circus is built, and the broke dealer sells its three SIMs in three steps, and fails at the fourth -/
theorem exPlayed : (exBuilt.bind fun x => (play exEnv x.1 (oneStep ++ oneStep ++ oneStep ++ oneStep)
    x.2.world).map fun r => (okSales brokeDealer (emitted r.1),
    (purchasesFrom brokeDealer (emitted r.1)).length, held Orders.a r.2 1 brokeDealer)) = some (3, 4, 0) := by
  decide +kernel

/-- the hypotheses of C105 hold of this run -/
example : ∃ c c' chains evs w', Circus.new exEnv.R "snd" 1234 0 (3600 * nsPerSec) = .ok c ∧
    build exEnv exParams exParts exFmt c = .ok chains c' ∧ NotBroke exEnv exParts.dealerIds ∧
    Played exEnv chains c'.world evs w' ∧ okSales brokeDealer (emitted evs) = 3 := by
  obtain ⟨⟨chains, c'⟩, h1, h2⟩ := Option.bind_eq_some_iff.1 exPlayed
  obtain ⟨⟨evs, w'⟩, h3, h4⟩ := Option.map_eq_some_iff.1 h2
  rw [exBuilt] at h1
  split at h1
  · rename_i c hc
    split at h1
    · rename_i hb
      cases h1
      exact ⟨c, _, _, evs, w', hc, hb, C105_dealer_ids Rng.counter rfl rfl, play_played h3, (Prod.mk.inj h4).1⟩
    · cases h1
  · cases h1

end Snd
end Trumania
