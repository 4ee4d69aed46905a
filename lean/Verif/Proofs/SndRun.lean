import Verif.Proofs.SndSims

/-! The SIMs in a run of the SND scenario. -/

namespace Trumania
namespace Snd
open Spec World Relationship
variable {σ γ : Type} {env : Env σ γ} {fmt : Int → Cell}

/-- an execution: nothing happens, or the operations run and the timers are reset -/
theorem execute_stepped {ops : List (Op (World σ γ))} {i : Nat} {w w' : World σ γ} {logs : Logs}
    (hnt : NoTimerUses 1 w) (h : World.execute env ops i w = .ok logs w') : ∃ s, w.stories[i]? = some s ∧
    ((w'.rels = w.rels ∧ w'.pops = w.pops ∧ w'.gens[1]? = w.gens[1]?) ∨ ∃ w1 out ls,
      Runs ops ⟨[s.idField], actingRows s⟩ (started w i s) out ls w1 ∧ NoTimerUses 1 (started w i s) ∧
      w'.rels = w1.rels ∧ w'.pops = w1.pops ∧ (NoTimerUses 1 w1 → w'.gens[1]? = w1.gens[1]?)) := by
  obtain ⟨s, w1, hs, h1, h2, h3, h4⟩ := execute_gen_at (i := 1) h
  obtain ⟨s0, w2, s1, s', hs0, h2', -, -, hrest, -⟩ := execute_ok h
  obtain ⟨-, rfl⟩ := afterOps_unique h2 h2'
  refine ⟨s, hs, ?_⟩
  obtain ⟨s3, hs3, hafter⟩ := h2
  rw [hs] at hs3
  cases hs3
  rcases hafter with ⟨-, rfl, rfl⟩ | ⟨-, last, h5⟩
  · exact .inl ⟨hrest.rels, hrest.pops, h4 (h1.noTimer hnt)⟩
  · obtain ⟨-, ls, hr, -⟩ := (chain_sequential env.logSet _ _ last _ w1).1 logs h5
    exact .inr ⟨w1, last, ls, hr, h1.noTimer hnt, hrest.rels, hrest.pops, h4⟩

/-- the operations of the other stories neither touch the stocks nor draw ids of SIMs -/
def Quiet (env : Env σ γ) (ops : List (Op (World σ γ))) : Prop :=
  ∀ op ∈ ops, Apart env (· ∈ stocks) op ∧
    OpWithin env (fun _ => True) (fun _ => True) (fun _ => True) (· ≠ 1) (fun _ => True) op

theorem far_ne {g : GenRef} (h : Far g) : ∀ j ∈ refs g, j ≠ 1 := fun j hj e => by
  have := h j hj
  omega

theorem leave_quiet : Quiet env (leaveOps env fmt 3 1 4) := by
  intro op hop
  simp only [leaveOps, List.mem_cons, List.not_mem_nil, or_false] at hop
  rcases hop with rfl | rfl | rfl | rfl | rfl | rfl
  · exact ⟨.transitToState _ _ _ _, .effect (.transitToState _ _ _ _)⟩
  · exact ⟨.resetTimers _ _, .effect (.resetTimers _ _ trivial)⟩
  · exact ⟨.adder (.timestamp _ _), .timestamp _ _ _ trivial⟩
  · exact ⟨.adder (.randomValues _ _), .randomValues _ _ _ trivial (by simp [refs])⟩
  · exact ⟨.fieldLogger _ _ _, .fieldLogger _ _ _ trivial⟩
  · exact ⟨.maybeBackToDefault _, .effect (.maybeBackToDefault _)⟩

theorem return_quiet : Quiet env (returnOps env fmt 4 1) := by
  intro op hop
  simp only [returnOps, List.mem_cons, List.not_mem_nil, or_false] at hop
  rcases hop with rfl | rfl | rfl | rfl | rfl
  · exact ⟨.transitToState _ _ _ _, .effect (.transitToState _ _ _ _)⟩
  · exact ⟨.adder (.timestamp _ _), .timestamp _ _ _ trivial⟩
  · exact ⟨.adder (.randomValues _ _), .randomValues _ _ _ trivial (by simp [refs])⟩
  · exact ⟨.fieldLogger _ _ _, .fieldLogger _ _ _ trivial⟩
  · exact ⟨.maybeBackToDefault _, .effect (.maybeBackToDefault _)⟩

theorem review_quiet {rg xg : GenRef} (h1 : Far rg) (h2 : Far xg) : Quiet env (reviewOps env fmt 5 2 3 rg xg) := by
  intro op hop
  simp only [reviewOps, List.mem_cons, List.not_mem_nil, or_false] at hop
  rcases hop with rfl | rfl | rfl | rfl | rfl | rfl | rfl
  · exact ⟨.adder (.timestamp _ _), .timestamp _ _ _ trivial⟩
  · exact ⟨.lookup _ _ _, .lookup _ _ _ (by decide) fun _ _ => trivial⟩
  · exact ⟨.adder (.randomValues _ _), .randomValues _ _ _ trivial (far_ne h1)⟩
  · exact ⟨.adder (.randomValues _ _), .randomValues _ _ _ trivial (far_ne h2)⟩
  · exact ⟨.popUpdate _ _ _, .effect (.popUpdate _ _ _)⟩
  · exact ⟨.fieldLogger _ _ _, .fieldLogger _ _ _ trivial⟩
  · exact ⟨.maybeBackToDefault _, .effect (.maybeBackToDefault _)⟩

/-- the operations that draw no id of a SIM -/
def DrawsNone (env : Env σ γ) (ops : List (Op (World σ γ))) : Prop :=
  ∀ op ∈ ops, OpWithin env (fun _ => True) (fun _ => True) (fun _ => True) (· ≠ 1) (fun _ => True) op

theorem purchase_draws : DrawsNone env (purchaseOps env fmt 1 3 1 2) := by
  intro op hop
  simp only [purchaseOps, List.mem_cons, List.not_mem_nil, or_false] at hop
  rcases hop with rfl | rfl | rfl | rfl | rfl | rfl | rfl | rfl | rfl
  · exact .timestamp _ _ _ trivial
  · exact .selectOne _ _ _ _ _ _ _ trivial
  · exact .selectOne _ _ _ _ _ _ _ trivial
  · exact .applySeries _ _ _ trivial
  · exact .effect (.forceActNext _ _ _ trivial)
  · exact .fieldLogger _ _ _ trivial
  · exact .dropRow _
  · exact .effect (.relAdd _ _ _)
  · exact .effect (.maybeBackToDefault _)

theorem restock_within : ∀ op ∈ restockOps env fmt 0 0 0 (.ref 1),
    OpWithin env (fun _ => True) (fun _ => True) (fun _ => True) (· ≠ 2) (fun _ => True) op := by
  intro op hop
  simp only [restockOps, List.mem_cons, List.not_mem_nil, or_false] at hop
  rcases hop with rfl | rfl | rfl | rfl | rfl | rfl | rfl
  · exact .timestamp _ _ _ trivial
  · exact .lookup _ _ _ (by decide) fun _ _ => trivial
  · exact .randomValues _ _ _ trivial (by simp [refs])
  · exact .effect (.relAddGrouped _ _ _)
  · exact .effect (.attrAdd _ _ _ _ _)
  · exact .fieldLogger _ _ _ trivial
  · exact .effect (.maybeBackToDefault _)

theorem bulk_draws : DrawsNone env (bulkOps env fmt 2 0 1 0 4 0 1) := by
  intro op hop
  simp only [bulkOps, List.mem_cons, List.not_mem_nil, or_false] at hop
  rcases hop with rfl | rfl | rfl | rfl | rfl | rfl | rfl | rfl | rfl | rfl
  · exact .timestamp _ _ _ trivial
  · exact .selectOne _ _ _ _ _ _ _ trivial
  · exact .lookup _ _ _ (by decide) fun _ _ => trivial
  · exact .selectMany _ _ _ _ _ _ trivial
  · exact .effect (.relAddGrouped _ _ _)
  · exact .applySeries _ _ _ trivial
  · exact .effect (.attrAdd _ _ _ _ _)
  · exact .effect (.forceActNext _ _ _ trivial)
  · exact .fieldLogger _ _ _ trivial
  · exact .effect (.maybeBackToDefault _)

/-- all these operations are built-in -/
theorem chains_builtIn {rg xg : GenRef} (h1 : Far rg) (h2 : Far xg) : ∀ ops ∈ [restockOps env fmt 0 0 0 (.ref 1),
    purchaseOps env fmt 1 3 1 2, bulkOps env fmt 2 0 1 0 4 0 1, leaveOps env fmt 3 1 4, returnOps env fmt 4 1,
    reviewOps env fmt 5 2 3 rg xg], ∀ op ∈ ops, BuiltIn env (fun _ => True) (fun _ => True) op := by
  intro ops hops op hop
  simp only [List.mem_cons, List.not_mem_nil, or_false] at hops
  rcases hops with rfl | rfl | rfl | rfl | rfl | rfl
  · exact (restock_within op hop).builtIn
  · exact (purchase_draws op hop).builtIn
  · exact (bulk_draws op hop).builtIn
  · exact (leave_quiet op hop).2.builtIn
  · exact (return_quiet op hop).2.builtIn
  · exact (review_quiet h1 h2 op hop).2.builtIn

/-! ### Executions -/

section
variable {R : Rng σ} {env : Env σ (AnyGen σ)}

/-- The stories of the scenario, and what they leave as it is: the distributors of the dealers, the sizes of
their purchases. The SIMs are `others`, and the ids given by the sequential generator. -/
structure Inv (env : Env σ (AnyGen σ)) (o : Orders) (a : SeqGen) (others : List Val) (D : List (Val × Val))
    (P : Population) (S : List (String × String × List Val × GenRef)) (w : World σ (AnyGen σ)) : Prop where
  ok : StocksOk env stocks w
  stories : w.stories.map storyCore = S
  dist : (stockAt o w 4).Perm D
  pop : w.pops[1]? = some P
  sims : ∃ n : Nat, w.gens[1]? = some (.seq { a with counter := a.counter + n }) ∧
    (holdings o [0, 1, 2] w).Perm (others ++ Spec.idsFrom a n)

/-- what the invariant is about -/
structure Setting (others : List Val) (D : List (Val × Val)) (P : Population)
    (S : List (String × String × List Val × GenRef)) : Prop where
  fields : S.map (fun x => x.2.1) = fields
  nodup : ∀ x ∈ S, x.2.2.1.Nodup
  timers : ∀ x ∈ S, 1 ∉ refs x.2.2.2
  items : ∀ v ∈ others, v ≠ .na
  apart : (D.map Prod.snd).Nodup
  has : ∀ x, S[2]? = some x → ∀ i ∈ x.2.2.1, i ∈ D.map Prod.fst
  wf : Population.WF P
  sizes : ∃ at_, P.attributes = [("BULK_BUY_SIZE", at_)] ∧ ∀ x ∈ at_.table, ∃ n : Nat, x.2 = .num (n : Rat)

theorem sameStories_core {w w' : World σ (AnyGen σ)} (h : SameStories w w') :
    w'.stories.map storyCore = w.stories.map storyCore := by
  have h' : List.Forall₂ (fun s s' : Story σ => storyCore s' = storyCore s) w.stories w'.stories :=
    h.imp fun s s' e => by
      rw [storyCore, storyCore, e.2, e.1]
  clear h
  revert h'
  generalize w.stories = l
  generalize w'.stories = l'
  intro h
  induction h with
  | nil => rfl
  | cons h _ ih => rw [List.map_cons, List.map_cons, h, ih]

variable {o : Orders} {a : SeqGen} {others : List Val} {D : List (Val × Val)} {P : Population}
  {S : List (String × String × List Val × GenRef)}

theorem Inv.noTimer {w : World σ (AnyGen σ)} (h : Inv env o a others D P S w) (hS : Setting others D P S) :
    NoTimerUses 1 w := by
  intro s hs
  have := hS.timers (storyCore s) (by rw [← h.stories]; exact List.mem_map_of_mem hs)
  exact this

theorem idsFrom_str {n : Nat} : ∀ v ∈ Spec.idsFrom a n, v ≠ .na := by
  intro v hv
  simp only [Spec.idsFrom, List.mem_map] at hv
  obtain ⟨k, -, rfl⟩ := hv
  simp

/-- what the operations of a story do -/
theorem ops_step (hsem : env.sem = AnyGen.sem R) (hS : Setting others D P S) {w w1 : World σ (AnyGen σ)}
    (hI : Inv env o a others D P S w) {rg xg : GenRef} (h1 : Far rg) (h2 : Far xg) {j : Nat}
    {ops : List (Op (World σ (AnyGen σ)))} {s : Story σ}
    (hj : [restockOps env fmt 0 0 0 (.ref 1), purchaseOps env fmt 1 3 1 2, bulkOps env fmt 2 0 1 0 4 0 1,
      leaveOps env fmt 3 1 4, returnOps env fmt 4 1, reviewOps env fmt 5 2 3 rg xg][j]? = some ops)
    (hs : w.stories[j]? = some s) {out : Frame} {ls : List Logs} (hnt : NoTimerUses 1 (started w j s))
    (hr : Runs ops ⟨[s.idField], actingRows s⟩ (started w j s) out ls w1) :
    StocksOk env stocks w1 ∧ (stockAt o w1 4).Perm D ∧ NoTimerUses 1 w1 ∧ ∃ n : Nat,
      w1.gens[1]? = some (.seq { a with counter := a.counter + n }) ∧
      (holdings o [0, 1, 2] w1).Perm (others ++ Spec.idsFrom a n) := by
  have hok : StocksOk env stocks (started w j s) := hI.ok
  have hdist : (stockAt o (started w j s) 4).Perm D := hI.dist
  obtain ⟨n, hg, hh⟩ := hI.sims
  have hg : (started w j s).gens[1]? = some (.seq { a with counter := a.counter + n }) := hg
  have hh : (holdings o [0, 1, 2] (started w j s)).Perm (others ++ Spec.idsFrom a n) := hh
  have hcore : S[j]? = some (storyCore s) := by
    rw [← hI.stories, List.getElem?_map, hs]; rfl
  have hfield : fields[j]? = some s.idField := by
    rw [← hS.fields, List.getElem?_map, hcore]; rfl
  have hids : s.ids.Nodup := hS.nodup _ (List.mem_of_getElem? hcore)
  have hown := actingRows_namesOwn hids
  have hidx : ∀ i ∈ Frame.index ⟨[s.idField], actingRows s⟩, i ∈ s.ids := by
    intro i hi
    simp only [Frame.index, Story.actingRows_eq, List.map_map, List.mem_map] at hi
    obtain ⟨x, hx, rfl⟩ := hi
    exact ((List.filter_sublist (l := s.timer)).map _).subset hx
  have none : DrawsNone env ops → w1.gens[1]? = some (.seq { a with counter := a.counter + n }) ∧
      NoTimerUses 1 w1 := by
    intro hk
    obtain ⟨k1, k2⟩ := C82_generator_kept (i := 1) (by simp) hk hnt hr
    exact ⟨k1.trans hg, k2⟩
  have quiet : Quiet env ops → StocksOk env stocks w1 ∧ (stockAt o w1 4).Perm D ∧ NoTimerUses 1 w1 ∧ ∃ n : Nat,
      w1.gens[1]? = some (.seq { a with counter := a.counter + n }) ∧
      (holdings o [0, 1, 2] w1).Perm (others ++ Spec.idsFrom a n) := by
    intro hk
    obtain ⟨k1, k2⟩ := none fun op hop => (hk op hop).2
    obtain ⟨ok1, s1⟩ := (runs_apart (fun op hop => (hk op hop).1) hr).stockAt hok
    refine ⟨ok1, (s1 o 4 (by simp)).trans hdist, k2, n, k1, ?_⟩
    refine (holdings_perm fun i hi => ?_).trans hh
    exact s1 o i (mem_stocks hi)
  match j with
  | 0 =>
    cases hj
    injection hfield with hfield
    rw [← hfield] at hr hown
    obtain ⟨ok1, d1, m, g1, p1⟩ := restock_adds hsem rfl hown.1 hown.2.1 hok o hg hnt hr
    refine ⟨ok1, d1.trans hdist, ?_, n + m, ?_, ?_⟩
    · exact (runs_same restock_within (i := 2) (by simp) hr).noTimer hnt
    · rw [g1]
      simp [Int.add_assoc]
    · refine p1.trans ?_
      rw [idsFrom_append, ← List.append_assoc]
      exact hh.append_right _
  | 1 =>
    cases hj
    injection hfield with hfield
    rw [← hfield] at hr hown
    obtain ⟨k1, k2⟩ := none purchase_draws
    have hna : ∀ p ∈ stockAt o (started w 1 s) 1, p.2 ≠ .na := by
      intro p hp
      have : p.2 ∈ holdings o [0, 1, 2] (started w 1 s) := by
        rw [holdings, List.mem_flatMap]
        exact ⟨1, by simp, List.mem_map_of_mem hp⟩
      rcases List.mem_append.1 (hh.mem_iff.1 this) with h | h
      · exact hS.items _ h
      · exact idsFrom_str _ h
    obtain ⟨ok1, d1, p1⟩ := purchase_moves rfl hown.1 hown.2.1 hok o hna hr
    exact ⟨ok1, d1.trans hdist, k2, n, k1, p1.trans hh⟩
  | 2 =>
    cases hj
    injection hfield with hfield
    rw [← hfield] at hr hown
    obtain ⟨k1, k2⟩ := none bulk_draws
    obtain ⟨at_, e1, e2⟩ := hS.sizes
    have hhas : ∀ i ∈ Frame.index ⟨[s.idField], actingRows s⟩, i ∈ (stockAt o (started w 2 s) 4).map Prod.fst := by
      intro i hi
      rw [(hdist.map Prod.fst).mem_iff]
      exact hS.has _ hcore i (hidx i hi)
    obtain ⟨ok1, d1, p1⟩ := bulk_moves rfl hown hok o hhas
      ((hdist.map Prod.snd).nodup_iff.2 hS.apart) ⟨P, at_, hI.pop, hS.wf, e1, e2⟩ hr
    exact ⟨ok1, d1.trans hdist, k2, n, k1, p1.trans hh⟩
  | 3 => cases hj; exact quiet leave_quiet
  | 4 => cases hj; exact quiet return_quiet
  | 5 => cases hj; exact quiet (review_quiet h1 h2)
  | k + 6 => cases hj

/-- an execution of a story of the scenario -/
theorem inv_exec (hsem : env.sem = AnyGen.sem R) (hS : Setting others D P S) {w w' : World σ (AnyGen σ)}
    (hI : Inv env o a others D P S w) {rg xg : GenRef} (h1 : Far rg) (h2 : Far xg) {j : Nat}
    {ops : List (Op (World σ (AnyGen σ)))} {logs : Logs}
    (hj : [restockOps env fmt 0 0 0 (.ref 1), purchaseOps env fmt 1 3 1 2, bulkOps env fmt 2 0 1 0 4 0 1,
      leaveOps env fmt 3 1 4, returnOps env fmt 4 1, reviewOps env fmt 5 2 3 rg xg][j]? = some ops)
    (h : World.execute env ops j w = .ok logs w') : Inv env o a others D P S w' := by
  have hst := execute_sameStories (chains_builtIn h1 h2 ops (List.mem_of_getElem? hj)) h
  obtain ⟨s, hs, ⟨e1, e2, e3⟩ | ⟨w1, out, ls, hr, hnt, e1, e2, e3⟩⟩ := execute_stepped (hI.noTimer hS) h
  · obtain ⟨n, hg, hh⟩ := hI.sims
    obtain ⟨k1, k2⟩ := (RelsKept.of_eq (env := env) (S := (· ∈ stocks)) e1).stockAt hI.ok
    refine ⟨k1, (sameStories_core hst).trans hI.stories, (k2 o 4 (by simp)).trans hI.dist, by rw [e2]; exact hI.pop,
      n, e3.trans hg, ?_⟩
    exact (holdings_perm fun i hi => k2 o i (mem_stocks hi)).trans hh
  · obtain ⟨k1, k2, k3, n, k4, k5⟩ := ops_step hsem hS hI h1 h2 hj hs hnt hr
    obtain ⟨m1, m2⟩ := (RelsKept.of_eq (env := env) (S := (· ∈ stocks)) e1).stockAt k1
    refine ⟨m1, (sameStories_core hst).trans hI.stories, (m2 o 4 (by simp)).trans k2, ?_, n, (e3 k3).trans k4, ?_⟩
    · rw [e2, runs_keepsPop (chains_keepsPop ops (List.mem_of_getElem? hj)) hr]
      exact hI.pop
    · exact (holdings_perm fun i hi => m2 o i (mem_stocks hi)).trans k5

theorem inv_tick (hsem : env.sem = AnyGen.sem R) {w : World σ (AnyGen σ)} (hI : Inv env o a others D P S w) :
    Inv env o a others D P S (nextStep env w) := by
  obtain ⟨n, hg, hh⟩ := hI.sims
  refine ⟨hI.ok, hI.stories, hI.dist, hI.pop, n, ?_, hh⟩
  simp only [nextStep, World.gens, List.getElem?_map] at hg ⊢
  rw [hg, hsem]
  rfl

theorem inv_played (hsem : env.sem = AnyGen.sem R) (hS : Setting others D P S) {w w' : World σ (AnyGen σ)}
    {rg xg : GenRef} (h1 : Far rg) (h2 : Far xg) {evs : List (Int × Event)}
    (h : Played env [restockOps env fmt 0 0 0 (.ref 1), purchaseOps env fmt 1 3 1 2, bulkOps env fmt 2 0 1 0 4 0 1,
      leaveOps env fmt 3 1 4, returnOps env fmt 4 1, reviewOps env fmt 5 2 3 rg xg] w evs w')
    (hI : Inv env o a others D P S w) : Inv env o a others D P S w' := by
  induction h with
  | nil => exact hI
  | exec hi h _ ih => exact ih (inv_exec hsem hS hI h1 h2 hi h)
  | tick _ ih => exact ih (inv_tick hsem hI)

end

end Snd
end Trumania
