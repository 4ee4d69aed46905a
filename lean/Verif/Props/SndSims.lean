import Verif.Proofs.SndRun
import Verif.Props.Ids

/-!
# C106: in a run of the SND scenario no SIM is lost
-/

namespace Trumania
namespace Snd
open Spec World Relationship
variable {σ : Type} {R : Rng σ} {env : Env σ (AnyGen σ)} {fmt : Int → Cell}

/-- a generator of ids gives as many ids as it is asked -/
def GivesAsked (env : Env σ (AnyGen σ)) (a : AnyGen σ) : Prop :=
  ∀ (n : Nat) cells a', env.sem.generate a (n : Rat) = .ok (cells, a') → cells.length = n

/-- the sizes of the bulk purchases are natural numbers -/
def GivesNaturals (env : Env σ (AnyGen σ)) (mk : Int → AnyGen σ) : Prop :=
  ∀ seed n cells a', env.sem.generate (mk seed) n = .ok (cells, a') → ∀ c ∈ cells, ∃ m : Nat, c = .num (m : Rat)

/-- the SIMs that the dealers have at first (test_snd.py:136-166) -/
def firstSims (p : Params) : List Val :=
  (build_ids p.nSimsDealer 0 "SIM_" 10).map Val.str ++ brokeSims

theorem firstSims_str {p : Params} : ∀ v ∈ firstSims p, v ≠ .na := by
  intro v hv
  rcases List.mem_append.1 hv with h | h
  · obtain ⟨s, -, rfl⟩ := List.mem_map.1 h
    simp
  · simp only [brokeSims, List.mem_cons, List.not_mem_nil, or_false] at h
    rcases h with rfl | rfl | rfl <;> simp

theorem zip_snd {α β : Type} {l : List α} {l' : List β} (h : l.length = l'.length) :
    (l.zip l').map Prod.snd = l' := List.map_snd_zip (by omega)

theorem second_of_take {α : Type} {l : List α} {a b : α} (h : l.take 2 = [a, b]) : l[1]? = some b := by
  have := congrArg (·[1]?) h
  simpa [List.getElem?_take] using this

theorem seq_drawn (hsem : env.sem = AnyGen.sem R) {a : SeqGen} {n : Nat} {cells : List Cell} {s : AnyGen σ}
    {sims : List Val} (h : env.sem.generate (.seq a) (n : Rat) = .ok (cells, s))
    (hc : cells.mapM Cell.asVal = .ok sims) :
    sims = Spec.idsFrom a n ∧ s = .seq { a with counter := a.counter + n } := by
  rw [hsem] at h
  injection h with h
  injection h with h h'
  have e : cells = (Spec.idsFrom a n).map Cell.scalar := by
    rw [← h, SeqGen.generate, build_ids]
    simp [Spec.idsFrom, arange, AnyGen.pyInt_natCast]
  refine ⟨?_, ?_⟩
  · subst e
    have := mapM_ok_iff.1 hc
    rw [List.forall₂_map_left_iff] at this
    refine (List.forall₂_eq_eq_eq ▸ this.imp fun x y hxy => ?_).symm
    cases hxy
    rfl
  · rw [← h']
    simp [SeqGen.generate, AnyGen.pyInt_natCast]

/-- what holds of the circus that the constructor builds -/
theorem build_inv (hsem : env.sem = AnyGen.sem R) {p : Params} {g : Parts (AnyGen σ)} {c c' : Circus σ (AnyGen σ)}
    {chains : List (List (Op (World σ (AnyGen σ))))} (hs : Shape c.world [] [] [] [])
    (h : build env p g fmt c = .ok chains c') {a : SeqGen} (ha : g.simIds = .seq a)
    (hd : GivesAsked env g.dealerIds) (hz : GivesNaturals env g.bulkSizes) (o : Orders)
    (hapart : ((stockAt o c'.world 4).map Prod.snd).Nodup) :
    ∃ rg xg D P S, Far rg ∧ Far xg ∧
      chains = [restockOps env fmt 0 0 0 (.ref 1), purchaseOps env fmt 1 3 1 2, bulkOps env fmt 2 0 1 0 4 0 1,
        leaveOps env fmt 3 1 4, returnOps env fmt 4 1, reviewOps env fmt 5 2 3 rg xg] ∧
      Setting (firstSims p) D P S ∧ Inv env o a (firstSims p) D P S c'.world := by
  obtain ⟨pop, r4, at_, values, asg, hp, hr4, hsize, hat, hnew, hsz, hasg, hreach, hfill⟩ := build_dealers hs h
  obtain ⟨r0, r1, r2, r3, r4', distIds, dealerIds, agentIds, n, rc, sims, T, t1, t2, t3, t5, rg, xg, owners0,
    owners1, rfl, hw, ⟨f1, f2, f3, f5, f6, f7⟩, ⟨nd0, nd1, nd2⟩, hd1, -, ⟨d, s, cells, rfl, hsim, hcells⟩,
    ⟨l0, -, fill0⟩, ⟨l1, -, fill1⟩, fill2⟩ := (build_shape hs h).built
  have hids : pop.ids = dealerIds := by
    have := hw.pop hp
    simp only [List.getElem?_cons_succ, List.getElem?_cons_zero, Option.some.injEq, popCore, Prod.mk.injEq] at this
    exact this.1.symm
  rw [ha] at hsim
  obtain ⟨rfl, rfl⟩ := seq_drawn hsem hsim hcells
  have e0 : c'.world.rels[0]? = some r0 := by rw [hw.rels]; rfl
  have e1 : c'.world.rels[1]? = some r1 := by rw [hw.rels]; rfl
  have e2 : c'.world.rels[2]? = some r2 := by rw [hw.rels]; rfl
  refine ⟨rg, xg, stockAt o c'.world 4, pop, _, f6, f7, rfl, ⟨?_, ?_, ?_, firstSims_str, hapart, ?_, ?_, at_, hat, ?_⟩,
    ⟨?_, hw.stories, .refl _, hp, p.nSimsDistributor, ?_, ?_⟩⟩
  · rfl
  · intro x hx
    simp only [List.mem_cons, List.not_mem_nil, or_false] at hx
    rcases hx with rfl | rfl | rfl | rfl | rfl | rfl <;> assumption
  · intro x hx
    simp only [List.mem_cons, List.not_mem_nil, or_false] at hx
    rcases hx with rfl | rfl | rfl | rfl | rfl | rfl
    · simp [restockStory, refs]
    · exact fun hm => far_ne f1 1 hm rfl
    · exact fun hm => far_ne f2 1 hm rfl
    · exact fun hm => far_ne f3 1 hm rfl
    · exact fun hm => far_ne f3 1 hm rfl
    · exact fun hm => far_ne f5 1 hm rfl
  · intro x hx i hi
    cases hx
    have hi : i ∈ dealerIds := hi
    rcases hd1 with rfl | ⟨cells, a', hg, hc⟩
    · cases hi
    · have hl : pop.ids.length = p.nDealers := by
        rw [hids, ← (mapM_ok_iff.1 hc).length_eq]
        exact hd _ _ _ hg
      have := ((hfill hl).2 o).map Prod.fst
      rw [← stockAt_of hr4, List.map_fst_zip (by omega)] at this
      rw [this.mem_iff, hids]
      exact hi
  · refine ⟨hids ▸ nd1, ?_, ?_⟩
    · rw [hat]; simp
    · intro x hx
      rw [hat, List.mem_singleton] at hx
      subst hx
      rw [Attribute.new] at hnew
      split at hnew
      · cases hnew; exact List.nodup_nil
      split at hnew
      · cases hnew
      · cases hnew
        exact (hids ▸ nd1 : pop.ids.Nodup).sublist (zip_fst_sublist _ _)
  · intro x hx
    rw [Attribute.new] at hnew
    split at hnew
    · cases hnew; cases hx
    split at hnew
    · cases hnew
    · cases hnew
      have hx2 := (List.of_mem_zip hx).2
      rcases hsz with rfl | ⟨seed, n, a', hg⟩
      · cases hx2
      · exact hz _ _ _ _ hg _ hx2
  · intro i hi
    simp only [List.mem_cons, List.not_mem_nil, or_false] at hi
    rcases hi with rfl | rfl | rfl | rfl
    · exact ⟨r0, e0, fill0.1⟩
    · exact ⟨r1, e1, fill1.1⟩
    · exact ⟨r2, e2, fill2.1⟩
    · exact ⟨r4, hr4, hreach⟩
  · exact second_of_take hw.gens
  · have k0 := ((fill0.2 o).map Prod.snd)
    have k1 := ((fill1.2 o).map Prod.snd)
    have k2 := ((fill2.2 o).map Prod.snd)
    rw [← stockAt_of e0, zip_snd l0] at k0
    rw [← stockAt_of e1, List.map_append, zip_snd l1] at k1
    rw [← stockAt_of e2] at k2
    simp only [holdings, List.flatMap_cons, List.flatMap_nil, List.append_nil]
    refine (k0.append (k1.append k2)).trans ?_
    rw [List.map_nil, List.append_nil]
    refine (List.perm_append_comm).trans ?_
    simp [firstSims, dealerSims, brokePairs, Function.comp_def]

/-- **C106** In any run of the circus of the SND scenario the SIMs of the distributors, of the dealers and of
the agents are, together, those that the dealers were given first and the ids that the sequential generator
gave: none is lost, and none is held twice. Missing: this is proved when no two dealers share a distributor;
otherwise it is false (`C106_counterexample`). -/
theorem C106_sims_partial (hsem : env.sem = AnyGen.sem R) {p : Params} {g : Parts (AnyGen σ)} {name : String}
    {seed start step : Int} {c c' : Circus σ (AnyGen σ)} {chains : List (List (Op (World σ (AnyGen σ))))}
    (hnew : Circus.new env.R name seed start step = .ok c) (hbuild : build env p g fmt c = .ok chains c')
    {a : SeqGen} (ha : g.simIds = .seq a) (hd : GivesAsked env g.dealerIds) (hz : GivesNaturals env g.bulkSizes)
    (o : Orders) (hapart : ((stockAt o c'.world 4).map Prod.snd).Nodup) {evs : List (Int × Event)}
    {w' : World σ (AnyGen σ)} (h : Played env chains c'.world evs w') : ∃ n : Nat,
      w'.gens[1]? = some (.seq { a with counter := a.counter + n }) ∧
      (holdings o [0, 1, 2] w').Perm (firstSims p ++ Spec.idsFrom a n) := by
  obtain ⟨rg, xg, D, P, S, h1, h2, rfl, hS, hI⟩ := build_inv hsem (new_shape hnew) hbuild ha hd hz o hapart
  exact (inv_played hsem hS h1 h2 h hI).sims

theorem zfill_ge {n w w' : Nat} (h : n < 10 ^ w) (hw : 0 < w) (hw' : w' ≤ w) :
    (zfill (pyStr (n : Int)) w').length ≤ w := by
  have := toDigits_length_le hw h
  rw [zfill_nat]; simp; omega

/-- the ids of SIMs given by the sequential generator, and the other SIMs -/
theorem sims_apart {p : Params} {a : SeqGen} {m n w : Nat} (hpre : a.pre = "SIM_") (hc : a.counter = (m : Int))
    (hw : 10 ≤ w) (hlen : w < a.maxLength) (hp : p.nSimsDealer ≤ 10 ^ w) :
    (firstSims p ++ Spec.idsFrom a n).Nodup := by
  have hseq : ∀ v ∈ Spec.idsFrom a n, ∃ k : Nat, v = .str (buildId "SIM_" a.maxLength (k : Int)) := by
    intro v hv
    simp only [Spec.idsFrom, List.mem_map] at hv
    obtain ⟨k, -, rfl⟩ := hv
    exact ⟨m + k, by rw [hpre, hc]; push_cast; rfl⟩
  have hstock : ∀ v ∈ (build_ids p.nSimsDealer 0 "SIM_" 10).map Val.str, ∃ k : Nat, k < p.nSimsDealer ∧
      v = .str (buildId "SIM_" 10 (k : Int)) := by
    intro v hv
    obtain ⟨s, hs, rfl⟩ := List.mem_map.1 hv
    simp only [build_ids, arange, List.map_map, List.mem_map, List.mem_range, Function.comp_apply] at hs
    obtain ⟨k, hk, rfl⟩ := hs
    exact ⟨k, by simpa using hk, by simp⟩
  have hbroke : ∀ v ∈ brokeSims, ∀ (w k : Nat), v ≠ .str (buildId "SIM_" w (k : Int)) := by
    intro v hv w k e
    have hd := zfill_nat_digits (n := k) (w := w)
    have hl : (zfill (pyStr (k : Int)) w) ≠ [] := by
      rw [zfill_nat]
      have := Nat.length_toDigits_pos (b := 10) (n := k)
      intro he
      have := congrArg List.length he
      simp at this
    obtain ⟨c, cs, hcs⟩ := List.exists_cons_of_ne_nil hl
    simp only [brokeSims, List.mem_cons, List.not_mem_nil, or_false] at hv
    have hO : ∀ t : String, v = .str t → t.toList[4]? = some 'O' → False := by
      intro t ht h4
      rw [ht] at e
      injection e with e
      rw [e, buildId, String.toList_append, String.toList_ofList, hcs] at h4
      have : c = 'O' := by simpa using h4
      have := hd c (by rw [hcs]; simp)
      simp_all
    rcases hv with rfl | rfl | rfl
    · exact hO _ rfl (by decide)
    · exact hO _ rfl (by decide)
    · exact hO _ rfl (by decide)
  refine List.nodup_append.2 ⟨List.nodup_append.2 ⟨?_, by decide, ?_⟩, idsFrom_nodup a n, ?_⟩
  · refine List.Nodup.map (fun a b h => by injection h) ?_
    exact (arange_nodup _ _).map fun x y h => buildId_injective h
  · intro v hv u hu e
    obtain ⟨k, -, rfl⟩ := hstock v hv
    exact hbroke u hu 10 k e.symm
  · intro v hv u hu e
    subst e
    obtain ⟨k, hk⟩ := hseq v hu
    rcases List.mem_append.1 hv with h | h
    · obtain ⟨j, hj, hj'⟩ := hstock v h
      rw [hk] at hj'
      injection hj' with hj'
      have := congrArg String.toList hj'
      simp only [buildId, String.toList_append, String.toList_ofList] at this
      have := congrArg List.length (List.append_cancel_left this)
      have h1 := zfill_ge (w := w) (w' := 10) (n := j) (by omega) (by omega) hw
      rw [← this, zfill_nat] at h1
      simp at h1
      omega
    · exact hbroke v h _ k hk

/-- **C106** with the ids of test_snd.py: in any run no SIM is held twice. Missing: as for
`C106_sims_partial`. -/
theorem C106_held_once_partial (hsem : env.sem = AnyGen.sem R) {p : Params} {g : Parts (AnyGen σ)} {name : String}
    {seed start step : Int} {c c' : Circus σ (AnyGen σ)} {chains : List (List (Op (World σ (AnyGen σ))))}
    (hnew : Circus.new env.R name seed start step = .ok c) (hbuild : build env p g fmt c = .ok chains c')
    (ha : g.simIds = .seq ⟨0, "SIM_", 30⟩) (hp : p.nSimsDealer ≤ 10 ^ 29) (hd : GivesAsked env g.dealerIds)
    (hz : GivesNaturals env g.bulkSizes) (o : Orders) (hapart : ((stockAt o c'.world 4).map Prod.snd).Nodup)
    {evs : List (Int × Event)} {w' : World σ (AnyGen σ)} (h : Played env chains c'.world evs w') :
    (holdings o [0, 1, 2] w').Nodup := by
  obtain ⟨n, -, hperm⟩ := C106_sims_partial hsem hnew hbuild ha hd hz o hapart h
  exact hperm.nodup_iff.2 (sims_apart (m := 0) (w := 29) rfl rfl (by decide) (by simp) hp)

/-- the ids of the dealers (test_snd.py:130-131) -/
theorem C106_dealer_ids (hsem : env.sem = AnyGen.sem R) (a : SeqGen) : GivesAsked env (.seq a) := by
  intro n cells a' h
  rw [hsem] at h
  injection h with h
  injection h with h h'
  rw [← h, SeqGen.generate, build_ids]
  simp [arange, AnyGen.pyInt_natCast]

/-- the sizes of the purchases (test_snd.py:225-226) -/
theorem C106_sizes (hsem : env.sem = AnyGen.sem R) {xmin : Rat} (hx : 0 ≤ xmin) (st : Int → σ) :
    GivesNaturals env fun seed => .pareto xmin true (st seed) := by
  intro seed n cells a' h c hc
  rw [hsem] at h
  have h : AnyGen.generate R (.pareto xmin true (st seed)) n = .ok (cells, a') := h
  simp only [AnyGen.generate] at h
  split at h
  · cases h
    obtain ⟨q, hq, rfl⟩ := List.mem_map.1 hc
    simp only [paretoGenerate, if_true, List.map_map, List.mem_map, Function.comp_apply] at hq
    obtain ⟨v, hv, rfl⟩ := hq
    have h0 := R.pareto_range _ _ v hv
    have h1 : 0 ≤ (v + 1) * xmin := by positivity
    obtain ⟨m, hm⟩ : ∃ m : Nat, pyInt ((v + 1) * xmin) = m := by
      exact ⟨_, (Int.toNat_of_nonneg (pyInt_nonneg h1)).symm⟩
    exact ⟨m, by rw [hm]; simp⟩
  · cases h

/-! ### When two dealers share a distributor -/

/-- **C106** is false of the code: with the two dealers of this circus at one distributor, after one step a SIM
is held twice -/
theorem C106_counterexample : (exBuilt.bind fun x => (play exEnv x.1 oneStep x.2.world).map fun r =>
    decide (holdings Orders.a [0, 1, 2] r.2).Nodup) = some false := by
  decide +kernel

/-! ### Non-vacuity -/

/-- two dealers, two distributors -/
def exApart : Option (List (List (Op (World Nat (AnyGen Nat)))) × Circus Nat (AnyGen Nat)) :=
  match Circus.new Rng.counter "snd" 1234 0 (3600 * nsPerSec) with
  | .ok c => match build exEnv ⟨2, 2, 2, 1, 2, 4⟩ exParts exFmt c with
    | .ok chains c' => some (chains, c')
    | .error _ _ => none
  | .error _ => none

/-- each dealer has its distributor; after two steps there are four SIMs more -/
theorem exApart_played : (exApart.bind fun x => (play exEnv x.1 (oneStep ++ oneStep) x.2.world).map fun r =>
    (decide ((stockAt Orders.a x.2.world 4).map Prod.snd).Nodup, (holdings Orders.a [0, 1, 2] x.2.world).length,
      (holdings Orders.a [0, 1, 2] r.2).length)) = some (true, 9, 13) := by
  decide +kernel

/-- the hypotheses of C106 hold of this run -/
example : ∃ c c' chains evs w', Circus.new exEnv.R "snd" 1234 0 (3600 * nsPerSec) = .ok c ∧
    build exEnv ⟨2, 2, 2, 1, 2, 4⟩ exParts exFmt c = .ok chains c' ∧ GivesAsked exEnv exParts.dealerIds ∧
    GivesNaturals exEnv exParts.bulkSizes ∧ ((stockAt Orders.a c'.world 4).map Prod.snd).Nodup ∧
    Played exEnv chains c'.world evs w' ∧ (holdings Orders.a [0, 1, 2] w').length = 13 ∧
    (holdings Orders.a [0, 1, 2] w').Nodup := by
  have hz : GivesNaturals exEnv exParts.bulkSizes := by
    intro seed n cells a' h c hc
    have h : AnyGen.generate Rng.counter (.constant (.num 2)) n = .ok (cells, a') := h
    simp only [AnyGen.generate] at h
    split at h
    · cases h
      exact ⟨2, by rw [List.eq_of_mem_replicate hc]; rfl⟩
    · cases h
  have hd : GivesAsked exEnv exParts.dealerIds := C106_dealer_ids (R := Rng.counter) rfl _
  obtain ⟨⟨chains, c'⟩, h1, h2⟩ := Option.bind_eq_some_iff.1 exApart_played
  obtain ⟨⟨evs, w'⟩, h3, h4⟩ := Option.map_eq_some_iff.1 h2
  rw [exApart] at h1
  split at h1
  · rename_i c hc
    split at h1
    · rename_i hb
      cases h1
      simp only [Prod.mk.injEq, decide_eq_true_eq] at h4
      exact ⟨c, _, _, evs, w', hc, hb, hd, hz, h4.1, play_played h3, h4.2.2,
        C106_held_once_partial (R := Rng.counter) rfl hc hb rfl (by decide) hd hz Orders.a h4.1 (play_played h3)⟩
    · cases h1
  · cases h1

end Snd
end Trumania
