import Verif.Proofs.SndBuilds
import Verif.Props.SndRuns

/-!
# C142: the SND scenario is always built, and never raises from the creation of the circus to the end of the run
-/

namespace Trumania
namespace Snd
open Spec World Circus Cdr Builds
variable {σ : Type} {env : Env σ (AnyGen σ)} {c c' : Circus σ (AnyGen σ)} {fmt : Int → Cell}

/-- **C142** The constructor of the scenario never raises, for all seeds, if the generators give what they must, if there
is an agent, someone to give the SIMs to, a distributor for the dealers, and if the network has an edge. -/
theorem C142_snd_builds (hsem : env.sem = AnyGen.sem env.R) {p : Params} {g : Parts (AnyGen σ)} (hg : Sound env g)
    (hp : Supplied env p g) (fmt : Int → Cell) {name : String} {seed start step : Int}
    (hnew : Circus.new env.R name seed start step = .ok c) : ∃ chains c', build env p g fmt c = .ok chains c' := by
  have hn : ∀ x, c.populations.get? x = none := new_named hnew
  have hs : Stage env [] [] [] c.world := new_stage hnew
  show Ends _ c
  rw [build]
  refine (ends_createDistributors hsem hg hp hs (hn _)).bind fun r c1 h1 => ?_
  obtain ⟨⟨q0, e0, l0⟩, n1⟩ := createDistributors_sized hsem hp hs (hn _) h1
  obtain ⟨d, sg⟩ := r
  obtain ⟨dist, L0, a0, rfl, b1, -, s1, -⟩ := createDistributors_stage (X := []) hs h1
  rw [s1.pops] at e0
  cases e0
  dsimp only
  refine (Ends.onWorld (ends_addRestock s1 rfl l0 rfl (by simp))).bind fun op0 c2 h2 => ?_
  have n2 : ∀ x, x ≠ "distros" → c2.populations.get? x = none := fun x hx => onWorld_named h2 (n1 x hx (hn x))
  obtain ⟨-, -, s2⟩ := addRestock_stage (X := []) s1 rfl rfl (onWorld_circus h2)
  refine (ends_createDealers hsem hp s2 (by simp) (n2 _ (by simp))).bind fun dl c3 h3 => ?_
  obtain ⟨⟨q1, e1, l1⟩, n3⟩ := createDealers_sized hsem hp s2 (by simp) (n2 _ (by simp)) h3
  obtain ⟨deal, L1, rfl, hz, -, s3⟩ := createDealers_stage (X := []) s2 (by simp) h3
  rw [s3.pops] at e1
  cases e1
  refine (ends_createAgents hsem hp s3 (n3 _ (by simp) (n2 _ (by simp)))).bind fun ag c4 h4 => ?_
  obtain ⟨⟨q2, e2, l2⟩, n4⟩ := createAgents_sized hsem hp s3 (n3 _ (by simp) (n2 _ (by simp))) h4
  obtain ⟨agents, a2, rfl, -, -, s4⟩ := createAgents_stage (X := []) s3 h4
  rw [s4.pops] at e2
  cases e2
  refine (Ends.onWorld (ends_connectAgents hp s4 rfl rfl l2 l1)).bind fun u c5 h5 => ?_
  obtain ⟨-, L3, s5⟩ := connectAgents_stage (X := []) hg.weights s4 rfl rfl (onWorld_circus h5)
  refine (Ends.onWorld (ends_connectDealers hp s5 rfl rfl (by simp) l1 rfl l0)).bind fun u c6 h6 => ?_
  obtain ⟨-, L4, a1, -, -, s6⟩ := connectDealers_stage (X := []) hg.sizes s5 (by simp) rfl rfl (by simp) hz
    (onWorld_circus h6)
  refine (Ends.onWorld (ends_addPurchases (i := 3) (j := 1) (k := 2) hg.timers hp s6 rfl rfl (by exact l2) rfl rfl rfl
    (by simp))).bind fun op1 c7 h7 => ?_
  obtain ⟨-, -, s7⟩ := addPurchases_stage (X := []) (i := 3) (j := 1) (k := 2) hg.timers s6 rfl rfl rfl rfl rfl
    (onWorld_circus h7)
  refine (Ends.onWorld (ends_addBulk (i := 4) (j := 0) (k := 1) hg.timers s7 rfl rfl (by exact l1) rfl rfl rfl (by simp)
    (by simp))).bind fun op2 c8 h8 => ?_
  obtain ⟨-, -, s8⟩ := addBulk_stage (X := []) (i := 4) (j := 0) (k := 1) (l := 0) hg.timers s7 rfl rfl rfl rfl rfl rfl
    (onWorld_circus h8)
  refine (Ends.onWorld (ends_addHolidays hg.timers hp s8 rfl (by exact l2) (by simp) (by simp) (by simp))).bind fun ops c9 h9 => ?_
  obtain ⟨-, -, s9⟩ := addHolidays_stage (X := []) (l := 1) hg.timers s8 rfl rfl (onWorld_circus h9)
  obtain ⟨op3, op4⟩ := ops
  dsimp only
  refine (ends_addReviews hg.timers hp s9 rfl (by exact l2) ?_ (by simp)).bind fun op5 c10 _ => Ends.pure
  exact onWorld_named h9 (onWorld_named h8 (onWorld_named h7 (onWorld_named h6 (onWorld_named h5
    (n4 _ (by simp) (n3 _ (by simp) (n2 _ (by simp))))))))

/-- **C142** The whole scenario never raises: the circus is created, built, and run for any duration. -/
theorem C142_snd_never_raises (hsem : env.sem = AnyGen.sem env.R) {p : Params} {g : Parts (AnyGen σ)} (hg : Sound env g)
    (hp : Supplied env p g) (fmt : Int → Cell) (name : String) (seed start : Int) {step : Int} (hstep : nsPerSec ≤ step)
    (text : Cell → Text) {folder : Path} (so : SetOrder String) (fuel d : Nat) (duration : Int)
    (delete : Bool) {fs : FS} (htree : Tree fs) (hroot : At fs [] .dir) (hne : folder ≠ [])
    (hc : ∀ q t, Below q folder → At fs q (.file t) → q = folder) (hdepth : DepthBelow fs folder d) (hfuel : d < fuel)
    (hdel : delete = true ∨ Absent fs folder) :
    ∃ c chains c' s', Circus.new env.R name seed start step = .ok c ∧ build env p g fmt c = .ok chains c' ∧
      Sys.run env text folder so fuel chains duration delete ⟨c', fs⟩ = .ok () s' := by
  obtain ⟨c, hnew⟩ := new_ends_ok env name seed start step
  obtain ⟨chains, c', hb⟩ := C142_snd_builds hsem hg hp fmt hnew
  obtain ⟨s', hs'⟩ := C141_snd_runs hg hstep hnew hb text so fuel d duration delete htree hroot hne hc hdepth hfuel hdel
  exact ⟨c, chains, c', s', hnew, hb, hs'⟩

/-- **C142** without agents the scenario is never built: the probability of an edge divides by their number
(test_snd.py:189) -/
theorem C142_agents_needed {p : Params} {g : Parts (AnyGen σ)} (h0 : p.nAgents = 0) (fmt : Int → Cell)
    (chains : List (List (Op (World σ (AnyGen σ))))) : build env p g fmt c ≠ .ok chains c' := by
  intro h
  rw [build] at h
  obtain ⟨⟨d, sg⟩, c1, -, h⟩ := Act.bind_eq_ok.1 h
  dsimp only at h
  obtain ⟨op0, c2, -, h⟩ := Act.bind_eq_ok.1 h
  obtain ⟨dl, c3, -, h⟩ := Act.bind_eq_ok.1 h
  obtain ⟨ag, c4, -, h⟩ := Act.bind_eq_ok.1 h
  obtain ⟨u, c5, h5, -⟩ := Act.bind_eq_ok.1 h
  have h5 := onWorld_circus h5
  rw [connectAgents] at h5
  obtain ⟨prob, w1, h6, -⟩ := Act.bind_eq_ok.1 h5
  obtain ⟨h6, -⟩ := Act.ofPy_eq_ok.1 h6
  rw [degProb, if_pos h0] at h6
  cases h6

/-! ### The generators of the scenario -/

/-- draws between two bounds are numbers -/
theorem gives_uniform_nums (hsem : env.sem = AnyGen.sem env.R) (lo hi : Rat) (s : σ) :
    AlwaysGives env (.uniform lo hi s) fun c => ∃ q, c = .num q := by
  intro x hx n
  obtain ⟨s', rfl⟩ := descends_uniform hsem hx
  rw [hsem]
  have e : ∃ cells x', AnyGen.generate env.R (.uniform lo hi s') (n : Rat) = .ok (cells, x') ∧
      ∀ c ∈ cells, ∃ q, c = .num q := by
    rw [AnyGen.generate, if_pos (natSize n)]
    refine ⟨_, _, rfl, fun c hc => ?_⟩
    obtain ⟨u, -, rfl⟩ := List.mem_map.1 hc
    exact ⟨_, rfl⟩
  obtain ⟨cells, x', h, hv⟩ := e
  exact ⟨cells, x', h, AnyGen.C74_as_many_as_asked h, hv⟩

theorem gives_pareto (hsem : env.sem = AnyGen.sem env.R) (xmin : Rat) (f : Bool) (s : σ) :
    AlwaysGives env (.pareto xmin f s) fun _ => True := by
  intro x hx n
  obtain ⟨s', rfl⟩ := descends_pareto hsem hx
  rw [hsem]
  have e : ∃ cells x', AnyGen.generate env.R (.pareto xmin f s') (n : Rat) = .ok (cells, x') := by
    rw [AnyGen.generate, if_pos (natSize n)]
    exact ⟨_, _, rfl⟩
  obtain ⟨cells, x', h⟩ := e
  exact ⟨cells, x', h, AnyGen.C74_as_many_as_asked h, fun _ _ => trivial⟩

/-! ### Non-vacuity -/

theorem exSupplied : Supplied exEnv exParams exUsual where
  distributors := ⟨_, rfl⟩
  dealers := ⟨_, rfl⟩
  agents := ⟨_, rfl⟩
  names seed x hx n := by
    obtain ⟨cells, x', h1, h2, -⟩ := gives_choice (env := exEnv) rfl (by simp) x hx n
    exact ⟨cells, x', h1, h2, fun _ _ => trivial⟩
  weights := gives_uniform_nums (env := exEnv) rfl _ _ _
  sizes _ := gives_pareto (env := exEnv) rfl _ _ _
  activity _ := gives_uniform_nums (env := exEnv) rfl _ _ _
  leave _ := gives_uniform_nums (env := exEnv) rfl _ _ _
  back _ := gives_uniform_nums (env := exEnv) rfl _ _ _
  hired := by decide
  stocked := by decide
  bought := by decide
  sold := by decide
  linked _ _ _ := by
    show BipartiteEdges 2 2 [(0, 2), (1, 3)] ∧ _
    exact ⟨⟨by decide, by decide, by decide, by decide⟩, by simp [exUsual, exParts]⟩

/-- from the creation to the end of the run -/
example (duration : Int) : ∃ c chains c' s', Circus.new exEnv.R "snd" 1234 0 (3600 * nsPerSec) = .ok c ∧
    build exEnv exParams exUsual exFmt c = .ok chains c' ∧
    Sys.run exEnv Trumania.exFmt ["logs"] (SetOrder.dedup String) 1 chains duration false ⟨c', [([], .dir)]⟩ = .ok () s' :=
  C142_snd_never_raises rfl exSound exSupplied exFmt "snd" 1234 0 (by decide) Trumania.exFmt (folder := ["logs"])
    (SetOrder.dedup String) 1 0 duration false (fs := [([], .dir)]) ⟨by decide +kernel, by simp [At]⟩
    (by simp [At]) (by simp) (by simp [At]) (by simp [DepthBelow, At]) (by omega) (.inr (by simp [Absent, At]))

/-! ### What the parameters must be is needed -/

/-- how the constructor ends -/
def ending (p : Params) (g : Parts (AnyGen Nat)) : Option (Option Err) :=
  match Circus.new exEnv.R "snd" 1234 0 (3600 * nsPerSec) with
  | .ok c => match build exEnv p g exFmt c with
    | .ok _ _ => some none
    | .error e _ => some (some e)
  | .error _ => none

/-- **C142** SIMs and no distributor; SIMs and no dealer; dealers and no distributor; a network without edges: the
constructor raises -/
theorem C142_parameters_needed :
    ending exParams exUsual = some none ∧
    ending { exParams with nDistributors := 0 } exUsual = some (some .valueError) ∧
    ending { exParams with nDealers := 0 } exUsual = some (some .valueError) ∧
    ending { exParams with nDistributors := 0, nSimsDistributor := 0 } exUsual = some (some .valueError) ∧
    ending exParams { exUsual with graph := fun _ _ _ _ => [] } = some (some .valueError) ∧
    ending { exParams with nDealers := 0, nSimsDealer := 0 } { exUsual with graph := fun _ _ _ _ => [] } = some none := by
  decide +kernel

end Snd
end Trumania
