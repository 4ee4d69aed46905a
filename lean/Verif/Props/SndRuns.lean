import Verif.Proofs.SndSafeRun
import Verif.Props.Snd

/-!
# C141: the SND scenario of tests/scenarios/test_snd.py, once built, never raises
-/

namespace Trumania
namespace Snd
open Spec World Circus
variable {σ : Type} {env : Env σ (AnyGen σ)} {c c' : Circus σ (AnyGen σ)} {fmt : Int → Cell}

/-- **C141** Whatever stories were executed, in whatever order, and whatever the number of increments of the clock in
between, no story of the scenario raises. -/
theorem C141_stories {p : Params} {g : Parts (AnyGen σ)} {chains : List (List (Op (World σ (AnyGen σ))))}
    (hg : Sound env g) {name : String} {seed start step : Int} (hstep : nsPerSec ≤ step)
    (hnew : Circus.new env.R name seed start step = .ok c) (hbuild : build env p g fmt c = .ok chains c')
    {evs : List (Int × Event)} {w : World σ (AnyGen σ)} (hplayed : Played env chains c'.world evs w) {i : Nat}
    {ops : List (Op (World σ (AnyGen σ)))} (hi : chains[i]? = some ops) :
    ∃ logs w', World.execute env ops i w = .ok logs w' := by
  obtain ⟨-, S, h1, h2⟩ := built_safe hg hstep hnew hbuild
  suffices hw : Fits env S w ∧ ∀ q ∈ w.pops, Population.WF q by
    obtain ⟨logs, w', h3, -⟩ := h2 i ops hi w hw
    exact ⟨logs, w', h3⟩
  clear hnew hbuild
  generalize c'.world = u at hplayed h1
  induction hplayed with
  | nil => exact h1
  | exec hj h _ ih =>
    obtain ⟨logs', w1', h3, h4⟩ := h2 _ _ hj _ h1
    rw [h] at h3
    cases h3
    exact ih h4
  | tick _ ih => exact ih ⟨h1.1.tick, h1.2⟩

/-- **C141** The scenario, once built, runs to the end for any duration. The steps of the clock are of one second at
least. The folder of the logs must be absent or deletable, and no file may be in the way of its creation. -/
theorem C141_snd_runs {p : Params} {g : Parts (AnyGen σ)} {chains : List (List (Op (World σ (AnyGen σ))))}
    (hg : Sound env g) {name : String} {seed start step : Int} (hstep : nsPerSec ≤ step)
    (hnew : Circus.new env.R name seed start step = .ok c) (hbuild : build env p g fmt c = .ok chains c')
    (text : Cell → Text) {folder : Path} (so : SetOrder String) (fuel d : Nat) (duration : Int)
    (delete : Bool) {fs : FS} (htree : Tree fs) (hroot : At fs [] .dir) (hne : folder ≠ [])
    (hc : ∀ q t, Below q folder → At fs q (.file t) → q = folder) (hdepth : DepthBelow fs folder d) (hfuel : d < fuel)
    (hdel : delete = true ∨ Absent fs folder) :
    ∃ s', Sys.run env text folder so fuel chains duration delete ⟨c', fs⟩ = .ok () s' := by
  obtain ⟨hs, S, h1, h2⟩ := built_safe hg hstep hnew hbuild
  have h0 : 0 < nsPerSec := by decide
  obtain ⟨s', h3, -⟩ := Sys.run_of (J := fun w => Fits env S w ∧ ∀ q ∈ w.pops, Population.WF q) so fuel d duration delete
    ⟨c', fs⟩ h1 (by
      show c'.world.clock.step ≠ 0
      omega) (fun w hw => ⟨hw.1.tick, hw.2⟩) h2 htree hroot hne hc hdepth hfuel hdel
  exact ⟨s', h3⟩

/-! ### The generators of the scenario -/

theorem descends_pareto (hsem : env.sem = AnyGen.sem env.R) {xmin : Rat} {f : Bool} {s : σ} {x : AnyGen σ}
    (h : Descends env (.pareto xmin f s) x) : ∃ s', x = .pareto xmin f s' := by
  induction h with
  | refl => exact ⟨s, rfl⟩
  | generate _ e ih =>
    obtain ⟨s', rfl⟩ := ih
    rw [hsem] at e
    change AnyGen.generate env.R (.pareto xmin f s') _ = _ at e
    rw [AnyGen.generate] at e
    split at e
    · cases e
      exact ⟨_, rfl⟩
    · cases e
  | observe _ e ih =>
    obtain ⟨s', rfl⟩ := ih
    rw [hsem] at e
    cases e
  | tick _ ih =>
    obtain ⟨s', rfl⟩ := ih
    rw [hsem]
    exact ⟨_, rfl⟩

/-- **C141** the sizes of bulk purchases (test_snd.py:225-226), truncated draws above a bound, are whole numbers -/
theorem C141_bulk_sizes (hsem : env.sem = AnyGen.sem env.R) {xmin : Rat} (hx : 0 ≤ xmin) {s : σ} {x x' : AnyGen σ}
    (hd : Descends env (.pareto xmin true s) x) {n : Rat} {cells : List Cell}
    (h : env.sem.generate x n = .ok (cells, x')) : ∀ v ∈ cells, IsWhole v := by
  obtain ⟨s', rfl⟩ := descends_pareto hsem hd
  rw [hsem] at h
  change AnyGen.generate env.R (.pareto xmin true s') n = _ at h
  rw [AnyGen.generate] at h
  split at h
  · cases h
    intro v hv
    simp only [paretoGenerate, if_true, List.map_map, List.mem_map, Function.comp] at hv
    obtain ⟨u, hu, rfl⟩ := hv
    have hu := env.R.pareto_range _ _ u hu
    have h0 : 0 ≤ (u + 1) * xmin := mul_nonneg (by linarith) hx
    refine ⟨((u + 1) * xmin).floor.toNat, ?_⟩
    have hfl : 0 ≤ ((u + 1) * xmin).floor := Rat.le_floor_iff.2 (by simpa using h0)
    rw [pyInt, if_pos h0]
    have : ((((u + 1) * xmin).floor.toNat : Nat) : Rat) = ((((u + 1) * xmin).floor.toNat : Int) : Rat) := rfl
    rw [this, Int.toNat_of_nonneg hfl]
  · cases h

/-- **C141** the generators of the scenario are as they must be: sequential ids (test_snd.py:75, 467), cyclic timers,
truncated sizes of bulk purchases, if weights are not negative and texts are always given -/
theorem C141_usual (hsem : env.sem = AnyGen.sem env.R) {g : Parts (AnyGen σ)} {a b : SeqGen} {xmin : Rat}
    (hs : g.simIds = .seq a) (hr : g.reviewIds = .seq b) (ht : ∀ seed, ∃ t, g.timer seed = .cyclic t) (hx : 0 ≤ xmin)
    (hz : ∀ seed, ∃ s, g.bulkSizes seed = .pareto xmin true s)
    (hw : ∀ x, Descends env g.agentWeights x → ∀ n cells x', env.sem.generate x n = .ok (cells, x') →
      ∀ c ∈ cells, ∀ v, c.asNum = .ok v → 0 ≤ v)
    (htx : ∀ seed, AlwaysGives env (g.reviewTexts seed) fun _ => True) : Sound env g where
  sims := by rw [hs]; exact gives_seq hsem a
  timers seed := by
    obtain ⟨t, e⟩ := ht seed
    rw [e]
    exact answers_cyclic hsem t
  weights := hw
  sizes seed x hd n cells x' h := by
    obtain ⟨s, e⟩ := hz seed
    rw [e] at hd
    exact C141_bulk_sizes hsem hx hd h
  reviews := by rw [hr]; exact gives_seq hsem b
  texts := htx

theorem descends_uniform (hsem : env.sem = AnyGen.sem env.R) {lo hi : Rat} {s : σ} {x : AnyGen σ}
    (h : Descends env (.uniform lo hi s) x) : ∃ s', x = .uniform lo hi s' := by
  induction h with
  | refl => exact ⟨s, rfl⟩
  | generate _ e ih =>
    obtain ⟨s', rfl⟩ := ih
    rw [hsem] at e
    change AnyGen.generate env.R (.uniform lo hi s') _ = _ at e
    rw [AnyGen.generate] at e
    split at e
    · cases e
      exact ⟨_, rfl⟩
    · cases e
  | observe _ e ih =>
    obtain ⟨s', rfl⟩ := ih
    rw [hsem] at e
    cases e
  | tick _ ih =>
    obtain ⟨s', rfl⟩ := ih
    rw [hsem]
    exact ⟨_, rfl⟩

/-! ### Non-vacuity -/

/-- the sizes of the scenario, and weights between 0 and 1 -/
def exUsual : Parts (AnyGen Nat) := { exParts with
  bulkSizes := fun seed => .pareto 2 true (Rng.counter.seed seed), agentWeights := .uniform 0 1 (Rng.counter.seed 12)
  reviewTexts := fun seed => .choice [.str "fine", .str "bad"] none (Rng.counter.seed seed) }

theorem exSound : Sound exEnv exUsual := by
  refine C141_usual rfl rfl rfl (fun _ => ⟨_, rfl⟩) (by decide) (fun _ => ⟨_, rfl⟩) ?_ fun seed => ?_
  · intro x hd n cells x' h c hc v hv
    obtain ⟨s', rfl⟩ := descends_uniform (env := exEnv) rfl hd
    change AnyGen.generate exEnv.R (.uniform 0 1 s') n = _ at h
    rw [AnyGen.generate] at h
    split at h
    · cases h
      obtain ⟨u, hu, rfl⟩ := List.mem_map.1 hc
      cases hv
      have := (exEnv.R.uniform_range _ _ u hu).1
      linarith
    · cases h
  · exact fun x hx n => by
      obtain ⟨cells, x', h1, h2, -⟩ := gives_choice (env := exEnv) rfl (by simp) x hx n
      exact ⟨cells, x', h1, h2, fun _ _ => trivial⟩

theorem exBuilds : (match Circus.new exEnv.R "snd" 1234 0 (3600 * nsPerSec) with
  | .ok c => match build exEnv exParams exUsual exFmt c with
    | .ok chains c' => some chains.length
    | .error _ _ => none
  | .error _ => none) = some 6 := by decide +kernel

/-- a circus that is built, and run for as long as one wants -/
example (duration : Int) : ∃ c chains c' s', Circus.new exEnv.R "snd" 1234 0 (3600 * nsPerSec) = .ok c ∧
    build exEnv exParams exUsual exFmt c = .ok chains c' ∧
    Sys.run exEnv Trumania.exFmt ["logs"] (SetOrder.dedup String) 1 chains duration false ⟨c', [([], .dir)]⟩ = .ok () s' := by
  have h := exBuilds
  split at h
  · rename_i c hc
    split at h
    · rename_i chains c' hb
      obtain ⟨s', hs'⟩ := C141_snd_runs exSound (by decide) hc hb Trumania.exFmt (folder := ["logs"]) (SetOrder.dedup String) 1 0 duration false
        (fs := [([], .dir)]) ⟨by decide +kernel, by simp [At]⟩
        (by simp [At]) (by simp) (by simp [At]) (by simp [DepthBelow, At]) (by omega) (.inr (by simp [Absent, At]))
      exact ⟨c, chains, c', s', hc, hb, hs'⟩
    · cases h
  · cases h

/-! ### What the generators must give is needed -/

theorem play_raises {chains : List (List (Op (World σ (AnyGen σ))))} {l : List (Option Nat)} {w : World σ (AnyGen σ)}
    (hl : ∀ i, some i ∈ l → i < chains.length) (h : play env chains l w = none) : ∃ evs w' i ops e w'',
      Played env chains w evs w' ∧ chains[i]? = some ops ∧ execute env ops i w' = .error e w'' := by
  induction l generalizing w with
  | nil => cases h
  | cons x l ih =>
    have hl' : ∀ i, some i ∈ l → i < chains.length := fun i hi => hl i (List.mem_cons_of_mem _ hi)
    cases x with
    | none =>
      obtain ⟨evs, w', i, ops, e, w'', h1, h2⟩ := ih hl' (by simpa [play] using h)
      exact ⟨_, w', i, ops, e, w'', .tick h1, h2⟩
    | some i =>
      have hi := List.getElem?_eq_getElem (hl i (by simp))
      simp only [play, hi] at h
      split at h
      · rename_i logs w1 hx
        obtain ⟨evs, w', i, ops, e, w'', h1, h2⟩ := ih hl' (by simpa using h)
        exact ⟨_, w', i, ops, e, w'', .exec hi hx h1, h2⟩
      · rename_i e w1 hx
        exact ⟨[], w, i, _, e, w1, .nil w, hi, hx⟩

/-- some execution of a story of the circus, once built, raises -/
def Raises (g : Parts (AnyGen Nat)) : Prop := ∃ c chains c' evs w i ops e w',
  Circus.new exEnv.R "snd" 1234 0 (3600 * nsPerSec) = .ok c ∧ build exEnv exParams g exFmt c = .ok chains c' ∧
    Played exEnv chains c'.world evs w ∧ chains[i]? = some ops ∧ execute exEnv ops i w = .error e w'

/-- the circus is built, and one of its stories raises in its first three steps -/
def raises (g : Parts (AnyGen Nat)) : Bool :=
  match Circus.new exEnv.R "snd" 1234 0 (3600 * nsPerSec) with
  | .ok c => match build exEnv exParams g exFmt c with
    | .ok chains c' => decide (chains.length = 6) &&
      (play exEnv chains (List.replicate 3 oneStep).flatten c'.world).isNone
    | .error _ _ => false
  | .error _ => false

theorem raises_spec {g : Parts (AnyGen Nat)} (h : raises g = true) : Raises g := by
  rw [raises] at h
  split at h
  · rename_i c hc
    split at h
    · rename_i chains c' hb
      simp only [Bool.and_eq_true, decide_eq_true_eq, Option.isNone_iff_eq_none] at h
      obtain ⟨evs, w, i, ops, e, w', h1, h2, h3⟩ := play_raises (env := exEnv) (l := (List.replicate 3 oneStep).flatten) (by
        rw [h.1]
        intro i hi
        simp [oneStep, List.replicate] at hi
        omega) h.2
      exact ⟨c, chains, c', evs, w, i, ops, e, w', hc, hb, h1, h2, h3⟩
    · cases h
  · cases h

/-- **C141** if the size of a bulk purchase is not a whole number, a bulk purchase raises -/
theorem C141_sizes_needed : Raises { exUsual with bulkSizes := fun _ => .constant (.num (1 / 2)) } :=
  raises_spec (by decide +kernel)

/-- **C141** if the weights of the dealers are negative, a purchase raises -/
theorem C141_weights_needed : Raises { exUsual with agentWeights := .constant (.num (-1)) } :=
  raises_spec (by decide +kernel)

end Snd
end Trumania
