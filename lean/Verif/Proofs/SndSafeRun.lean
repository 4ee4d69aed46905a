import Verif.Proofs.SndSafeBuild

/-! Helper lemmas: the circus of the SND scenario is well-formed when it is built, and its stories keep it so. -/

namespace Trumania
open Spec World

/-! ### Runs -/

namespace Sys
variable {σ γ : Type} {env : Env σ γ} {text : Cell → Text} {folder : Path} {J : World σ γ → Prop}

/-- steps of a circus with an invariant under which no story raises -/
theorem runSteps_of {fs0 : FS} (h0 : Tree fs0) (ha : Absent fs0 folder) (hr : At fs0 [] .dir)
    (hc : ∀ a t, Below a folder → ¬ At fs0 a (.file t)) {chains : List (List (Op (World σ γ)))}
    (htick : ∀ w, J w → J (World.tickClock env w))
    (ho : ∀ i ops, chains[i]? = some ops → ∀ w, J w → ∃ logs w', World.execute env ops i w = .ok logs w' ∧ J w') (n : Nat) :
    ∀ {s : Sys σ γ}, J s.circus.world → (∃ L, LogsWritten text folder fs0 L s.fs) →
      ∃ s', runSteps env text folder chains n s = .ok () s' ∧ J s'.circus.world := by
  have hstep : ∀ {s : Sys σ γ}, J s.circus.world → (∃ L, LogsWritten text folder fs0 L s.fs) →
      ∃ s', runStories env text folder chains s = .ok () s' ∧ J s'.circus.world ∧
        ∃ L, LogsWritten text folder fs0 L s'.fs := by
    rw [runStories]
    have hall : ∀ x ∈ chains.zipIdx, ∀ w, J w → ∃ logs w', World.execute env x.1 x.2 w = .ok logs w' ∧ J w' := by
      rintro ⟨ops, i⟩ hx
      exact ho i ops (List.mem_zipIdx_iff_getElem?.1 hx)
    generalize chains.zipIdx = l at hall
    induction l with
    | nil => intro s hs hl; exact ⟨s, rfl, hs, hl⟩
    | cons x l ih =>
      intro s hs ⟨L, hL⟩
      obtain ⟨logs, w', h1, h2⟩ := hall x (by simp) _ hs
      obtain ⟨fs', h3, h4⟩ := saveAll_safe h0 ha hr hc logs hL
      obtain ⟨s2, h5, h6⟩ := ih (fun y hy => hall y (by simp [hy])) (s := ⟨{ s.circus with world := w' }, fs'⟩) h2 ⟨_, h4⟩
      have h7 : runStory env text folder x.1 x.2 s = .ok () ⟨{ s.circus with world := w' }, fs'⟩ := by
        rw [runStory, Act.bind_ok (onWorld_eq_ok.2 ⟨w', h1, rfl⟩)]
        exact onFiles_eq_ok.2 ⟨fs', h3, rfl⟩
      refine ⟨s2, ?_, h6⟩
      rw [Act.forEach, Act.bind_ok h7]
      exact h5
  induction n with
  | zero => intro s hs _; exact ⟨s, rfl, hs⟩
  | succ n ih =>
    intro s hs hl
    obtain ⟨s1, h1, h2, h3⟩ := hstep hs hl
    obtain ⟨s2, h4, h5⟩ := ih (s := { s1 with circus := { s1.circus with
      world := World.tickClock env s1.circus.world } }) (htick _ h2) h3
    refine ⟨s2, ?_, h5⟩
    have ht : onWorld (modify (World.tickClock env)) s1 = .ok () { s1 with circus := { s1.circus with
      world := World.tickClock env s1.circus.world } } := rfl
    rw [runSteps, Act.bind_ok h1, Act.bind_ok ht]
    exact h4

/-- a run of a circus with such an invariant -/
theorem run_of {chains : List (List (Op (World σ γ)))} (so : SetOrder String) (fuel d : Nat) (duration : Int)
    (delete : Bool) (s : Sys σ γ) (hJ : J s.circus.world) (hstep : s.circus.world.clock.step ≠ 0)
    (htick : ∀ w, J w → J (World.tickClock env w))
    (ho : ∀ i ops, chains[i]? = some ops → ∀ w, J w → ∃ logs w', World.execute env ops i w = .ok logs w' ∧ J w')
    (ht : Tree s.fs) (hroot : At s.fs [] .dir) (hne : folder ≠ [])
    (hc : ∀ q t, Below q folder → At s.fs q (.file t) → q = folder)
    (hd : DepthBelow s.fs folder d) (hfuel : d < fuel) (hdel : delete = true ∨ Absent s.fs folder) :
    ∃ s', Sys.run env text folder so fuel chains duration delete s = .ok () s' ∧ J s'.circus.world := by
  have hn : ∃ n, s.circus.world.clock.nIterations duration = .ok n := by
    rw [Clock.nIterations]
    have : totalSeconds s.circus.world.clock.step ≠ 0 := by
      rw [totalSeconds]
      have h1 : (s.circus.world.clock.step : Rat) ≠ 0 := by exact_mod_cast hstep
      have h2 : (nsPerSec : Rat) ≠ 0 := by decide +kernel
      exact div_ne_zero h1 h2
    simp only [if_neg this]
    exact ⟨_, rfl⟩
  obtain ⟨n, hn⟩ := hn
  rw [Sys.run_eq hn ht (fun r m hm => Nat.lt_of_le_of_lt (hd r m hm) hfuel) (by omega) hdel]
  have h0 := FS.without_tree ht folder
  have hab : ∀ q, Below folder q → Absent (FS.without s.fs folder) q :=
    fun q hq n hn => (FS.mem_without.1 hn).2 hq
  exact runSteps_of h0 (hab folder ⟨[], (List.append_nil _).symm⟩)
    (FS.mem_without.2 ⟨hroot, by
      rintro ⟨r, hr⟩
      exact hne (List.append_eq_nil_iff.1 hr.symm).1⟩)
    (by
      intro a t hb hn
      obtain ⟨h1, h2⟩ := FS.mem_without.1 hn
      exact h2 (by rw [hc a t hb h1]; exact ⟨[], by simp⟩))
    htick ho n.toNat (s := ⟨s.circus, FS.without s.fs folder⟩) hJ ⟨[], Sys.written_nil h0⟩

end Sys

namespace Snd
open Circus Cdr

/-! ### Stories -/

section
variable {σ γ : Type} {env : Env σ γ} {fmt : Int → Cell} {step : Int} {gens : List (γ → Prop)} {dist deal ag : List Val}
  {sg rg xg : GenRef}

theorem ops_builtIn : ∀ ops ∈ [restockOps env fmt 0 0 0 sg, purchaseOps env fmt 1 3 1 2, bulkOps env fmt 2 0 1 0 4 0 1,
    leaveOps env fmt 3 1 4, returnOps env fmt 4 1, reviewOps env fmt 5 2 3 rg xg],
    ∀ op ∈ ops, BuiltIn env (fun _ => True) (fun _ => True) op := by
  intro ops hops op hop
  simp only [List.mem_cons, List.not_mem_nil, or_false] at hops
  rcases hops with rfl | rfl | rfl | rfl | rfl | rfl
  · simp only [restockOps, List.mem_cons, List.not_mem_nil, or_false] at hop
    rcases hop with rfl | rfl | rfl | rfl | rfl | rfl | rfl
    · exact .adder (.timestamp _ _)
    · exact .lookup _ _ _
    · exact .adder (.randomValues _ _)
    · exact .effect (.relAddGrouped _ _ _)
    · exact .effect (.attrAdd _ _ _ _ _)
    · exact .fieldLogger _ _ _
    · exact .effect (.maybeBackToDefault _)
  · exact (purchase_draws op hop).builtIn
  · exact (bulk_draws op hop).builtIn
  · exact (leave_quiet op hop).2.builtIn
  · exact (return_quiet op hop).2.builtIn
  · simp only [reviewOps, List.mem_cons, List.not_mem_nil, or_false] at hop
    rcases hop with rfl | rfl | rfl | rfl | rfl | rfl | rfl
    · exact .adder (.timestamp _ _)
    · exact .lookup _ _ _
    · exact .adder (.randomValues _ _)
    · exact .adder (.randomValues _ _)
    · exact .effect (.popUpdate _ _ _)
    · exact .fieldLogger _ _ _
    · exact .effect (.maybeBackToDefault _)

/-- no story raises, and each keeps the circus well-formed -/
theorem stories_safe (hstep : nsPerSec ≤ step)
    (hsim : GenOk env (signature step gens dist deal ag) sg .size (IdIn fun _ => True))
    (hids : GenOk env (signature step gens dist deal ag) rg .size (IdIn fun _ => True))
    (htexts : GenOk env (signature step gens dist deal ag) xg .size fun _ => True) {i : Nat}
    {ops : List (Op (World σ γ))} (hi : [restockOps env fmt 0 0 0 sg, purchaseOps env fmt 1 3 1 2,
      bulkOps env fmt 2 0 1 0 4 0 1, leaveOps env fmt 3 1 4, returnOps env fmt 4 1, reviewOps env fmt 5 2 3 rg xg][i]?
        = some ops) {w : World σ γ}
    (hw : Fits env (signature step gens dist deal ag) w ∧ ∀ p ∈ w.pops, Population.WF p) :
    ∃ logs w', World.execute env ops i w = .ok logs w' ∧ Fits env (signature step gens dist deal ag) w' ∧
      ∀ p ∈ w'.pops, Population.WF p := by
  have hb := ops_builtIn (fmt := fmt) ops (List.mem_of_getElem? hi)
  suffices h : ∃ logs w', World.execute env ops i w = .ok logs w' ∧ Fits env (signature step gens dist deal ag) w' by
    obtain ⟨logs, w', h1, h2⟩ := h
    exact ⟨logs, w', h1, h2, C51_in_execution hb h1 hw.2⟩
  match i, hi with
  | 0, hi =>
    cases hi
    exact execute_of (K := kindOf dist (fun _ => False) "DISTRIBUTOR_ID") rfl hw.1 fun data u hd hu hp =>
      restock_ok hstep hsim hd hu (by rw [hp]; exact hw.2)
  | 1, hi => cases hi; exact execute_safe (K := kindOf ag (· = .str "on_holiday") "AGENT") rfl hw.1 (purchase_ok hstep)
  | 2, hi =>
    cases hi
    exact execute_of (K := kindOf deal (fun _ => False) "DEALER_ID") rfl hw.1 fun data u hd hu _ => bulk_ok hstep hd hu
  | 3, hi => cases hi; exact execute_safe (K := kindOf ag (fun _ => False) "AGENT") rfl hw.1 (leave_ok hstep)
  | 4, hi => cases hi; exact execute_safe (K := kindOf ag (fun _ => False) "AGENT") rfl hw.1 (return_ok hstep)
  | 5, hi => cases hi; exact execute_safe (K := kindOf ag (fun _ => False) "AGENT") rfl hw.1 (review_ok hstep hids htexts)
  | _ + 6, hi => cases hi
end

/-! ### The circus that is built -/

variable {σ : Type} {env : Env σ (AnyGen σ)} {c c' : Circus σ (AnyGen σ)} {w : World σ (AnyGen σ)}

theorem relFits_ones {r : Relationship σ} {L : List (Val × Val)} {i : Nat} {items : Val → Prop} (hi : i ≠ 3) (hwt : Weighed env w)
    (hr : w.rels[i]? = some r) (hf : Filled env r L) (hL : ∀ x ∈ L, items x.2) :
    RelFits env ⟨items, fun _ => False, true⟩ r := by
  obtain ⟨h1, h2, -⟩ := hwt i r hr
  have h2 := h2 hi
  refine ⟨h1, fun x hx => ⟨by rw [h2 x hx]; decide, ?_⟩, fun x hx => ⟨x, hx, rfl, by rw [h2 x hx]; decide⟩,
    fun _ x hx => by rw [h2 x hx]; decide, fun _ h => h.elim⟩
  exact hL (x.1, x.2.1) ((hf.2 env.orders).mem_iff.1 (List.mem_map_of_mem (f := fun x => (x.1, x.2.1)) hx))

theorem relFits_dealers {r : Relationship σ} (hwt : Weighed env w) (hr : w.rels[3]? = some r) :
    RelFits env ⟨fun _ => True, fun _ => False, false⟩ r := by
  obtain ⟨h1, -, h2⟩ := hwt 3 r hr
  have h2 := h2 rfl
  refine ⟨h1, fun x hx => ⟨(h2 x hx).1, trivial⟩, fun x hx => ⟨_, (h2 x hx).2, rfl, ?_⟩, ?_, fun _ h => h.elim⟩
  · change (0 : Rat) < 4
    decide
  · intro h
    cases h

theorem popFits_one {name : String} {k : AttKind} {a : Attribute} {ids : List Val} {n : Nat} {rels : Dict String Nat}
    (h : AttFits k a) : PopFits [(name, k)] ⟨ids, n, [(name, a)], rels⟩ := by
  refine ⟨fun _ => Iff.rfl, fun m k' a' hk ha => ?_⟩
  simp only [Dict.get?, List.find?_cons, List.find?_nil] at hk ha
  split at hk
  · rename_i hm
    simp only [hm] at ha
    cases hk
    cases ha
    exact h
  · cases hk

theorem popFits_free {names : List String} {q : Population} (h : q.attributes.keys = names) :
    PopFits (names.map fun n => (n, ⟨fun _ => False, fun _ => True⟩)) q := by
  refine ⟨fun name => by rw [h]; simp [Dict.keys, Function.comp_def], fun name k a hk _ => ?_⟩
  obtain ⟨n, -, e⟩ := List.mem_map.1 (Dict.get?_mem hk)
  cases e
  exact ⟨fun _ h => h.elim, fun _ _ => trivial⟩

theorem told_fits {S : Sig (AnyGen σ)} (hS : S.gens = w.gens.map (Descends env)) {X : List (List Val × (Val → Prop))}
    {N : List (String × String)} (hX : ∀ x ∈ X, x.1.Nodup) (ht : Told env X w)
    (hN : w.stories.map (fun s => (s.name, s.idField)) = N) :
    List.Forall₂ (StoryFits env S) (List.zipWith (fun x n => kindOf x.1 x.2 n.2) X N) w.stories := by
  rw [Told] at ht
  subst hN
  generalize w.stories = l at ht
  induction ht with
  | nil => exact .nil
  | @cons x s X l hx _ ih =>
    refine .cons ?_ (ih fun y hy => hX y (by simp [hy]))
    rcases hx.2 with ⟨v, hv⟩ | ⟨g, h3, h4⟩
    · exact story_fits (hX x (by simp)) hx.1 (.inl ⟨_, hv⟩) (by rw [hv]; exact .constSeries (.inr ⟨v, rfl⟩))
    · obtain ⟨j, hj, -⟩ := began_iff.1 h3
      exact story_fits (hX x (by simp)) hx.1 (.inr ⟨j, hj⟩) (genOk_answers hS h3 h4)

theorem new_told {name : String} {seed start step : Int} (h : Circus.new env.R name seed start step = .ok c) :
    Stage env [] [] [] c.world ∧ Told env [] c.world ∧ Weighed env c.world ∧ c.world.clock.step = step := by
  have h1 := new_stage h
  obtain ⟨-, -, h2, -, h3⟩ := Shop.new_site h
  refine ⟨h1, by rw [Told, h2]; exact .nil, fun i r hr => ?_, h3⟩
  have := h1.rels
  cases hw : c.world.rels with
  | nil => rw [hw] at hr; cases hr
  | cons _ _ => rw [hw] at this; cases this

/-- the circus that is built is well-formed, and its stories do not raise -/
theorem built_safe {p : Params} {g : Parts (AnyGen σ)} {fmt : Int → Cell} {chains : List (List (Op (World σ (AnyGen σ))))}
    (hg : Sound env g) {name : String} {seed start step : Int} (hstep : nsPerSec ≤ step)
    (hnew : Circus.new env.R name seed start step = .ok c) (h : build env p g fmt c = .ok chains c') :
    c'.world.clock.step = step ∧ ∃ S, (Fits env S c'.world ∧ ∀ q ∈ c'.world.pops, Population.WF q) ∧
      ∀ i ops, chains[i]? = some ops → ∀ w, (Fits env S w ∧ ∀ q ∈ w.pops, Population.WF q) →
        ∃ logs w', World.execute env ops i w = .ok logs w' ∧ Fits env S w' ∧ ∀ q ∈ w'.pops, Population.WF q := by
  obtain ⟨s0, t0, w0, d0⟩ := new_told hnew
  obtain ⟨L0, L1, L3, L4, dist, deal, ag, a0, a1, a2, sg, rg, xg, sd, q, rfl, hs, hk, b1, b2, b3, hq, m4, f0, f1, f2⟩ :=
    build_stage hg s0 h
  have hwt := hk.weighed w0
  have ht := hk.told t0
  have hstep' : c'.world.clock.step = step := hk.step.trans d0
  refine ⟨hstep', signature step (c'.world.gens.map (Descends env)) dist deal ag, ⟨⟨hstep', (gens_fit rfl).1, (gens_fit rfl).2, ?_, ?_, ?_⟩, by
    rw [hs.pops]; exact hs.wf⟩, fun i ops hi w hw => stories_safe hstep (genOk_gives rfl b1 hg.sims) (genOk_gives rfl b2 hg.reviews)
      (genOk_gives rfl b3 (hg.texts sd)) hi hw⟩
  · have hr := hs.rels
    generalize hR : c'.world.rels = rs at hr
    match rs, hr with
    | [r0, r1, r2, r3, r4], .cons k0 (.cons k1 (.cons k2 (.cons k3 (.cons k4 .nil)))) =>
      exact .cons (relFits_ones (i := 0) (by decide) hwt (by rw [hR]; rfl) k0 fun _ _ => trivial)
        (.cons (relFits_ones (i := 1) (by decide) hwt (by rw [hR]; rfl) k1 fun _ _ => trivial)
        (.cons (relFits_ones (i := 2) (by decide) hwt (by rw [hR]; rfl) k2 fun _ _ => trivial)
        (.cons (relFits_dealers hwt (by rw [hR]; rfl))
        (.cons (relFits_ones (i := 4) (by decide) hwt (by rw [hR]; rfl) k4 m4) .nil))))
  · rw [hs.pops]
    exact .cons (popFits_one f0) (.cons (popFits_one f1) (.cons (popFits_one f2) (.cons (popFits_free hq) .nil)))
  · have n0 := (hs.wf _ (List.getElem_mem (n := 0) (by simp))).ids
    have n1 := (hs.wf _ (List.getElem_mem (n := 1) (by simp))).ids
    have n2 := (hs.wf _ (List.getElem_mem (n := 2) (by simp))).ids
    refine told_fits rfl ?_ ht hs.stories
    simp only [List.mem_cons, List.not_mem_nil, or_false]
    rintro x (rfl | rfl | rfl | rfl | rfl | rfl)
    exacts [n0, n2, n1, n2, n2, n2]

end Snd
end Trumania
