import Verif.Props.BlogRuns
import Verif.Props.Slides

/-!
# C136: the examples 3 to 8 of examples/presentation run to the end
-/

namespace Trumania
namespace Slides
open Spec World Circus Cdr
open Blog (relationsAt relationsAt_of relKind quotes_fit)
variable {σ : Type} {env : Env σ (AnyGen σ)} {w w' : World σ (AnyGen σ)} {sc : Scene}
  {c c' : Circus σ (AnyGen σ)} {ids : List Val}

/-! ### The declarations of the scripts -/

/-- what the circus of a script has -/
def signature (env : Env σ (AnyGen σ)) (sc : Scene) (ids : List Val) (q : Population) (w : World σ (AnyGen σ)) :
    Sig (AnyGen σ) :=
  ⟨w.clock.step, w.gens.map (Descends env), sc.talk.rels.map (relKind ids), [attKinds q],
    [⟨(· ∈ ids), fun st => st = .str "default" ∨ False, "PERSON_ID"⟩]⟩

/-- the circus that a script builds is as declared -/
theorem fits {n : Nat} {g : Blog.Parts (AnyGen σ)} {b : SeqGen}
    (ht : sc.talk = .eight → ∀ seed, AlwaysAnswers env (g.timer seed) (fun c => ∃ q, c = .num q) IsAmount)
    (hr : Ready env g.quotes sc (idsFrom b n) w) (ho : Opening n g b env sc w) :
    ∃ q, w.pops[0]? = some q ∧ Fits env (signature env sc (idsFrom b n) q w) w := by
  obtain ⟨q, hq, hids, -⟩ := ho.persons
  obtain ⟨l1, l2, x, hx, hbeg, hcon⟩ := ho.only
  obtain ⟨x', hx', hfield, -⟩ := hr.story
  rw [hx] at hx'
  cases hx'
  have hpops : w.pops = [q] := by
    obtain ⟨p, hp⟩ := List.length_eq_one_iff.1 l1
    rw [hp] at hq ⊢
    cases hq
    rfl
  refine ⟨q, hq, rfl, (gens_fit rfl).1, (gens_fit rfl).2, ?_, ?_, ?_⟩
  · change List.Forall₂ _ (sc.talk.rels.map _) _
    by_cases h7 : sc.talk = .seven
    · rw [h7] at l2 ⊢
      obtain ⟨r, e⟩ := List.length_eq_one_iff.1 l2
      obtain ⟨r', h0', hreach⟩ := hr.stocks 0 (by rw [h7]; exact .head _)
      have hqs := ho.quotes h7 env.orders
      rw [relationsAt_of h0'] at hqs
      rw [e] at h0' ⊢
      cases h0'
      exact .cons (quotes_fit hreach hqs) .nil
    · have e : sc.talk.rels = [] := by
        revert h7
        cases sc.talk <;> simp [Talk.rels]
      rw [e] at l2 ⊢
      rw [List.length_eq_zero_iff.1 l2]
      exact .nil
  · rw [hpops]
    exact .cons (pop_fits q) .nil
  · rw [hx]
    refine .cons ?_ .nil
    have hn : (idsFrom b n).Nodup := by
      rw [← hids]
      exact (hr.wf q (List.mem_of_getElem? hq)).ids
    rw [← hfield]
    by_cases h8 : sc.talk = .eight
    · obtain ⟨y, hy, -, ⟨seed, hb⟩, -⟩ := ho.timers h8
      rw [hx] at hy
      cases hy
      refine story_fits hn hbeg (.inr ?_) (genOk_answers rfl hb (ht h8 seed))
      obtain ⟨j, z, e, -⟩ := hb
      exact ⟨j, e⟩
    · have e := hcon h8
      exact story_fits hn hbeg (.inl ⟨_, e⟩) (by rw [e]; exact .constSeries (.inr ⟨1, rfl⟩))

/-- the operations of a script are safe -/
theorem safe (hsem : env.sem = AnyGen.sem env.R) {n : Nat} {g : Blog.Parts (AnyGen σ)} {b : SeqGen}
    (hn : sc.talk ≠ .three → 0 < n) (hsay : sc.talk = .five ∨ sc.talk = .six ∨ sc.talk = .eight →
      ∀ seed, AlwaysGives env (g.quotes seed) fun _ => True)
    (hr : Ready env g.quotes sc (idsFrom b n) w) (ho : Opening n g b env sc w) (hstep : nsPerSec ≤ w.clock.step)
    {q : Population} (hq : w.pops[0]? = some q) :
    List.Forall₂ (SafeStory env (signature env sc (idsFrom b n) q w)) (signature env sc (idsFrom b n) q w).stories
      (sc.chains env) := by
  refine .cons (C101_set_operations rfl ?_) .nil
  obtain ⟨q', hq', hids, ⟨a, ha, hh⟩, -⟩ := ho.persons
  rw [hq] at hq'
  cases hq'
  have hk := attKinds_get (hr.wf q (List.mem_of_getElem? hq)) ha
  have hknown : ∀ i ∈ idsFrom b n, i ∈ a.ids := by
    intro i hi
    obtain ⟨c, hc⟩ := hh i (by rw [hids]; exact hi)
    exact List.mem_map_of_mem (f := Prod.fst) hc
  have time : ∀ d, (fun _ : Cell => True) (sc.fmt d) := fun _ => trivial
  -- the message
  have hmsg : ∀ Γ : Ctx, Γ.Has (· ∈ idsFrom b n) "PERSON_ID" (fun l c => c = .scalar l) → "MESSAGE" ∉ Γ.names →
      ∃ P, Safe env (signature env sc (idsFrom b n) q w) (· ∈ idsFrom b n) Γ
        (message env ⟨0, 0, sc.sentences, sc.choice⟩ sc.talk) (Γ ++ [("MESSAGE", P)]) := by
    intro Γ hΓ hnot
    have hcase : (sc.talk = .three ∨ sc.talk = .four) ∨ sc.talk = .seven ∨
        (sc.talk = .five ∨ sc.talk = .six ∨ sc.talk = .eight) := by cases sc.talk <;> simp
    rcases hcase with h3 | h7 | h5
    · have e : message env ⟨0, 0, sc.sentences, sc.choice⟩ sc.talk = Blog.hello env := by
        rcases h3 with h | h <;> rw [h] <;> rfl
      rw [e]
      exact ⟨_, .randomValues (P := fun _ => True) (.constSize trivial) hnot⟩
    · rw [h7]
      refine ⟨_, .selectOneOwned (K := relKind (idsFrom b n) 0) ?_ (by simp) ?_ (by simp) hnot⟩
      · change (sc.talk.rels.map _)[0]? = _
        rw [h7]
        rfl
      · obtain ⟨k, hk, hΓ⟩ := hΓ
        exact ⟨k, hk, fun i c hi hc => ⟨i, hΓ i c hi hc, hi⟩⟩
    · have e : message env ⟨0, 0, sc.sentences, sc.choice⟩ sc.talk = sentence env sc.sentences := by
        rcases h5 with h | h | h <;> rw [h] <;> rfl
      rw [e]
      obtain ⟨seed, hs⟩ := hr.said h5
      exact ⟨_, .randomValues (genOk_gives rfl hs (hsay h5 seed)) hnot⟩
  -- the other person
  have hoth : sc.talk ≠ .three → ∀ Γ : Ctx, "OTHER_PERSON" ∉ Γ.names →
      Safe env (signature env sc (idsFrom b n) q w) (· ∈ idsFrom b n) Γ (Blog.anyone env sc.choice)
        (Γ ++ [("OTHER_PERSON", fun _ => IdIn (· ∈ idsFrom b n))]) := by
    intro h3 Γ hnot
    have hne : idsFrom b n ≠ [] := by
      intro e
      have := Music.length_idsFrom b n
      rw [e] at this
      have := hn h3
      simp at *
      omega
    obtain ⟨x, hx⟩ := hr.anyone h3
    exact .randomValues (genOk_gives rfl hx (gives_choice hsem hne)) hnot
  obtain ⟨P, hm⟩ := hmsg [("PERSON_ID", fun l c => c = .scalar l), ("TIME", fun _ _ => True)]
    ⟨_, by simp, fun _ _ _ h => h⟩ (by simp [Ctx.names])
  have htime : Safe env (signature env sc (idsFrom b n) q w) (· ∈ idsFrom b n) [("PERSON_ID", fun l c => c = .scalar l)]
      (Blog.timestamp env sc.fmt) [("PERSON_ID", fun l c => c = .scalar l), ("TIME", fun _ _ => True)] :=
    .timestamp (P := fun _ => True) time (fun _ => hstep) (by simp [Ctx.names])
  by_cases h3 : sc.talk = .three
  · have e : operations env sc.fmt ⟨0, 0, sc.sentences, sc.choice⟩ sc.talk = [Blog.timestamp env sc.fmt,
        message env ⟨0, 0, sc.sentences, sc.choice⟩ sc.talk, Ops.fieldLogger "hello" sc.talk.cols []] := by
      rw [h3]; rfl
    rw [e]
    exact ⟨_, .cons htime (.cons hm (.cons (.fieldLogger (by rw [h3]; simp [Talk.cols])) .nil))⟩
  have hothers := hoth h3 ([("PERSON_ID", fun l c => c = .scalar l), ("TIME", fun _ _ => True)] ++ [("MESSAGE", P)])
    (by simp [Ctx.names])
  by_cases h5 : sc.talk = .five
  · have e : operations env sc.fmt ⟨0, 0, sc.sentences, sc.choice⟩ sc.talk = [Blog.timestamp env sc.fmt,
        message env ⟨0, 0, sc.sentences, sc.choice⟩ sc.talk, Blog.anyone env sc.choice,
        Ops.fieldLogger "hello" sc.talk.cols []] := by
      rw [h5]; rfl
    rw [e]
    exact ⟨_, .cons htime (.cons hm (.cons hothers (.cons (.fieldLogger (by rw [h5]; simp [Talk.cols, Ctx.names])) .nil)))⟩
  have e : operations env sc.fmt ⟨0, 0, sc.sentences, sc.choice⟩ sc.talk = [Blog.timestamp env sc.fmt,
      message env ⟨0, 0, sc.sentences, sc.choice⟩ sc.talk, Blog.anyone env sc.choice, Blog.emitter 0, Blog.receiver 0,
      Ops.fieldLogger "hello" sc.talk.cols []] := by
    revert h3 h5
    cases sc.talk <;> simp [operations, others]
  rw [e]
  refine ⟨_, .cons htime (.cons hm (.cons hothers (.cons (.lookup (P := attKinds q) rfl ?_ ?_ ?_) (.cons
    (.lookup (P := attKinds q) rfl ?_ ?_ ?_) (.cons (.fieldLogger ?_) .nil)))))⟩
  · exact ⟨_, .head _, fun i c hi hc => ⟨i, hc⟩⟩
  · intro x hx
    obtain rfl : x = ("NAME", "EMITTER_NAME") := by simpa using hx
    exact ⟨_, hk, _, .head _, fun i c hi hc => ⟨i, hc, hknown i hi⟩⟩
  · simp [Ctx.names]
  · exact ⟨fun _ => IdIn (· ∈ idsFrom b n), by simp, fun i c _ ⟨v, hv, _⟩ => ⟨v, hv⟩⟩
  · intro x hx
    obtain rfl : x = ("NAME", "RECEIVER_NAME") := by simpa using hx
    exact ⟨_, hk, fun _ => IdIn (· ∈ idsFrom b n), by simp, fun i c _ ⟨v, hv, h⟩ => ⟨v, hv, hknown v h⟩⟩
  · simp [Ctx.names]
  · cases sc.talk <;> simp [Talk.cols, Ctx.names]

/-- **C136** The run of a script never raises, whatever its duration, provided that the generator of sentences always gives
(scripts 5, 6 and 8) and that the timer generator always answers (script 8). The steps of the clock must last at least one
second and there must be a person, except in script 3. The folder of the logs must be absent or deletable, and no file may
be in the way of its creation. -/
theorem C136_slides_run (hsem : env.sem = AnyGen.sem env.R) {t : Talk} {n : Nat} (hn : t ≠ .three → 0 < n)
    {g : Blog.Parts (AnyGen σ)} {b : SeqGen} (hg : g.Usual b)
    (hsay : t = .five ∨ t = .six ∨ t = .eight → ∀ seed, AlwaysGives env (g.quotes seed) fun _ => True)
    (ht : t = .eight → ∀ seed, AlwaysAnswers env (g.timer seed) (fun c => ∃ q, c = .num q) IsAmount)
    {fmt : Int → Cell} {name : String} {seed start step : Int} (hstep : nsPerSec ≤ step)
    (hnew : Circus.new env.R name seed start step = .ok c) {ops : List (Op (World σ (AnyGen σ)))}
    (hbuild : t.build env n g fmt c = .ok ops c')
    {text : Cell → Text} {folder : Path} (so : SetOrder String) (fuel d : Nat) (duration : Int) (delete : Bool) {fs : FS}
    (htree : Tree fs) (hroot : At fs [] .dir) (hne : folder ≠ [])
    (hc : ∀ q t, Below q folder → At fs q (.file t) → q = folder) (hd : DepthBelow fs folder d) (hfuel : d < fuel)
    (hdel : delete = true ∨ Absent fs folder) :
    ∃ s', Sys.run env text folder so fuel [ops] duration delete ⟨c', fs⟩ = .ok () s' := by
  have h0 : (0 : Int) < step := lt_of_lt_of_le (by decide) hstep
  obtain ⟨-, e2, sc, rfl, -, e3, hr, ho⟩ := C135_built hsem hg h0.le hnew hbuild
  obtain ⟨q, hq, hfit⟩ := fits ht hr ho
  have hsafe := safe hsem hn hsay hr ho (by rw [e2]; exact hstep) hq
  rw [← e3] at hsafe
  obtain ⟨s', h, -⟩ := C101_run so fuel d duration delete ⟨c', fs⟩ hfit (by
    change c'.world.clock.step ≠ 0
    rw [e2]
    omega) hsafe htree hroot hne hc hd hfuel hdel
  exact ⟨s', h⟩

/-! ### Non-vacuity -/

/-- the runs of scripts 7 and 8 with two persons end, whatever their duration -/
theorem exRuns {t : Talk} {l : List (List Cell)} (h : exRecords t 2 2 = some l) (duration : Int) :
    ∃ x, exBuild t 2 = some x ∧ ∃ s', Sys.run Trumania.exEnv Trumania.exFmt ["logs"]
      (SetOrder.dedup String) 1 [x.1] duration false ⟨x.2, [([], .dir)]⟩ = .ok () s' := by
  obtain ⟨⟨ops, c'⟩, h1, h2⟩ := Option.bind_eq_some_iff.1 h
  refine ⟨_, h1, ?_⟩
  rw [exBuild] at h1
  split at h1
  · rename_i c hc
    split at h1
    · rename_i hb
      cases h1
      refine C136_slides_run (env := Trumania.exEnv) rfl (fun _ => by decide) Blog.exUsual (fun _ seed x hx k => ?_)
        (fun _ _ => answers_cyclic rfl _) (by decide) hc hb _ _ 0 duration _ ⟨by decide +kernel, by simp [At]⟩
        (by simp [At]) (by simp) (by simp [At]) (by simp [DepthBelow, At]) (by omega) (.inr (by simp [Absent, At]))
      obtain ⟨cells, x', k1, k2, -⟩ := gives_choice (env := Trumania.exEnv) rfl (by simp) x hx k
      exact ⟨cells, x', k1, k2, fun _ _ => trivial⟩
    · cases h1
  · cases h1

example := exRuns exSeven
example := exRuns exEight

end Slides
end Trumania
