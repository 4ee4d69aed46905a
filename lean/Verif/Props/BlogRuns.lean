import Verif.Props.Blog

/-!
# C132: the examples 3 to 6 of examples/datacamp-blogpost run to the end
-/

namespace Trumania
namespace Blog
open Spec World Circus Cdr
variable {σ : Type} {env : Env σ (AnyGen σ)} {w w' : World σ (AnyGen σ)} {sc : Scene}
  {c c' : Circus σ (AnyGen σ)} {ids : List Val}

/-! ### The declarations of the scripts -/

/-- the quotes, and the friends: all persons have some -/
def relKind (ids : List Val) : Nat → RelKind
  | 0 => ⟨fun _ => True, (· ∈ ids), false⟩
  | _ => ⟨(· ∈ ids), (· ∈ ids), false⟩

/-- what the circus of a script has -/
def signature (env : Env σ (AnyGen σ)) (sc : Scene) (ids : List Val) (q : Population) (w : World σ (AnyGen σ)) : Sig (AnyGen σ) :=
  ⟨w.clock.step, w.gens.map (Descends env), sc.post.rels.map (relKind ids), [attKinds q],
    [⟨(· ∈ ids), fun st => st = .str "default" ∨ False, "PERSON_ID"⟩]⟩

theorem quotes_fit {r : Relationship σ} (hr : Relationship.Reachable env.R r)
    (h : QuotesGiven ids (r.get_relations env.orders)) : RelFits env (relKind ids 0) r := by
  obtain ⟨q0, q1, q2, q3, e0, e1, e2, e3, hp⟩ := h
  have hmem : ∀ x, x ∈ r.get_relations env.orders →
      ∃ y, (y ∈ ids.zip q0 ∧ x = (y.1, y.2, 0)) ∨ (y ∈ ids.zip q1 ∧ x = (y.1, y.2, 1)) ∨
        (y ∈ ids.zip q2 ∧ x = (y.1, y.2, 2)) ∨ (y ∈ ids.zip q3 ∧ x = (y.1, y.2, 3)) := by
    intro x hx
    have hx := hp.mem_iff.1 hx
    simp only [List.mem_append, List.mem_map] at hx
    rcases hx with ((⟨y, hy, rfl⟩ | ⟨y, hy, rfl⟩) | ⟨y, hy, rfl⟩) | ⟨y, hy, rfl⟩
    · exact ⟨y, .inl ⟨hy, rfl⟩⟩
    · exact ⟨y, .inr (.inl ⟨hy, rfl⟩)⟩
    · exact ⟨y, .inr (.inr (.inl ⟨hy, rfl⟩))⟩
    · exact ⟨y, .inr (.inr (.inr ⟨hy, rfl⟩))⟩
  have hown : ∀ i ∈ ids, ∃ y ∈ r.get_relations env.orders, y.1 = i ∧ 0 < y.2.2 := by
    intro i hi
    obtain ⟨n, hn, rfl⟩ := List.getElem_of_mem hi
    refine ⟨(ids[n], q3[n], 3), hp.mem_iff.2 ?_, rfl, by norm_num⟩
    refine List.mem_append_right _ (List.mem_map.2 ⟨(ids[n], q3[n]), ?_, rfl⟩)
    rw [← List.getElem_zip (h := by simp; omega)]
    exact List.getElem_mem _
  refine ⟨hr, fun x hx => ⟨?_, trivial⟩, fun x hx => hown x.1 ?_, (by intro h; cases h), fun v hv => ?_⟩
  · obtain ⟨y, ⟨-, rfl⟩ | ⟨-, rfl⟩ | ⟨-, rfl⟩ | ⟨-, rfl⟩⟩ := hmem x hx <;> norm_num
  · obtain ⟨y, ⟨hy, rfl⟩ | ⟨hy, rfl⟩ | ⟨hy, rfl⟩ | ⟨hy, rfl⟩⟩ := hmem x hx <;> exact (List.of_mem_zip hy).1
  · obtain ⟨y, h1, h2, -⟩ := hown v hv
    exact ⟨y, h1, h2⟩

/-- the circus that a script builds is as declared -/
theorem fits {n : Nat} {g : Parts (AnyGen σ)} {b : SeqGen}
    (ht : ∀ seed, AlwaysAnswers env (g.timer seed) (fun c => ∃ q, c = .num q) IsAmount) (hr : Ready env sc (idsFrom b n) w) (ho : Opening n g b env sc w)
    (hf : sc.post = .six → ∀ i ∈ idsFrom b n, ∃ x ∈ relationsAt env.orders w 1, x.1 = i) :
    ∃ q, w.pops[0]? = some q ∧ Fits env (signature env sc (idsFrom b n) q w) w := by
  obtain ⟨q, hq, hids, -⟩ := ho.persons
  obtain ⟨l1, l2, x, hx, hbeg, hcon⟩ := ho.only
  obtain ⟨x', hx', hfield, -⟩ := hr.story
  rw [hx] at hx'
  cases hx'
  have hpops : w.pops = [q] := by
    obtain ⟨p, hp⟩ := List.length_eq_one_iff.1 l1
    rw [hp] at hq ⊢
    cases hq
    rfl
  refine ⟨q, hq, rfl, (gens_fit rfl).1, (gens_fit rfl).2, ?_, ?_, ?_⟩
  · have hQ : ∀ r, w.rels[0]? = some r → sc.post ≠ .three → RelFits env (relKind (idsFrom b n) 0) r := by
      intro r h0 h3
      have hm : 0 ∈ sc.post.rels := by
        revert h3
        cases sc.post <;> simp [Post.rels]
      obtain ⟨r', h0', hreach⟩ := hr.stocks 0 hm
      rw [h0] at h0'
      cases h0'
      exact quotes_fit hreach (by rw [← relationsAt_of h0]; exact ho.quotes h3 env.orders)
    have hF : ∀ r, w.rels[1]? = some r → sc.post = .six → RelFits env (relKind (idsFrom b n) 1) r := by
      intro r h0 h6
      obtain ⟨r', h0', hreach⟩ := hr.stocks 1 (by rw [h6]; simp [Post.rels])
      rw [h0] at h0'
      cases h0'
      have hw := (ho.friends h6 env.orders).2
      have hf := hf h6
      rw [relationsAt_of h0] at hw hf
      exact ⟨hreach, fun x hx => ⟨le_trans zero_le_one (hw x hx).2.2.2, (hw x hx).2.1⟩,
        fun x hx => ⟨x, hx, rfl, lt_of_lt_of_le one_pos (hw x hx).2.2.2⟩, (by intro h; cases h), hf⟩
    change List.Forall₂ _ (sc.post.rels.map _) _
    revert l2 hQ hF
    cases sc.post with
    | three =>
      intro l2 _ _
      rw [List.length_eq_zero_iff.1 l2]
      exact .nil
    | four =>
      intro l2 hQ _
      obtain ⟨r, e⟩ := List.length_eq_one_iff.1 l2
      rw [e] at hQ ⊢
      exact .cons (hQ r rfl (by simp)) .nil
    | five =>
      intro l2 hQ _
      obtain ⟨r, e⟩ := List.length_eq_one_iff.1 l2
      rw [e] at hQ ⊢
      exact .cons (hQ r rfl (by simp)) .nil
    | six =>
      intro l2 hQ hF
      obtain ⟨r, r', e⟩ := List.length_eq_two.1 l2
      rw [e] at hQ hF ⊢
      exact .cons (hQ r rfl (by simp)) (.cons (hF r' rfl rfl) .nil)
  · rw [hpops]
    exact .cons (pop_fits q) .nil
  · rw [hx]
    refine .cons ?_ .nil
    have hn : (idsFrom b n).Nodup := by
      rw [← hids]
      exact (hr.wf q (List.mem_of_getElem? hq)).ids
    have hp : sc.post = .three ∨ sc.post = .four ∨ sc.post = .five ∨ sc.post = .six := by cases sc.post <;> simp
    rw [← hfield]
    rcases (or_assoc.2 hp : (_ ∨ _) ∨ _) with hp | hp
    · have e := hcon hp
      exact story_fits hn hbeg (.inl ⟨_, e⟩) (by rw [e]; exact .constSeries (.inr ⟨1, rfl⟩))
    · obtain ⟨y, hy, -, ⟨seed, hb⟩, -⟩ := ho.timers hp
      rw [hx] at hy
      cases hy
      refine story_fits hn hbeg (.inr ?_) (genOk_answers rfl hb (ht seed))
      obtain ⟨j, z, e, -⟩ := hb
      exact ⟨j, e⟩

/-- the operations of a script are safe -/
theorem safe (hsem : env.sem = AnyGen.sem env.R) {n : Nat} {g : Parts (AnyGen σ)} {b : SeqGen} (hn : 0 < n)
    (hr : Ready env sc (idsFrom b n) w) (ho : Opening n g b env sc w) (hstep : nsPerSec ≤ w.clock.step)
    {q : Population} (hq : w.pops[0]? = some q) :
    List.Forall₂ (SafeStory env (signature env sc (idsFrom b n) q w)) (signature env sc (idsFrom b n) q w).stories
      (sc.chains env) := by
  refine .cons (C101_set_operations rfl ?_) .nil
  have hne : idsFrom b n ≠ [] := by
    intro e
    have := Music.length_idsFrom b n
    rw [e] at this
    simp at this
    omega
  obtain ⟨q', hq', hids, ⟨a, ha, hh⟩, -⟩ := ho.persons
  rw [hq] at hq'
  cases hq'
  have hk := attKinds_get (hr.wf q (List.mem_of_getElem? hq)) ha
  have hknown : ∀ i ∈ idsFrom b n, i ∈ a.ids := by
    intro i hi
    obtain ⟨c, hc⟩ := hh i (by rw [hids]; exact hi)
    exact List.mem_map_of_mem (f := Prod.fst) hc
  have time : ∀ d, (fun _ : Cell => True) (sc.fmt d) := fun _ => trivial
  -- the message
  have hmsg : ∀ Γ : Ctx, Γ.Has (· ∈ idsFrom b n) "PERSON_ID" (fun l c => c = .scalar l) → "MESSAGE" ∉ Γ.names →
      ∃ P, Safe env (signature env sc (idsFrom b n) q w) (· ∈ idsFrom b n) Γ
        (message env ⟨0, 0, if sc.post = .six then 1 else 0, sc.choice⟩ sc.post) (Γ ++ [("MESSAGE", P)]) := by
    intro Γ hΓ hnot
    by_cases h3 : sc.post = .three
    · rw [h3]
      exact ⟨_, .randomValues (P := fun _ => True) (.constSize trivial) hnot⟩
    · have e : message env ⟨0, 0, if sc.post = .six then 1 else 0, sc.choice⟩ sc.post = quote env 0 := by
        revert h3
        cases sc.post <;> simp [message]
      rw [e]
      refine ⟨_, .selectOneOwned (K := relKind (idsFrom b n) 0) ?_ (by simp) ?_ (by simp) hnot⟩
      · change (sc.post.rels.map _)[0]? = _
        revert h3
        cases sc.post <;> simp [Post.rels]
      · obtain ⟨k, hk, hΓ⟩ := hΓ
        exact ⟨k, hk, fun i c hi hc => ⟨i, hΓ i c hi hc, hi⟩⟩
  -- the other person
  have hoth : ∀ Γ : Ctx, Γ.Has (· ∈ idsFrom b n) "PERSON_ID" (fun l c => c = .scalar l) → "OTHER_PERSON" ∉ Γ.names →
      Safe env (signature env sc (idsFrom b n) q w) (· ∈ idsFrom b n) Γ
        (other env ⟨0, 0, if sc.post = .six then 1 else 0, sc.choice⟩ sc.post)
        (Γ ++ [("OTHER_PERSON", fun _ => IdIn (· ∈ idsFrom b n))]) := by
    intro Γ hΓ hnot
    by_cases h6 : sc.post = .six
    · rw [if_pos h6, h6]
      refine .selectOneOwned (K := relKind (idsFrom b n) 1) ?_ (by simp) ?_ (by simp) hnot
      · change (sc.post.rels.map _)[1]? = _
        rw [h6]
        rfl
      · obtain ⟨k, hk, hΓ⟩ := hΓ
        exact ⟨k, hk, fun i c hi hc => ⟨i, hΓ i c hi hc, hi⟩⟩
    · have e : other env ⟨0, 0, if sc.post = .six then 1 else 0, sc.choice⟩ sc.post = anyone env sc.choice := by
        revert h6
        cases sc.post <;> simp [other]
      rw [e]
      obtain ⟨x, hx⟩ := hr.anyone h6
      exact .randomValues (genOk_gives rfl hx (gives_choice hsem hne)) hnot
  obtain ⟨P, hm⟩ := hmsg [("PERSON_ID", fun l c => c = .scalar l), ("TIME", fun _ _ => True)]
    ⟨_, by simp, fun _ _ _ h => h⟩ (by simp [Ctx.names])
  have ho := hoth ([("PERSON_ID", fun l c => c = .scalar l), ("TIME", fun _ _ => True)] ++ [("MESSAGE", P)])
    ⟨_, by simp, fun _ _ _ h => h⟩ (by simp [Ctx.names])
  refine ⟨_, .cons (.timestamp (P := fun _ => True) time (fun _ => hstep) (by simp [Ctx.names])) (.cons hm (.cons ho
    (.cons (.lookup (P := attKinds q) rfl ?_ ?_ ?_) (.cons (.lookup (P := attKinds q) rfl ?_ ?_ ?_)
      (.cons (.fieldLogger (by simp)) .nil)))))⟩
  · exact ⟨_, .head _, fun i c hi hc => ⟨i, hc⟩⟩
  · intro x hx
    obtain rfl : x = ("NAME", "EMITTER_NAME") := by simpa using hx
    exact ⟨_, hk, _, .head _, fun i c hi hc => ⟨i, hc, hknown i hi⟩⟩
  · simp [Ctx.names]
  · exact ⟨fun _ => IdIn (· ∈ idsFrom b n), by simp, fun i c _ ⟨v, hv, _⟩ => ⟨v, hv⟩⟩
  · intro x hx
    obtain rfl : x = ("NAME", "RECEIVER_NAME") := by simpa using hx
    exact ⟨_, hk, fun _ => IdIn (· ∈ idsFrom b n), by simp, fun i c _ ⟨v, hv, h⟩ => ⟨v, hv, hknown v h⟩⟩
  · simp [Ctx.names]

/-- **C132** The run of a script never raises, whatever its duration, provided that the timer generator always answers. The steps of the clock must last at least one
second, there must be a person and, in script 6, each must have a friend. The folder of the logs must be absent or
deletable, and no file may be in the way of its creation. -/
theorem C132_blog_runs (hsem : env.sem = AnyGen.sem env.R) {n : Nat} (hn : 0 < n) {g : Parts (AnyGen σ)} {b : SeqGen}
    (hg : g.Usual b) (ht : ∀ seed, AlwaysAnswers env (g.timer seed) (fun c => ∃ q, c = .num q) IsAmount)
    {fmt : Int → Cell} {name : String} {seed start step : Int} (hstep : nsPerSec ≤ step) (hnew : Circus.new env.R name seed start step = .ok c) {p : Post}
    {ops : List (Op (World σ (AnyGen σ)))} (hbuild : p.build env n g fmt c = .ok ops c')
    (hf : p = .six → ∀ i ∈ idsFrom b n, ∃ x ∈ relationsAt env.orders c'.world 1, x.1 = i)
    {text : Cell → Text} {folder : Path} (so : SetOrder String) (fuel d : Nat) (duration : Int) (delete : Bool) {fs : FS}
    (htree : Tree fs) (hroot : At fs [] .dir) (hne : folder ≠ [])
    (hc : ∀ q t, Below q folder → At fs q (.file t) → q = folder) (hd : DepthBelow fs folder d) (hfuel : d < fuel)
    (hdel : delete = true ∨ Absent fs folder) :
    ∃ s', Sys.run env text folder so fuel [ops] duration delete ⟨c', fs⟩ = .ok () s' := by
  have h0 : (0 : Int) < step := lt_of_lt_of_le (by decide) hstep
  obtain ⟨-, e2, sc, rfl, -, e3, hr, ho⟩ := C131_built hsem hg h0.le hnew hbuild
  obtain ⟨q, hq, hfit⟩ := fits ht hr ho hf
  have hsafe := safe hsem hn hr ho (by rw [e2]; exact hstep) hq
  rw [← e3] at hsafe
  obtain ⟨s', h, -⟩ := C101_run so fuel d duration delete ⟨c', fs⟩ hfit (by
    change c'.world.clock.step ≠ 0
    rw [e2]
    omega) hsafe htree hroot hne hc hd
    hfuel hdel
  exact ⟨s', h⟩

/-! ### Non-vacuity -/

/-- in the example of script 6 with three persons, each has a friend -/
theorem exFriends : (exBuild .six 3).map (fun x => (idsFrom ⟨0, "PERSON_", 3⟩ 3).all fun i =>
    (relationsAt Trumania.exEnv.orders x.2.world 1).any fun y => decide (y.1 = i)) = some true := by decide +kernel

/-- the run of script 6 with three persons ends, whatever its duration -/
example (duration : Int) : ∃ x, exBuild .six 3 = some x ∧ ∃ s', Sys.run Trumania.exEnv Trumania.exFmt ["logs"]
    (SetOrder.dedup String) 1 [x.1] duration false ⟨x.2, [([], .dir)]⟩ = .ok () s' := by
  obtain ⟨⟨ops, c'⟩, h1, h2⟩ := Option.map_eq_some_iff.1 exFriends
  refine ⟨_, h1, ?_⟩
  rw [exBuild] at h1
  split at h1
  · rename_i c hc
    split at h1
    · rename_i hb
      cases h1
      refine C132_blog_runs (env := Trumania.exEnv) rfl (by decide) exUsual (fun _ => answers_cyclic rfl _) (by decide) hc hb
        (fun _ i hi => ?_) _ _ 0 duration _ ⟨by decide +kernel, by simp [At]⟩ (by simp [At]) (by simp) (by simp [At])
        (by simp [DepthBelow, At]) (by omega) (.inr (by simp [Absent, At]))
      obtain ⟨y, hy, e⟩ := List.any_eq_true.1 (List.all_eq_true.1 h2 i hi)
      exact ⟨y, hy, by simpa using e⟩
    · cases h1
  · cases h1

end Blog
end Trumania
