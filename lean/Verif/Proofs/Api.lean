import Verif.Spec.Api
import Verif.Proofs.Execute

/-! Helper lemmas on histories. -/

namespace Trumania
namespace World
open Spec Story
variable {σ γ : Type} {env : Env σ γ} {F Z : Nat → Val → Prop} {G : List γ → Prop}

/-- effect of a call on one story -/
inductive StoryStep (env : Env σ γ) (F Z : Val → Prop) (G : List γ → Prop) :
    Story σ → Story σ → Prop
  | same {s : Story σ} : StoryStep env F Z G s s
  | force {s s' : Story σ} {l : List Val} (hF : ∀ id ∈ l, F id) (h : s.forceActNext l = .ok s') :
      StoryStep env F Z G s s'
  | reset {s s' : Story σ} {l : Option (List Val)} {w w' : World σ γ}
      (hG : G w.gens)
      (hZ : ∀ id ∈ l.getD s.ids, Z id) (h : resetStory env s l w = .ok s' w') :
      StoryStep env F Z G s s'
  | transit {s s' : Story σ} {l st : List Val} (h : s.transitToState l st = .ok s') :
      StoryStep env F Z G s s'
  | back {s s' : Story σ} {l : List Val} (h : s.maybeBackToDefault env.R l = .ok s') :
      StoryStep env F Z G s s'

theorem set_get {α : Type} {l : List α} {i j : Nat} {a b : α} (h : l[i]? = some a) :
    (l.set j b)[i]? = some (if j = i then b else a) := by
  by_cases hij : j = i
  · subst hij
    rw [List.getElem?_set_self (List.getElem?_eq_some_iff.1 h).1, if_pos rfl]
  · rw [List.getElem?_set_ne hij, if_neg hij, h]

theorem GenKept.any : GenKept env anyGens :=
  ⟨fun _ _ _ _ _ _ _ _ _ => trivial, fun _ _ _ _ _ _ _ _ _ => trivial⟩

theorem GenInv.any : GenInv env anyGens := ⟨GenKept.any, fun _ _ => trivial⟩

theorem call_gens (hI : GenKept env G) {g : GenRef} {q : Request} {w w' : World σ γ}
    {cells : List Cell} (hg : G w.gens) (h : call env g q w = .ok cells w') : G w'.gens := by
  refine call_steps (P := fun w w' => G w.gens → G w'.gens) (fun _ h => h)
    (fun _ _ _ h1 h2 h => h2 (h1 h)) ?_ ?_ h hg
  · exact fun w i g n v g' h1 h2 hg => hI.generate _ i g n v g' hg h1 h2
  · exact fun w i g n v g' h1 h2 hg => hI.observe _ i g n v g' hg h1 h2

theorem observe_gens (hI : GenKept env G) {g : GenRef} {obs : List Cell} {w w' : World σ γ}
    {cells : List Cell} (hg : G w.gens) (h : observe env g obs w = .ok cells w') : G w'.gens := by
  exact call_gens hI hg h

theorem resetStory_gens (hI : GenKept env G) {s s' : Story σ} {l : Option (List Val)}
    {w w' : World σ γ} (hg : G w.gens) (h : resetStory env s l w = .ok s' w') : G w'.gens := by
  obtain ⟨-, -, -, -, -, -, h7⟩ := resetStory_ok h
  rcases h7 with ⟨-, -, rfl⟩ | ⟨_, _, _, -, -, -, h, -⟩
  · exact hg
  · exact observe_gens hI hg h

theorem api_gens (hI : GenKept env G) {w w' : World σ γ} (h : Api env F Z G w w')
    (hg : G w.gens) : G w'.gens := by
  cases h with
  | rest h hG => exact hG hg
  | force ht hF h => exact hg
  | reset ht hZ h =>
    obtain ⟨t, t', w1, h1, h2, rfl⟩ := resetTimers_eq_ok.1 h
    have := resetStory_gens hI hg h2
    exact this
  | transit ht h => exact hg
  | back ht h => exact hg

theorem apis_gens (hI : GenKept env G) {w w' : World σ γ} (h : Apis env F Z G w w')
    (hg : G w.gens) : G w'.gens := by
  induction h with
  | refl => exact hg
  | tail _ hstep ih => exact api_gens hI hstep ih

theorem api_story {w w' : World σ γ} {i : Nat} {s : Story σ} (h : Api env F Z G w w')
    (hg : G w.gens) (hs : w.stories[i]? = some s) :
    w'.stories.length = w.stories.length ∧
    ∃ s', w'.stories[i]? = some s' ∧ StoryStep env (F i) (Z i) G s s' := by
  have fin : ∀ {j : Nat} {t t' : Story σ}, w.stories[j]? = some t →
      (j = i → t = s → StoryStep env (F i) (Z i) G s t') →
      ∃ s', (w.stories.set j t')[i]? = some s' ∧ StoryStep env (F i) (Z i) G s s' := by
    intro j t t' ht hstep
    rw [set_get hs]
    refine ⟨_, rfl, ?_⟩
    split
    · rename_i hij
      subst hij
      rw [hs] at ht
      exact hstep rfl (by cases ht; rfl)
    · exact .same
  cases h with
  | rest h _ => exact ⟨by rw [h], s, by rw [h]; exact hs, .same⟩
  | force ht hF h =>
    exact ⟨by simp, fin ht (by rintro rfl rfl; exact .force hF h)⟩
  | reset ht hZ h =>
    obtain ⟨t, t', w1, h1, h2, rfl⟩ := resetTimers_eq_ok.1 h
    rw [ht] at h1; cases h1
    obtain ⟨r1, _⟩ := resetStory_ok h2
    simp only [r1]
    exact ⟨by simp, fin ht (by rintro rfl rfl; exact .reset hg hZ h2)⟩
  | transit ht h => exact ⟨by simp, fin ht (by rintro rfl rfl; exact .transit h)⟩
  | back ht h => exact ⟨by simp, fin ht (by rintro rfl rfl; exact .back h)⟩

/-- what no call changes -/
def SameStatic (s s' : Story σ) : Prop :=
  s' = { s with timer := s'.timer, forced := s'.forced, judge := s'.judge } ∧ s'.ids = s.ids

theorem SameStatic.refl (s : Story σ) : SameStatic s s := ⟨rfl, rfl⟩

theorem SameStatic.trans {a b c : Story σ} (h : SameStatic a b) (h' : SameStatic b c) :
    SameStatic a c := by
  refine ⟨?_, h'.2.trans h.2⟩
  rw [h'.1, h.1]

theorem StoryStep.static {F Z : Val → Prop} {s s' : Story σ} (h : StoryStep env F Z G s s') :
    SameStatic s s' := by
  cases h with
  | same => exact .refl _
  | force hF h => obtain ⟨-, h1, h2, -⟩ := forceActNext_ok h; exact ⟨by rw [h1], h2⟩
  | reset hG hZ h =>
    obtain ⟨-, -, h1, h2, -⟩ := resetStory_ok h
    exact ⟨by rw [h1], h2⟩
  | transit h => obtain ⟨-, -, h1, h2, -⟩ := transitToState_ok h; exact ⟨by rw [h1], h2⟩
  | back h => obtain ⟨h1, h2, -⟩ := maybeBackToDefault_ok h; exact ⟨by rw [h1], h2⟩

/-- the timers and flags after a call -/
theorem StoryStep.timer {F Z : Val → Prop} {s s' : Story σ} (h : StoryStep env F Z G s s') (id : Val) :
    (timerOf s' id = timerOf s id ∧ (id ∈ s'.forced ↔ id ∈ s.forced)) ∨
    (F id ∧ id ∈ s.ids ∧ id ∈ s'.forced ∧ timerOf s' id = some (some 0)) ∨
    (Z id ∧ id ∈ s.ids ∧ id ∉ s.forced ∧ id ∉ s'.forced ∧
      ∃ w w1 l ps cells ts, ∃ (k : Nat) (p : StateParams) (t : Option Rat), G w.gens ∧
      observe env s.timerGen (ps.map fun p : StateParams => Cell.num p.activity) w = .ok cells w1 ∧
      List.Forall₂ (fun id p => paramsOf s id = some p) l ps ∧
      cells.mapM asTimer = .ok ts ∧ ts.length = l.length ∧
      l[k]? = some id ∧ ps[k]? = some p ∧ ts[k]? = some t ∧
      timerOf s' id = some (newTimer p t)) := by
  cases h with
  | same => exact .inl ⟨rfl, Iff.rfl⟩
  | force hF h =>
    obtain ⟨h0, h1, h2, h3, h4⟩ := forceActNext_ok h
    rename_i l
    by_cases hm : id ∈ l
    · refine .inr (.inl ⟨hF id hm, h0 id hm, (h3 id).2 (.inl hm), ?_⟩)
      rw [timerOf_eq, h4, if_pos hm]
      obtain ⟨r, hr⟩ := exists_row? (h0 id hm)
      rw [hr]; rfl
    · refine .inl ⟨?_, ?_⟩
      · rw [timerOf_eq, h4, if_neg hm, timerOf_eq]
      · rw [h3]; simp [hm]
  | reset hG hZ h =>
    rename_i l w w'
    obtain ⟨-, -, h1, h2, h3, -, h4⟩ := resetStory_ok h
    have hf : s'.forced = s.forced := by rw [h1]
    by_cases hm : id ∈ l.getD s.ids ∧ id ∉ s.forced
    · rcases h4 with ⟨hnil, _⟩ | ⟨ps, cells, ts, -, hmem, hps, ho, hts, hl, hrow, -⟩
      · have := mem_minusForced.2 hm
        rw [hnil] at this; simp at this
      · obtain ⟨k, p, t, k1, k2, k3, hr⟩ := hrow id (mem_minusForced.2 hm)
        have hid := hmem id (mem_minusForced.2 hm)
        refine .inr (.inr ⟨hZ id hm.1, hid, hm.2, hf ▸ hm.2, w, w', _, ps, cells, ts, k, p, t, hG, ho,
          hps, hts, hl, k1, k2, k3, ?_⟩)
        rw [timerOf_eq, hr]
        obtain ⟨r, hr⟩ := exists_row? hid
        rw [hr]; rfl
    · left
      rw [timerOf_eq, h3 id (by by_contra hc; push Not at hc; exact hm hc), hf]
      exact ⟨rfl, Iff.rfl⟩
  | transit h =>
    left
    obtain ⟨-, -, h1, -, h3, h4, -⟩ := transitToState_ok h
    rename_i l st
    refine ⟨?_, by rw [h1]⟩
    by_cases hm : id ∈ l
    · obtain ⟨_, v, _, _, hr⟩ := h4 id hm
      rw [timerOf_eq, hr, timerOf_eq]
      cases s.row? id <;> rfl
    · rw [timerOf_eq, h3 id hm, timerOf_eq]
  | back h =>
    left
    obtain ⟨h1, -, -, h4⟩ := maybeBackToDefault_ok h
    rcases h4 with ⟨-, rfl⟩ | ⟨ps, -, -, -, hr⟩
    · exact ⟨rfl, Iff.rfl⟩
    · refine ⟨?_, by rw [h1]⟩
      rw [timerOf_eq, hr, timerOf_eq]
      split
      · cases s.row? id <;> rfl
      · rfl

/-- invariants of one story through calls -/
theorem apis_story {w w' : World σ γ} {i : Nat} {s : Story σ} {P : Story σ → Prop}
    (hP : ∀ a b, SameStatic s a → P a → StoryStep env (F i) (Z i) G a b → P b)
    (hI : GenKept env G) (h : Apis env F Z G w w') (hg : G w.gens) (hs : w.stories[i]? = some s) (h0 : P s) :
    ∃ s', w'.stories[i]? = some s' ∧ SameStatic s s' ∧ P s' := by
  induction h with
  | refl => exact ⟨s, hs, .refl _, h0⟩
  | tail hprev hstep ih =>
    obtain ⟨s1, h1, h2, h3⟩ := ih
    obtain ⟨-, s', h4, h5⟩ := api_story hstep (apis_gens hI hprev hg) h1
    exact ⟨s', h4, h2.trans h5.static, hP _ _ h2 h3 h5⟩

theorem executeOperation_eq_ok {op : Op (World σ γ)} {logSet : SetOrder String}
    {acc out : Frame × Logs} {w w' : World σ γ}
    (h : executeOperation logSet acc op w = .ok out w') :
    ∃ supp, op acc.1 w = .ok (out.1, supp) w' ∧
      merge_dicts logSet [acc.2, supp] (some fun d1 d2 => .ok (Frame.concat d1 d2)) = .ok out.2 := by
  rw [executeOperation] at h
  simp only [Act.bind_eq_ok] at h
  obtain ⟨⟨o, supp⟩, w1, h1, h⟩ := h
  simp only [Act.bind_eq_ok, Act.ofPy_eq_ok, Act.pure_eq_ok] at h
  obtain ⟨lg, _, ⟨h2, rfl⟩, rfl, rfl⟩ := h
  exact ⟨supp, h1, h2⟩

theorem runOps_apis {logSet : SetOrder String} {ops : List (Op (World σ γ))}
    (hops : ∀ op ∈ ops, Respects env F Z G op) {acc out : Frame × Logs} {w w' : World σ γ}
    (h : runOps logSet acc ops w = .ok out w') : Apis env F Z G w w' := by
  induction ops generalizing acc w with
  | nil =>
    rw [runOps, Act.pure_eq_ok] at h
    obtain ⟨-, rfl⟩ := h
    exact .refl
  | cons op ops ih =>
    rw [runOps, Act.bind_eq_ok] at h
    obtain ⟨acc1, w1, h1, h2⟩ := h
    obtain ⟨supp, h3, -⟩ := executeOperation_eq_ok h1
    exact Relation.ReflTransGen.trans (hops op (by simp) _ _ _ _ h3)
      (ih (fun o ho => hops o (by simp [ho])) h2)

theorem chain_apis {logSet : SetOrder String} {ops : List (Op (World σ γ))}
    (hops : ∀ op ∈ ops, Respects env F Z G op) {data : Frame} {out : Frame × Logs} {w w' : World σ γ}
    (h : chain logSet ops data w = .ok out w') : Apis env F Z G w w' := runOps_apis hops h

/-- the operations of an execution as calls -/
theorem afterOps_apis {ops : List (Op (World σ γ))} (hops : ∀ op ∈ ops, Respects env F Z G op)
    {i : Nat} {w w1 : World σ γ} {logs : Logs} {s : Story σ} (hs : w.stories[i]? = some s)
    (h : AfterOps env ops i w logs w1) : Apis env F Z G (started w i s) w1 := by
  obtain ⟨s', hs', h⟩ := h
  rw [hs] at hs'; cases hs'
  rcases h with ⟨-, -, rfl⟩ | ⟨-, data, h⟩
  · exact .refl
  · exact chain_apis hops h

theorem afterOps_unique {ops : List (Op (World σ γ))} {i : Nat} {w w1 w2 : World σ γ}
    {logs logs' : Logs} (h1 : AfterOps env ops i w logs w1) (h2 : AfterOps env ops i w logs' w2) :
    logs = logs' ∧ w1 = w2 := by
  obtain ⟨s, hs, h1⟩ := h1
  obtain ⟨s', hs', h2⟩ := h2
  rw [hs] at hs'; cases hs'
  rcases h1 with ⟨ha, rfl, rfl⟩ | ⟨ha, d, h1⟩
  · rcases h2 with ⟨-, rfl, rfl⟩ | ⟨hb, -⟩
    · exact ⟨rfl, rfl⟩
    · exact absurd ha hb
  · rcases h2 with ⟨hb, -⟩ | ⟨-, d', h2⟩
    · exact absurd hb ha
    · rw [h1] at h2; cases h2; exact ⟨rfl, rfl⟩

theorem started_get {w : World σ γ} {i : Nat} {s : Story σ} (hs : w.stories[i]? = some s) :
    (started w i s).stories[i]? = some { s with forced := [] } :=
  List.getElem?_set_self (List.getElem?_eq_some_iff.1 hs).1

theorem started_get_ne {w : World σ γ} {i j : Nat} {s : Story σ} (h : i ≠ j) :
    (started w i s).stories[j]? = w.stories[j]? := List.getElem?_set_ne h

end World
end Trumania

namespace Trumania
namespace World
open Spec Story
variable {σ γ : Type} {env : Env σ γ} {G : List γ → Prop}

theorem StoryStep.mono {F F' Z Z' : Val → Prop} (hF : ∀ id, F id → F' id)
    (hZ : ∀ id, Z id → Z' id) {s s' : Story σ} (h : StoryStep env F Z G s s') :
    StoryStep env F' Z' G s s' := by
  cases h with
  | same => exact .same
  | force h1 h2 => exact .force (fun id hid => hF _ (h1 id hid)) h2
  | reset hg h1 h2 => exact .reset hg (fun id hid => hZ _ (h1 id hid)) h2
  | transit h => exact .transit h
  | back h => exact .back h

theorem Api.mono {F F' Z Z' : Nat → Val → Prop} (hF : ∀ j id, F j id → F' j id)
    (hZ : ∀ j id, Z j id → Z' j id) {w w' : World σ γ} (h : Api env F Z G w w') :
    Api env F' Z' G w w' := by
  cases h with
  | rest h hG => exact .rest h hG
  | force hs h1 h2 => exact .force hs (fun id hid => hF _ _ (h1 id hid)) h2
  | reset hs h1 h2 => exact .reset hs (fun id hid => hZ _ _ (h1 id hid)) h2
  | transit hs h => exact .transit hs h
  | back hs h => exact .back hs h

theorem Respects.mono {F F' Z Z' : Nat → Val → Prop} (hF : ∀ j id, F j id → F' j id)
    (hZ : ∀ j id, Z j id → Z' j id) {op : Op (World σ γ)} (h : Respects env F Z G op) :
    Respects env F' Z' G op := by
  intro data w out w' hop
  have := h data w out w' hop
  clear hop
  induction this with
  | refl => exact .refl
  | tail _ h2 ih => exact .tail ih (Api.mono hF hZ h2)

/-- an execution preserves the invariants of the generators -/
theorem execute_gens (hI : GenKept env G) {F Z : Nat → Val → Prop} {ops : List (Op (World σ γ))}
    (hops : ∀ op ∈ ops, Respects env F Z G op) {i : Nat} {w w' : World σ γ} {logs : Logs}
    (h : execute env ops i w = .ok logs w') (hg : G w.gens) : G w'.gens := by
  simp only [execute, Act.bind_eq_ok, onStory_eq_ok, getStory_eq_ok, Act.pure_eq_ok] at h
  obtain ⟨_, _, ⟨s, _, hs, h1, rfl⟩, _, _, ⟨hs0, rfl⟩, lg, w2, hrun, _, _,
    ⟨s2, s', hs2, htick, rfl⟩, rfl, rfl⟩ := h
  show G w2.gens
  rw [runActive] at hrun
  split at hrun
  · rw [Act.pure_eq_ok] at hrun
    obtain ⟨-, rfl⟩ := hrun
    exact hg
  · simp only [Act.bind_eq_ok] at hrun
    obtain ⟨⟨fr, lg'⟩, w1, hchain, hrun⟩ := hrun
    simp only [Act.bind_eq_ok, reschedule, Act.pure_eq_ok, getStory_eq_ok] at hrun
    obtain ⟨_, w2', ⟨s1, _, ⟨hs1, rfl⟩, hre⟩, rfl, rfl⟩ := hrun
    have hg1 : G w1.gens := apis_gens hI (chain_apis hops hchain) hg
    split at hre
    · obtain ⟨t, t', w3, h1, h2, rfl⟩ := resetTimers_eq_ok.1 hre
      have := resetStory_gens hI hg1 h2
      exact this
    · obtain ⟨t, t', -, -, rfl⟩ := onStory_eq_ok.1 hre
      exact hg1

/-- the invariants of the generators hold through histories -/
theorem history_gens {F : Nat → Val → Prop} {Z : World σ γ → Nat → Nat → Val → Prop}
    {E : Nat → Prop} (hI : GenInv env G) {w w' : World σ γ} (h : History env F Z E G w w')
    (hg : G w.gens) : G w'.gens := by
  induction h with
  | refl => exact hg
  | api _ h2 ih => exact api_gens hI.toGenKept h2 ih
  | create _ _ hG ih => exact hG ih
  | tick _ ih => exact hI.tick _ ih
  | exec _ _ hops h2 ih => exact execute_gens hI.toGenKept hops h2 ih

/-- invariants of one story through histories -/
theorem history_story {F : Nat → Val → Prop} {Z : World σ γ → Nat → Nat → Val → Prop}
    {E : Nat → Prop} {i : Nat} {P : Story σ → Prop}
    (hstep : ∀ a b, P a → StoryStep env (F i) (fun _ => True) G a b → P b)
    (hexec : ∀ (w1 w2 : World σ γ) ops logs s, E i → P s → G w1.gens → w1.stories[i]? = some s →
      (∀ op ∈ ops, Respects env F (Z w1 i) G op) → execute env ops i w1 = .ok logs w2 →
      ∃ s', w2.stories[i]? = some s' ∧ P s')
    (hI : GenInv env G) {w w' : World σ γ} (h : History env F Z E G w w') (hg : G w.gens)
    {s : Story σ} (hs : w.stories[i]? = some s) (h0 : P s) :
    ∃ s', w'.stories[i]? = some s' ∧ P s' := by
  induction h with
  | refl => exact ⟨s, hs, h0⟩
  | api hprev h2 ih =>
    obtain ⟨s1, h3, h4⟩ := ih
    obtain ⟨-, s2, h5, h6⟩ := api_story h2 (history_gens hI hprev hg) h3
    exact ⟨s2, h5, hstep _ _ h4 h6⟩
  | create _ h2 _ ih =>
    obtain ⟨s1, h3, h4⟩ := ih
    refine ⟨s1, ?_, h4⟩
    rw [h2, List.getElem?_append_left (List.getElem?_eq_some_iff.1 h3).1, h3]
  | tick _ ih => exact ih
  | @exec w1 w2 j ops logs hprev hj hops h2 ih =>
    obtain ⟨s1, h3, h4⟩ := ih
    have hg1 := history_gens hI hprev hg
    by_cases hij : j = i
    · subst hij
      exact hexec w1 w2 ops logs s1 hj h4 hg1 h3 hops h2
    · obtain ⟨sj, wo, s2, s3, e1, e2, e3, e4, -⟩ := execute_ok h2
      have hap := afterOps_apis hops e1 e2
      obtain ⟨s4, f1, -, f2⟩ := apis_story (i := i) (P := P) (fun a b _ ha hab =>
        hstep a b ha (hab.mono (fun _ h => h) (fun _ _ => trivial))) hI.toGenKept hap hg1
        ((started_get_ne hij).trans h3) h4
      refine ⟨s4, ?_, f2⟩
      rw [e4, List.getElem?_set_ne hij, f1]

theorem runOps_append {W : Type} {logSet : SetOrder String} {pre post : List (Op W)}
    {acc : Frame × Logs} :
    runOps logSet acc (pre ++ post) = (do runOps logSet (← runOps logSet acc pre) post) := by
  induction pre generalizing acc with
  | nil => simp [runOps]
  | cons op pre ih =>
    simp only [List.cons_append, runOps, bind_assoc]
    congr 1
    funext a
    rw [ih]

end World
end Trumania
