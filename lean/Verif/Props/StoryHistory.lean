import Verif.Props.Story
import Verif.Props.Clock
import Verif.Proofs.NewStory

/-!
# Properties C32, C35 (creation), C37, C38 and C15 (histories of a story)
-/

namespace Trumania
open Spec Story World
variable {σ γ : Type}

/-! ### C32 -/

/-- the member `id` of the story `i` is forced: it is marked as such and its timer is 0 -/
def Held (i : Nat) (id : Val) (w : World σ γ) : Prop :=
  ∃ s, w.stories[i]? = some s ∧ s.ids.Nodup ∧ id ∈ s.forced ∧ timerOf s id = some (some 0)

theorem held_step {env : Env σ γ} {F Z : Val → Prop} {G : List γ → Prop} {id : Val}
    {a b : Story σ} (ha : a.ids.Nodup ∧ id ∈ a.forced ∧ timerOf a id = some (some 0))
    (h : StoryStep env F Z G a b) : b.ids.Nodup ∧ id ∈ b.forced ∧ timerOf b id = some (some 0) := by
  refine ⟨h.static.2 ▸ ha.1, ?_⟩
  rcases h.timer id with ⟨h1, h2⟩ | ⟨-, -, h1, h2⟩ | ⟨-, -, h1, -⟩
  · exact ⟨h2.2 ha.2.1, h1.trans ha.2.2⟩
  · exact ⟨h1, h2⟩
  · exact absurd ha.2.1 h1

/-- **C32** `force_act_next` sets the timer of the listed members to 0 and marks them, and leaves the
timers of the others. -/
theorem C32_force_sets_timer (s s' : Story σ) (l : List Val) (h : s.forceActNext l = .ok s')
    (id : Val) :
    (id ∈ l → id ∈ s'.forced ∧ timerOf s' id = some (some 0)) ∧
    (id ∉ l → (id ∈ s'.forced ↔ id ∈ s.forced) ∧ timerOf s' id = timerOf s id) := by
  obtain ⟨h0, -, -, h3, h4⟩ := forceActNext_ok h
  constructor
  · intro hm
    refine ⟨(h3 id).2 (.inl hm), ?_⟩
    obtain ⟨r, hr⟩ := exists_row? (h0 id hm)
    rw [timerOf_eq, h4, if_pos hm, hr]; rfl
  · intro hm
    rw [timerOf_eq, h4, if_neg hm, h3]
    exact ⟨by simp [hm], rfl⟩

/-- **C32** A forced member stays forced through any history made of user code calling methods of
stories (resets and state transitions included), creations of stories, increments of the clock and
executions of the other stories; and it then acts at the next execution of its story. -/
theorem C32_forced_acts_next (env : Env σ γ) (i : Nat) (id : Val) (w w' : World σ γ)
    (hw : Held i id w)
    (h : History env (fun _ _ => True) (fun _ _ _ _ => True) (fun j => j ≠ i)
      anyGens w w') :
    Held i id w' ∧ ∀ s', w'.stories[i]? = some s' → Acts s' id := by
  obtain ⟨s, hs, h0⟩ := hw
  obtain ⟨s', h1, h2⟩ := history_story (P := fun s => s.ids.Nodup ∧ id ∈ s.forced ∧
    timerOf s id = some (some 0)) (fun a b ha hab => held_step ha hab)
    (fun _ _ _ _ _ hE => absurd rfl hE) GenInv.any h trivial hs h0
  refine ⟨⟨s', h1, h2⟩, fun t ht => ?_⟩
  rw [h1] at ht; cases ht
  rw [acts_iff, mem_activeIds h2.1]
  exact h2.2.2

/-- **C32** A member forced by the operations of its own story, at some point of the chain, stays
forced until the end of this execution, whatever the following operations, the rescheduling and the
ticks; hence it acts at the next one (`C32_forced_acts_next`). -/
theorem C32_forced_during_own_execution (env : Env σ γ) (F Z : Nat → Val → Prop)
    (pre post : List (Op (World σ γ))) (hpost : ∀ op ∈ post, Respects env F Z anyGens op)
    (i : Nat) (id : Val) (w wm w' : World σ γ) (s : Story σ) (hs : w.stories[i]? = some s)
    (hacting : actingRows s ≠ []) (data : Frame) (logs0 logs : Logs)
    (hpre : chain env.logSet pre ⟨[s.idField], actingRows s⟩ (started w i s) =
      .ok (data, logs0) wm)
    (hheld : Held i id wm) (h : execute env (pre ++ post) i w = .ok logs w') : Held i id w' := by
  obtain ⟨s0, w1, s1, s', hs0, h1, h2, h3, -, h5, h6, -, h7, -⟩ := execute_ok h
  rw [hs] at hs0; cases hs0
  obtain ⟨_, hs0, h1⟩ := h1
  rw [hs] at hs0; cases hs0
  rcases h1 with ⟨hn, -⟩ | ⟨-, d, h1⟩
  · exact absurd hn hacting
  rw [chain, runOps_append] at h1
  rw [chain] at hpre
  erw [Act.bind_ok hpre] at h1
  obtain ⟨sm, hm, hP⟩ := hheld
  obtain ⟨s1', g1, -, g2⟩ := apis_story (P := fun s => s.ids.Nodup ∧ id ∈ s.forced ∧
    timerOf s id = some (some 0)) (fun a b _ ha hab => held_step ha hab) GenKept.any
    (runOps_apis hpost h1) trivial hm hP
  rw [h2] at g1; cases g1
  refine ⟨s', by rw [h3, set_get h2, if_pos rfl], h6 ▸ g2.1, ?_, ?_⟩
  · rw [show s'.forced = s1.forced by rw [h5]]; exact g2.2.1
  · rw [timerOf_eq, h7 id g2.2.1, ← timerOf_eq]; exact g2.2.2

/-- "c" (of activity 0) is forced by an operation of the first story on "a", although this operation
is followed by a reset of all the timers: it acts at the next execution -/
example : ((do
      let _ ← execute exEnv [Ops.applySeries [] "V" (fun _ => .ok [.str "c"]),
        Ops.forceActNext 0 "V" none, Ops.resetTimers exEnv 0 (some "V")] 0
      resetTimers exEnv 0 none
      execute exEnv [Ops.fieldLogger "c" [] []] 0 : Act _ _).value? exWorld) =
    some [("c", ⟨["CALLER"], [⟨.str "c", [.str "c"]⟩]⟩)] := by decide +kernel

example : Held 1 (.str "b") { exWorld with stories := [exStory,
    { exStory2 with forced := [.str "b"], timer := [⟨.str "a", defaultState, some (-1)⟩,
      ⟨.str "b", defaultState, some 0⟩, ⟨.str "c", defaultState, some (-1)⟩] }] } :=
  ⟨_, rfl, by decide, by decide, by decide +kernel⟩

/-! ### C35 -/

/-- **C35** A story created without auto-reset has all its members inactive. -/
theorem C35_all_start_inactive (env : Env σ γ) (cfg : StoryConfig) (w w' : World σ γ) (n : Nat)
    (h : createStory env cfg w = .ok n w') (hauto : cfg.autoReset = false) :
    ∃ p s, w.pops[cfg.population]? = some p ∧ w'.stories[n]? = some s ∧ s.ids = p.ids ∧
      s.autoReset = false ∧ ∀ id ∈ p.ids, timerOf s id = some (some (-1)) := by
  obtain ⟨-, p, s, w1, hp, hnew, rfl, rfl⟩ := createStory_ok h
  obtain ⟨_, s0, _, -, -, -, -, -, -, -, -, -, e1, -, -, e2, -, e3⟩ := newStory_ok hnew
  rcases e3 with ⟨-, rfl, -⟩ | ⟨e3, -⟩
  · refine ⟨p, s, hp, by simp, ?_, e1.trans hauto, fun id hid => ?_⟩
    · simp [Story.ids, e2, Function.comp_def]
    · rw [timerOf_eq, initial_row hid s e2]; rfl
  · rw [hauto] at e3; cases e3

example : ((createStory exEnv
    { name := "new", population := 0, idField := "X", autoReset := false }).world? exWorld).map World.timers =
    some [[some 0, some 2, some (-1)], [some (-1), some (-1), some (-1)],
      [some (-1), some (-1), some (-1)]] := by decide +kernel

/-! ### C37 -/

/-- **C37** A reset gives timer -1 to the listed members whose current activity is 0 (unless they
are forced), whatever the timer generator returns. -/
theorem C37_reset_of_inactive (env : Env σ γ) (i : Nat) (l : Option (List Val))
    (w w' : World σ γ) (h : World.resetTimers env i l w = .ok () w') (s : Story σ)
    (hs : w.stories[i]? = some s) (id : Val) (hid : id ∈ l.getD s.ids) (hf : id ∉ s.forced)
    (p : StateParams) (hp : paramsOf s id = some p) (h0 : p.activity = 0) :
    ∃ s', w'.stories[i]? = some s' ∧ timerOf s' id = some (some (-1)) := by
  obtain ⟨s1, s', w1, h1, h2, rfl⟩ := resetTimers_eq_ok.1 h
  rw [hs] at h1; cases h1
  obtain ⟨r1, -, -, -, -, -, r7⟩ := resetStory_ok h2
  have hm := mem_minusForced.2 ⟨hid, hf⟩
  rcases r7 with ⟨hnil, -⟩ | ⟨ps, cells, ts, -, hmem, hps, -, -, -, hrow, -⟩
  · rw [hnil] at hm; simp at hm
  obtain ⟨k, p', t, k1, k2, k3, hr⟩ := hrow id hm
  have := Forall₂_get hps k1 k2
  rw [hp] at this; cases this
  refine ⟨s', by rw [r1, set_get hs, if_pos rfl], ?_⟩
  obtain ⟨r, hr'⟩ := exists_row? (hmem id hm)
  rw [timerOf_eq, hr, hr']
  simp [newTimer, h0]

/-- **C37** The automatic rescheduling of a member of activity 0 that acted gives it timer -1. -/
theorem C37_auto_reset_of_inactive (env : Env σ γ) (ops : List (Op (World σ γ))) (i : Nat)
    (w w' : World σ γ) (logs : Logs) (h : execute env ops i w = .ok logs w') (s : Story σ)
    (hs : w.stories[i]? = some s) (hnd : s.ids.Nodup) :
    ∃ w1 s1 s', AfterOps env ops i w logs w1 ∧ w1.stories[i]? = some s1 ∧
      w'.stories[i]? = some s' ∧ (s1.autoReset = true → ∀ id p, Acts s id → id ∉ s1.forced →
        paramsOf s1 id = some p → p.activity = 0 → timerOf s' id = some (some (-1))) := by
  obtain ⟨w1, s1, s', h1, h2, h3, h4⟩ := C34_auto_reset_reschedules env ops i w w' logs h s hs hnd
  refine ⟨w1, s1, s', h1, h2, h3, fun hauto id p ha hf hp h0 => ?_⟩
  obtain ⟨l, -, hl, hre⟩ := h4 hauto
  have hm : id ∈ l := (hl id).2 ⟨ha, hf⟩
  obtain ⟨w2, ps, cells, hps, -, hlen, hval⟩ := hre (List.ne_nil_of_mem hm)
  obtain ⟨k, hk⟩ := List.mem_iff_getElem?.1 hm
  have hkl : k < l.length := (List.getElem?_eq_some_iff.1 hk).1
  have hkp : k < ps.length := by rw [← hps.length_eq]; exact hkl
  have hpk := List.getElem?_eq_getElem hkp
  have := Forall₂_get hps hk hpk
  rw [hp] at this; cases this
  exact (hval k id _ _ hk hpk (List.getElem?_eq_getElem (by omega))).1 h0

/-- **C37** At its creation, the members of activity 0 of a story have timer -1. -/
theorem C37_creation_of_inactive (env : Env σ γ) (cfg : StoryConfig) (w w' : World σ γ) (n : Nat)
    (h : createStory env cfg w = .ok n w') :
    ∃ p s, w.pops[cfg.population]? = some p ∧ w'.stories[n]? = some s ∧
      ∀ id ∈ p.ids, ∀ par, paramsOf s id = some par → par.activity = 0 →
        timerOf s id = some (some (-1)) := by
  obtain ⟨-, p, s, w1, hp, hnew, rfl, rfl⟩ := createStory_ok h
  obtain ⟨_, s0, w0, -, -, -, -, -, -, -, -, -, e1, -, ef, e2, -, e3⟩ := newStory_ok hnew
  refine ⟨p, s, hp, by simp, fun id hid par hpar h0 => ?_⟩
  rcases e3 with ⟨-, rfl, -⟩ | ⟨-, e3⟩
  · rw [timerOf_eq, initial_row hid s e2]; rfl
  · obtain ⟨-, -, r3, -, -, r6, r7⟩ := resetStory_ok e3
    have hids : id ∈ s0.ids := by simpa [Story.ids, e2, Function.comp_def] using hid
    have hm : id ∈ s0.minusForced ((none : Option (List Val)).getD s0.ids) :=
      mem_minusForced.2 ⟨hids, by simp [ef]⟩
    rcases r7 with ⟨hnil, -⟩ | ⟨ps, cells, ts, -, hmem, hps, -, -, -, hrow, -⟩
    · rw [hnil] at hm; simp at hm
    obtain ⟨k, p', t, k1, k2, k3, hr⟩ := hrow id hm
    have hp' := Forall₂_get hps k1 k2
    have : paramsOf s id = paramsOf s0 id := by
      rw [paramsOf, r6 id, r3, paramsOf]
    rw [this, hp'] at hpar; cases hpar
    obtain ⟨r, hr'⟩ := exists_row? hids
    rw [timerOf_eq, hr, hr']
    simp [newTimer, h0]

/-- all the declared activities of a member satisfy `A` -/
def Activities (A : Rat → Prop) (s : Story σ) (id : Val) : Prop :=
  ∀ d st p, s.params.get? id = some d → d.get? st = some p → A p.activity

theorem activity_of_params {A : Rat → Prop} {s : Story σ} {id : Val} (h : Activities A s id)
    {p : StateParams} (hp : paramsOf s id = some p) : A p.activity := by
  rw [paramsOf] at hp
  simp only [bind, Option.bind_eq_some_iff] at hp
  obtain ⟨d, hd, st, -, hp⟩ := hp
  exact h d _ p hd hp

theorem Activities.static {A : Rat → Prop} {s s' : Story σ} {id : Val} (h : Activities A s id)
    (hs : SameStatic s s') : Activities A s' id := by
  rw [Activities, hs.1]; exact h

/-- **C37** hence a member all of whose activities are 0, and which is not scheduled, never acts
through any history in which nobody forces it: executions of all the stories by any operations
acting on stories through their methods (resets and state transitions of everybody included), user
code, creations of stories, increments of the clock. -/
theorem C37_inactive_never_acts (env : Env σ γ) (i : Nat) (id : Val) (w w' : World σ γ)
    (s : Story σ) (hs : w.stories[i]? = some s) (hnd : s.ids.Nodup)
    (hact : Activities (fun a => a = 0) s id) (hf : id ∉ s.forced) (q : Rat) (hq : q < 0)
    (ht : timerOf s id = some (some q))
    (h : History env (fun j x => ¬(j = i ∧ x = id)) (fun _ _ _ _ => True) (fun _ => True)
      anyGens w w') :
    ∃ s', w'.stories[i]? = some s' ∧ ¬Acts s' id := by
  have hid : id ∈ s.ids := by
    by_contra hn
    rw [timerOf_eq, row?_eq_none.2 hn] at ht
    cases ht
  let P : Story σ → Prop := fun s => id ∈ s.ids ∧ s.ids.Nodup ∧ Activities (fun a => a = 0) s id ∧
    id ∉ s.forced ∧ ∃ q : Rat, q < 0 ∧ timerOf s id = some (some q)
  have hstep : ∀ {Z : Val → Prop} (a b), P a →
      StoryStep env (fun x => ¬(i = i ∧ x = id)) Z anyGens a b → P b := by
    intro Z a b ha hab
    obtain ⟨a1, a2, a3, a4, q, hq, hqt⟩ := ha
    refine ⟨hab.static.2 ▸ a1, hab.static.2 ▸ a2, a3.static hab.static, ?_⟩
    rcases hab.timer id with ⟨e1, e2⟩ | ⟨e1, -⟩ | ⟨-, -, -, e4, _, _, l, ps, cells, ts, k, p, t, -, -,
      hps, -, -, k1, k2, k3, e5⟩
    · exact ⟨fun hb => a4 (e2.1 hb), q, hq, e1.trans hqt⟩
    · exact absurd ⟨rfl, rfl⟩ e1
    · have h0 := activity_of_params a3 (Forall₂_get hps k1 k2)
      exact ⟨e4, -1, by norm_num, by rw [e5, newTimer, if_neg (by simpa using h0)]⟩
  have hfin : ∀ s, P s → ¬Acts s id := by
    rintro s ⟨-, h2, -, -, q, hq, hqt⟩
    rw [acts_iff, mem_activeIds h2, hqt]
    simp only [Option.some.injEq]
    intro h0; linarith
  obtain ⟨s', h1, h2⟩ := history_story (P := P) (fun a b ha hab => hstep a b ha hab)
    (fun w1 w2 ops logs s1 _ hP hg1 hs1 hops hex => by
      obtain ⟨_, wo, so, s2, e1, e2, e3, e4, -, e5, e6, -, -, e7⟩ := execute_ok hex
      rw [hs1] at e1; cases e1
      have hP0 : P { s1 with forced := [] } := ⟨hP.1, hP.2.1, hP.2.2.1, by simp, hP.2.2.2.2⟩
      obtain ⟨so', g1, -, g2⟩ := apis_story (i := i) (P := P) (fun a b _ ha hab => hstep a b ha hab)
        GenKept.any (afterOps_apis hops hs1 e2) trivial (started_get hs1) hP0
      rw [e3] at g1; cases g1
      refine ⟨s2, by rw [e4, set_get e3, if_pos rfl], e6 ▸ g2.1, e6 ▸ g2.2.1, ?_, ?_, ?_⟩
      · rw [Activities, e5]; exact g2.2.2.1
      · rw [show s2.forced = so.forced by rw [e5]]; exact g2.2.2.2.1
      · obtain ⟨q, hq, hqt⟩ := g2.2.2.2.2
        have := (e7 hP.2.1).2.2.1 id hP.1 (hfin s1 hP) g2.2.2.2.1
        rw [timerOf_eq] at hqt
        obtain ⟨r, hr, hr'⟩ := Option.map_eq_some_iff.1 hqt
        refine ⟨q, hq, ?_⟩
        rw [timerOf_eq, this, hr]
        simp [tickedRow, ticked, hr', not_le.2 hq])
    GenInv.any h trivial hs ⟨hid, hnd, hact, hf, q, hq, ht⟩
  exact ⟨s', h1, hfin s' h2⟩

example : Activities (fun a => a = 0) exStory (.str "c") := by
  intro d st p hd hp
  have : d = [(defaultState, ⟨0, 1⟩), (.str "busy", ⟨0, 1⟩)] := by
    have : exStory.params.get? (.str "c") =
        some [(defaultState, ⟨0, 1⟩), (.str "busy", ⟨0, 1⟩)] := by decide +kernel
    rw [this] at hd; cases hd; rfl
  subst this
  have := Dict.get?_mem hp
  simp at this
  rcases this with ⟨-, rfl⟩ | ⟨-, rfl⟩ <;> rfl

/-! ### C38 -/

/-- when the generators satisfy `G`, the timer generator `g` answers whole numbers `>= 0` to positive
activities -/
def YieldsNat (env : Env σ γ) (G : List γ → Prop) (g : GenRef) : Prop :=
  ∀ obs w cells w', G w.gens → observe env g obs w = .ok cells w' → ∀ (k : Nat) (q : Rat) (c : Cell),
    obs[k]? = some (.num q) → 0 < q → cells[k]? = some c → ∃ n : Nat, c = .num (n : Rat)

/-- **C38**, partial: in an auto-reset story whose timer generator yields whole numbers `>= 0` for
positive activities (as long as some invariant `G` of the generators holds), a member whose activities are all positive always has a timer which is a whole
number `>= 0`, through any history of executions of all the stories, user code and ticks, forcing
included, provided that the operations of its own story do not reset its timer in an execution in
which it does not act (`C38_counterexample` shows that this would lose it). -/
theorem C38_no_member_is_lost_partial (env : Env σ γ) (G : List γ → Prop) (hG : GenInv env G) (i : Nat) (id : Val) (w w' : World σ γ)
    (s : Story σ) (hs : w.stories[i]? = some s) (hnd : s.ids.Nodup)
    (hauto : s.autoReset = true) (hg : G w.gens) (hgen : YieldsNat env G s.timerGen)
    (hact : Activities (fun a => 0 < a) s id) (n : Nat) (hn : timerOf s id = some (some (n : Rat)))
    (h : History env (fun _ _ => True) (fun v j j' x => j = i → j' = i → x = id →
      ∃ sv, v.stories[i]? = some sv ∧ Acts sv id) (fun _ => True) G w w') :
    ∃ s' m, w'.stories[i]? = some s' ∧ timerOf s' id = some (some ((m : Nat) : Rat)) := by
  have hid : id ∈ s.ids := by
    by_contra hn'
    rw [timerOf_eq, row?_eq_none.2 hn'] at hn
    cases hn
  let P : Story σ → Prop := fun s => id ∈ s.ids ∧ s.ids.Nodup ∧ s.autoReset = true ∧
    YieldsNat env G s.timerGen ∧ Activities (fun a => 0 < a) s id ∧
    ∃ n : Nat, timerOf s id = some (some (n : Rat))
  have hval : ∀ {s : Story σ} {l : List Val} {ps : List StateParams} {cells : List Cell}
      {w w' : World σ γ} {k : Nat} {p : StateParams} {c : Cell}, YieldsNat env G s.timerGen →
      G w.gens →
      Activities (fun a => 0 < a) s id →
      List.Forall₂ (fun id p => paramsOf s id = some p) l ps →
      observe env s.timerGen (ps.map fun p => Cell.num p.activity) w = .ok cells w' →
      l[k]? = some id → ps[k]? = some p → cells[k]? = some c →
      p.activity ≠ 0 ∧ ∃ n : Nat, c = .num (n : Rat) := by
    intro s l ps cells w w' k p c hy hgw ha hps ho k1 k2 k3
    have hpos := activity_of_params ha (Forall₂_get hps k1 k2)
    exact ⟨ne_of_gt hpos, hy _ _ _ _ hgw ho k p.activity c (by simp [k2]) hpos k3⟩
  have hstep : ∀ {F Z : Val → Prop} (a b), P a → StoryStep env F Z G a b → P b := by
    intro F Z a b ha hab
    obtain ⟨a1, a2, a3, a4, a5, n, hn⟩ := ha
    have hst := hab.static
    refine ⟨hst.2 ▸ a1, hst.2 ▸ a2, ?_, ?_, a5.static hst, ?_⟩
    · rw [hst.1]; exact a3
    · rw [hst.1]; exact a4
    rcases hab.timer id with ⟨e1, -⟩ | ⟨-, -, -, e1⟩ | ⟨-, -, -, -, wa, wb, l, ps, cells, ts, k, p, t,
      hgw, ho, hps, hts, hlen, k1, k2, k3, e5⟩
    · exact ⟨n, e1.trans hn⟩
    · exact ⟨0, by rw [e1]; rfl⟩
    · have h2 := mapM_ok_iff.1 hts
      have hkc : k < cells.length := by
        rw [h2.length_eq]; exact (List.getElem?_eq_some_iff.1 k3).1
      obtain ⟨hne, m, hm⟩ := hval a4 hgw a5 hps ho k1 k2 (List.getElem?_eq_getElem hkc)
      have := Forall₂_get h2 (List.getElem?_eq_getElem hkc) k3
      rw [hm] at this
      cases this
      exact ⟨m, by rw [e5, newTimer, if_pos hne]⟩
  obtain ⟨s', h1, h2⟩ := history_story (P := P) (fun a b ha hab => hstep a b ha hab)
    (fun w1 w2 ops logs s1 _ hP hg1 hs1 hops hex => by
      obtain ⟨_, wo, so, s2, e1, e2, e3, e4, -, e5, e6, -, eforced, e7⟩ := execute_ok hex
      rw [hs1] at e1; cases e1
      obtain ⟨n1, hn1⟩ := hP.2.2.2.2.2
      let Q : Story σ → Prop := fun a => P a ∧
        (¬Acts s1 id → id ∈ a.forced ∨ timerOf a id = timerOf s1 id)
      have hQ0 : Q { s1 with forced := [] } := ⟨hP, fun _ => .inr rfl⟩
      obtain ⟨so', g1, -, g2, g3⟩ := apis_story (i := i) (P := Q) (fun a b _ ha hab => by
        refine ⟨hstep a b ha.1 hab, fun hna => ?_⟩
        rcases hab.timer id with ⟨d1, d2⟩ | ⟨-, -, d1, -⟩ | ⟨d1, -⟩
        · rcases ha.2 hna with hb | hb
          · exact .inl (d2.2 hb)
          · exact .inr (d1.trans hb)
        · exact .inl d1
        · obtain ⟨sv, v1, v2⟩ := d1 rfl rfl rfl
          rw [hs1] at v1; cases v1
          exact absurd v2 hna) hG.toGenKept (afterOps_apis hops hs1 e2) hg1 (started_get hs1) hQ0
      have hgo := apis_gens hG.toGenKept (afterOps_apis hops hs1 e2) hg1
      rw [e3] at g1; cases g1
      obtain ⟨b1, b2, b3, b4, b5, n2, hn2⟩ := g2
      refine ⟨s2, by rw [e4, set_get e3, if_pos rfl], e6 ▸ b1, e6 ▸ b2, ?_, ?_, ?_, ?_⟩
      · rw [e5]; exact b3
      · rw [e5]; exact b4
      · rw [Activities, e5]; exact b5
      obtain ⟨-, -, etick, -, ere⟩ := e7 hP.2.1
      by_cases hf : id ∈ so.forced
      · exact ⟨n2, by rw [timerOf_eq, eforced id hf, ← timerOf_eq]; exact hn2⟩
      by_cases ha : Acts s1 id
      · have hm : id ∈ so.minusForced s1.activeIds := mem_minusForced.2 ⟨acts_iff.1 ha, hf⟩
        obtain ⟨w3, ps, cells, hps, ho, hlen, hv⟩ := ere b3 (List.ne_nil_of_mem hm)
        obtain ⟨k, hk⟩ := List.mem_iff_getElem?.1 hm
        have hkl := (List.getElem?_eq_some_iff.1 hk).1
        have hkp : k < ps.length := by rw [← hps.length_eq]; exact hkl
        have hkc : k < cells.length := by omega
        have k2 := List.getElem?_eq_getElem hkp
        have k3 := List.getElem?_eq_getElem hkc
        obtain ⟨hne, m, hm⟩ := hval b4 hgo b5 hps ho hk k2 k3
        rcases (hv k id _ _ hk k2 k3).2 hne with ⟨q, hq, hq'⟩ | ⟨hq, -⟩
        · rw [hm] at hq; cases hq
          exact ⟨m, hq'⟩
        · rw [hm] at hq; cases hq
      · rcases g3 ha with hb | hb
        · exact absurd hb hf
        have hb := hb.trans hn1
        rw [timerOf_eq] at hb
        obtain ⟨r, hr, hr'⟩ := Option.map_eq_some_iff.1 hb
        have hpos : n1 ≠ 0 := by
          rintro rfl
          exact ha (acts_iff.2 ((mem_activeIds hP.2.1).2 (by simpa using hn1)))
        refine ⟨n1 - 1, ?_⟩
        rw [timerOf_eq, etick id hP.1 ha hf, hr]
        have : (0 : Rat) ≤ (n1 : Rat) := by exact_mod_cast Nat.zero_le _
        simp only [Option.map_some, tickedRow, ticked, hr', if_pos this]
        rw [Nat.cast_sub (by omega)]
        simp)
    hG h hg hs ⟨hid, hnd, hauto, hgen, hact, n, hn⟩
  obtain ⟨m, hm⟩ := h2.2.2.2.2.2
  exact ⟨s', m, h1, hm⟩

/-- constant generators meet `YieldsNat` -/
theorem yieldsNat_constant (env : Env σ γ) (n : Nat) :
    YieldsNat env anyGens (.constant (.num (n : Rat))) := by
  intro obs w cells w' _ h k q c _ _ hc
  rw [observe, call, Act.pure_eq_ok] at h
  obtain ⟨rfl, -⟩ := h
  rw [List.getElem?_map, Option.map_eq_some_iff] at hc
  obtain ⟨_, _, rfl⟩ := hc
  exact ⟨n, rfl⟩

/-- the generator `j` of the circus is a cyclic timer with a state it can be in, `k` increments of the
clock after its construction as `t0`, for some `k` -/
def CyclicAt (R : Rng σ) (t0 : CyclicTimer σ) (j : Nat) (gens : List (AnyGen σ)) : Prop :=
  ∃ t k, gens[j]? = some (.cyclic t) ∧ TimerRun R t0 k t

theorem AnyGen.observe_cyclic {R : Rng σ} {t : CyclicTimer σ} {obs v : List Cell} {g' : AnyGen σ}
    (h : AnyGen.observe R (.cyclic t) obs = .ok (v, g')) : ∃ acts, obs.mapM Cell.asNum = .ok acts ∧
      v = (t.generate R acts).1.map AnyGen.timerCell ∧ g' = .cyclic (t.generate R acts).2 := by
  rw [AnyGen.observe] at h
  obtain ⟨acts, h1, h2⟩ := bind_eq_ok.1 h
  cases h2
  exact ⟨acts, h1, rfl, rfl⟩

/-- being such a cyclic timer is an invariant -/
theorem genInv_cyclic (env : Env σ (AnyGen σ)) (henv : env.sem = AnyGen.sem env.R)
    (t0 : CyclicTimer σ) (j : Nat) : GenInv env (CyclicAt env.R t0 j) := by
  refine ⟨⟨fun gens j' g n v g' hg hj h => ?_, fun gens j' g obs v g' hg hj h => ?_⟩,
    fun gens hg => ?_⟩
  all_goals obtain ⟨t, k, h1, h2⟩ := hg
  · by_cases hjj : j' = j
    · subst hjj
      rw [h1] at hj; cases hj
      rw [henv] at h
      cases h
    · exact ⟨t, k, by rw [List.getElem?_set_ne hjj]; exact h1, h2⟩
  · by_cases hjj : j' = j
    · subst hjj
      rw [h1] at hj; cases hj
      rw [henv] at h
      obtain ⟨acts, -, -, rfl⟩ := AnyGen.observe_cyclic h
      exact ⟨_, k, List.getElem?_set_self (List.getElem?_eq_some_iff.1 h1).1, .generate acts h2⟩
    · exact ⟨t, k, by rw [List.getElem?_set_ne hjj]; exact h1, h2⟩
  · refine ⟨t.increment, k + 1, ?_, .increment h2⟩
    rw [List.getElem?_map, h1, henv]; rfl

theorem mapM_asNum {obs : List Cell} {acts : List Rat} (h : obs.mapM Cell.asNum = .ok acts) :
    obs = acts.map Cell.num := by
  have := mapM_ok_iff.1 h
  clear h
  induction this with
  | nil => rfl
  | cons h1 _ ih =>
    rename_i c a _ _ _
    rw [List.map_cons, ← ih]
    congr 1
    cases c with
    | list _ => cases h1
    | scalar v => cases v <;> cases h1; rfl

/-- cyclic timers meet `YieldsNat` -/
theorem yieldsNat_cyclic (env : Env σ (AnyGen σ)) (henv : env.sem = AnyGen.sem env.R) (fuel : Nat)
    (cfg : TimerProfile) (seed current step : Int) (t0 : CyclicTimer σ) (hs : 0 < step)
    (hp : 0 < cfg.steps) (hw : ∀ x ∈ cfg.profile, 0 ≤ x)
    (h0 : CyclicTimer.new fuel env.R cfg seed current step = some (some (.ok t0))) (j : Nat) :
    YieldsNat env (CyclicAt env.R t0 j) (.ref j) := by
  intro obs w cells w' ⟨t, n, hj, hrun⟩ h k q c hk hq hc
  obtain ⟨a, a', ha, ho, -⟩ := observe_ref.1 h
  rw [hj] at ha; cases ha
  rw [henv] at ho
  obtain ⟨acts, e1, rfl, -⟩ := AnyGen.observe_cyclic ho
  obtain ⟨_, _, _, -, -, -, -, hall⟩ :=
    C15_positive_weight_bin_partial env.R fuel cfg seed current step t0 t n hs hp hw h0 hrun acts
  rw [mapM_asNum e1, List.getElem?_map, Option.map_eq_some_iff] at hk
  obtain ⟨q', hk, hq'⟩ := hk
  cases hq'
  rw [List.getElem?_map, Option.map_eq_some_iff] at hc
  obtain ⟨r, hr, rfl⟩ := hc
  obtain ⟨m, rfl, -⟩ := Forall₂_get hall hk hr hq
  exact ⟨m, rfl⟩

/-- **C15** A member rescheduled by the auto-reset of the execution at clock step `k` (counted from
the construction of its cyclic timer generator) gets a timer `n`, and acts exactly at the execution
`n + 1` steps later if nobody touches its timer: for `n >= 1` this step falls in a bin of positive
weight, unless it is the bin of the current step in a later cycle. -/
theorem C15_reset_acts_in_bin (env : Env σ (AnyGen σ)) (henv : env.sem = AnyGen.sem env.R)
    (fuel : Nat) (cfg : TimerProfile) (seed current step : Int) (t0 t : CyclicTimer σ)
    (hstep : 0 < step) (hp : 0 < cfg.steps) (hw : ∀ x ∈ cfg.profile, 0 ≤ x)
    (h0 : CyclicTimer.new fuel env.R cfg seed current step = some (some (.ok t0)))
    (k j : Nat) (hrun : TimerRun env.R t0 k t)
    (ops : List (Op (World σ (AnyGen σ)))) (i : Nat) (w w' : World σ (AnyGen σ)) (logs : Logs)
    (h : execute env ops i w = .ok logs w') (s : Story σ) (hs : w.stories[i]? = some s)
    (hnd : s.ids.Nodup) (w1 : World σ (AnyGen σ)) (s1 : Story σ)
    (hafter : AfterOps env ops i w logs w1) (hs1 : w1.stories[i]? = some s1)
    (hids : s1.ids = s.ids) (hauto : s1.autoReset = true) (hgen : s1.timerGen = .ref j)
    (hj : w1.gens[j]? = some (.cyclic t)) (id : Val) (hacts : Acts s id) (hf : id ∉ s1.forced)
    (p : StateParams) (hpar : paramsOf s1 id = some p) (hpos : 0 < p.activity) :
    ∃ init bins m n, IsLastCycleStart cfg.start current (cfg.profile.length * cfg.steps) init ∧
      IsBinWeights cfg step bins ∧
      current ≤ init + (m : Nat) * step ∧ init + m * step < current + step ∧
      (0 < n → ∃ x, bins[(m + k + (n + 1)) % bins.length]? = some x ∧
        (0 < x ∨ (n + 1) % bins.length = 0)) ∧
      ∀ l ≤ n, ∀ w'', Unattended env i id w' l w'' →
        ∃ s'', w''.stories[i]? = some s'' ∧ (Acts s'' id ↔ l = n) := by
  obtain ⟨_, w1', s1', s', e1, e2, e3, e4, -, -, e6, -, -, e7⟩ := execute_ok h
  rw [hs] at e1; cases e1
  obtain ⟨-, rfl⟩ := afterOps_unique hafter e2
  rw [hs1] at e3; cases e3
  obtain ⟨-, -, -, -, hre⟩ := e7 hnd
  have hm : id ∈ s1.minusForced s.activeIds := mem_minusForced.2 ⟨acts_iff.1 hacts, hf⟩
  obtain ⟨w2, ps, cells, hps, ho, hlen, hv⟩ := hre hauto (List.ne_nil_of_mem hm)
  rw [hgen] at ho
  obtain ⟨a, a', ha, ho, -⟩ := observe_ref.1 ho
  rw [hj] at ha; cases ha
  rw [henv] at ho
  obtain ⟨acts, g1, rfl, -⟩ := AnyGen.observe_cyclic ho
  obtain ⟨init, bins, m, b1, b2, b3, b4, hall⟩ :=
    C15_positive_weight_bin_partial env.R fuel cfg seed current step t0 t k hstep hp hw h0 hrun acts
  obtain ⟨x, hx⟩ := List.mem_iff_getElem?.1 hm
  have hxl := (List.getElem?_eq_some_iff.1 hx).1
  have hxp : x < ps.length := by rw [← hps.length_eq]; exact hxl
  have k2 := List.getElem?_eq_getElem hxp
  have hpx := Forall₂_get hps hx k2
  rw [hpar] at hpx
  have hpx : p = ps[x] := by simpa using hpx
  have hact : acts[x]? = some p.activity := by
    have := congrArg (·[x]?) (mapM_asNum g1)
    simp only [List.getElem?_map, k2, Option.map_some] at this
    obtain ⟨q, hq, hq'⟩ := Option.map_eq_some_iff.1 this.symm
    cases hq'
    rw [hq, hpx]
  have hxc : x < ((t.generate env.R acts).1).length := by
    rw [List.length_map] at hlen; omega
  have k3 := List.getElem?_eq_getElem hxc
  obtain ⟨n, hn, hbin⟩ := Forall₂_get hall hact k3 hpos
  refine ⟨init, bins, m, n, b1, b2, b3, b4, hbin, fun l hl w'' hun => ?_⟩
  have hs' : w'.stories[i]? = some s' := by rw [e4, set_get hs1, if_pos rfl]
  have ht : timerOf s' id = some (some (n : Rat)) := by
    rcases (hv x id ps[x] (.num (n : Rat)) hx k2 (by
      rw [List.getElem?_map, k3, hn]; rfl)).2 (by rw [← hpx]; exact ne_of_gt hpos) with
      ⟨q, hq, hq'⟩ | ⟨hq, -⟩
    · cases hq; exact hq'
    · cases hq
  obtain ⟨s'', f1, -, f2⟩ := C36_timer_counts_executions env i id w' w'' s' hs'
    (by rw [e6, hids]; exact hnd) n ht l hl hun
  exact ⟨s'', f1, f2⟩

/-- the example circus with the first story scheduled by a cyclic timer -/
def exCyclic (t : CyclicTimer Nat) : World Nat (AnyGen Nat) :=
  { exWorld with
    clock := { exWorld.clock with listeners := [.cyclic t] }
    stories := [{ exStory with timerGen := .ref 0 }] }

/-- "a" acts and gets timer 5 -/
example : (CyclicTimer.new 10 Rng.counter
      { start := 0, profile := [1, 3], steps := 3600 * nsPerSec } 7 0
      (1800 * nsPerSec)).map (·.map (·.map fun t =>
        (((execute exEnv [] 0).world? (exCyclic t)).map World.timers).getD [])) =
    some (some (.ok [[some 5, some 1, some (-1)]])) := by decide +kernel

/-- **C38** is false in general: in an auto-reset story, an operation of the story resets the timer of
the waiting member "b", of activity 1, to 0 (which the generator returns); the tick at the end of the
execution then makes it -1, and "b" never acts again. -/
theorem C38_counterexample :
    let s : Story Nat := { exStory with
      timerGen := .constant (.num 0)
      timer := [⟨.str "a", defaultState, some 0⟩, ⟨.str "b", defaultState, some 2⟩,
        ⟨.str "c", defaultState, some (-1)⟩] }
    ((execute exEnv [Ops.applySeries [] "V" (fun _ => .ok [.str "b"]),
      Ops.resetTimers exEnv 0 (some "V")] 0).world? { exWorld with stories := [s] }).map
        World.timers = some [[some 0, some (-1), some (-1)]] ∧
      paramsOf s (.str "b") = some ⟨1, 1⟩ := by
  decide +kernel

/-- **C14** As cells of a story: the timer of an activity that is not positive is missing, the other ones
are numbers. -/
theorem C14_cells {R : Rng σ} {t : CyclicTimer σ} {acts : List Rat} {v : List Cell} {g : AnyGen σ}
    (h : AnyGen.observe R (.cyclic t) (acts.map fun a => Cell.num a) = .ok (v, g)) :
    List.Forall₂ (fun a c => (a ≤ 0 → c = .scalar .na) ∧ (0 < a → ∃ q, c = .scalar (.num q))) acts v := by
  obtain ⟨acts', h1, rfl, -⟩ := AnyGen.observe_cyclic h
  have hacts : acts' = acts := by
    have hinj : Function.Injective fun a : Rat => Cell.scalar (Val.num a) := fun a b hab => by
      simpa using hab
    exact (List.map_injective_iff.2 hinj (mapM_asNum h1)).symm
  subst hacts
  rw [List.forall₂_map_right_iff]
  refine List.Forall₂.imp ?_ (generate_spec R t acts')
  rintro a r (⟨h1, h2, u, -, -, rfl⟩ | ⟨h1, b, -, -, rfl⟩ | ⟨h1, rfl⟩)
  · exact ⟨fun h => absurd h (not_le.2 h1), fun _ => ⟨_, rfl⟩⟩
  · exact ⟨fun h => by linarith, fun _ => ⟨_, rfl⟩⟩
  · exact ⟨fun _ => rfl, fun h => absurd h (not_lt.2 h1)⟩

end Trumania
