import Verif.Proofs.Hours
import Verif.Props.Trigger
import Verif.Props.StoryHistory
import Verif.Props.Components
import Verif.Props.Run
import Verif.Proofs.NewStory
import Mathlib.Tactic.IntervalCases

/-!
# Property C109 (when the members of a story scheduled by a cyclic timer act)
-/

namespace Trumania
open Spec World Story
variable {σ : Type} {env : Env σ (AnyGen σ)} {b g : Nat} {cfg : TimerProfile}
  {chains : List (List (Op (World σ (AnyGen σ))))}

theorem samePoint_refl (d : Int) : SamePoint cfg d d := by simp [SamePoint]

theorem samePoint_trans {d e f : Int} (h1 : SamePoint cfg d e) (h2 : SamePoint cfg e f) :
    SamePoint cfg d f := by
  rw [SamePoint] at *
  rw [show d - f = (d - e) + (e - f) by ring, Int.add_emod, h1, h2]
  simp

theorem samePoint_shift {d e : Int} (x : Int) (h : SamePoint cfg d e) :
    SamePoint cfg (d + x) (e + x) := by
  rw [SamePoint, show d + x - (e + x) = d - e by ring]; exact h

theorem active_same {step d e : Int} (h : SamePoint cfg d e) (ha : Active cfg step e) :
    Active cfg step d := by
  rcases ha with ha | ha
  · exact .inl (by rw [profileWeight_same h]; exact ha)
  · exact .inr (by rw [Int.sub_eq_add_neg, profileWeight_same (samePoint_shift (-step) h), ← Int.sub_eq_add_neg]; exact ha)

theorem mayAct_same {s0 : Story σ} {start step : Int} {id : Val} {d e : Int} (h : SamePoint cfg d e)
    (ha : MayAct cfg s0 start step id e) : MayAct cfg s0 start step id d := by
  rcases ha with ha | ⟨n, h1, h2⟩
  · exact .inl (active_same h ha)
  · exact .inr ⟨n, h1, samePoint_trans h h2⟩

/-- the cyclic timer `g` is on time -/
def OnTimeAt (R : Rng σ) (cfg : TimerProfile) (step date : Int) (g : Nat) (gens : List (AnyGen σ)) : Prop :=
  ∃ t, gens[g]? = some (.cyclic t) ∧ OnTime R cfg step date t

theorem onTimeAt_kept (henv : env.sem = AnyGen.sem env.R) (step date : Int) :
    GenKept env (OnTimeAt env.R cfg step date g) := by
  refine ⟨fun gens j x n v x' hg hj h => ?_, fun gens j x obs v x' hg hj h => ?_⟩
  all_goals obtain ⟨t, h1, h2⟩ := hg
  · by_cases hjg : j = g
    · subst hjg
      rw [h1] at hj; cases hj
      rw [henv] at h
      cases h
    · exact ⟨t, by rw [List.getElem?_set_ne hjg]; exact h1, h2⟩
  · by_cases hjg : j = g
    · subst hjg
      rw [h1] at hj; cases hj
      rw [henv] at h
      obtain ⟨acts, -, -, rfl⟩ := AnyGen.observe_cyclic h
      exact ⟨_, List.getElem?_set_self (List.getElem?_eq_some_iff.1 h1).1, OnTime.generate h2 acts⟩
    · exact ⟨t, by rw [List.getElem?_set_ne hjg]; exact h1, h2⟩

/-- the timers of the members of the story `b` lead to dates at which they may act; `done` tells whether
the story has been executed in the current step -/
def Ready (b g : Nat) (cfg : TimerProfile) (R : Rng σ) (step : Int) (D : Val → Int → Prop) (done : Bool)
    (w : World σ (AnyGen σ)) : Prop :=
  w.clock.step = step ∧ OnTimeAt R cfg step w.clock.current g w.gens ∧
  ∃ s, w.stories[b]? = some s ∧ s.ids.Nodup ∧ s.autoReset = true ∧ s.timerGen = .ref g ∧
    ∀ id (n : Nat), timerOf s id = some (some (n : Rat)) →
      D id (w.clock.current + (n + if done then 1 else 0) * step)

theorem ready_exec (henv : env.sem = AnyGen.sem env.R) {step : Int} {D : Val → Int → Prop} {done : Bool}
    {i : Nat} {ops : List (Op (World σ (AnyGen σ)))} {w w1 : World σ (AnyGen σ)} {logs : Logs}
    (hops : ∀ op ∈ ops, BuiltIn env (· ≠ b) (· ≠ b) op) (h : execute env ops i w = .ok logs w1)
    (hw : Ready b g cfg env.R step D done w) :
    w1.clock.step = step ∧ w1.clock.current = w.clock.current ∧
      OnTimeAt env.R cfg step w1.clock.current g w1.gens := by
  obtain ⟨h1, h2, -⟩ := hw
  have hdate : World.date w1 = World.date w := by
    have := execute_date (env := env) (fun op hop => builtIn_date (hops op hop)) i w
    rwa [Act.after_ok h] at this
  have hd : w1.clock.current = w.clock.current := congrArg Prod.fst hdate
  have hst : w1.clock.step = w.clock.step := congrArg Prod.snd hdate
  refine ⟨hst.trans h1, hd, ?_⟩
  rw [hd]
  exact execute_gens (onTimeAt_kept henv step _) (fun op hop =>
    builtIn_respects (onTimeAt_kept henv step _) (hops op hop)) h h2

theorem ready_other (henv : env.sem = AnyGen.sem env.R) {step : Int} {D : Val → Int → Prop} {done : Bool}
    {i : Nat} {ops : List (Op (World σ (AnyGen σ)))} {w w1 : World σ (AnyGen σ)} {logs : Logs}
    (hops : ∀ op ∈ ops, BuiltIn env (· ≠ b) (· ≠ b) op) (h : execute env ops i w = .ok logs w1)
    (hib : i ≠ b) (hw : Ready b g cfg env.R step D done w) : Ready b g cfg env.R step D done w1 := by
  obtain ⟨k1, k2, k3⟩ := ready_exec henv hops h hw
  obtain ⟨-, -, s, hs, hn, ha, hg, ht⟩ := hw
  have hkept : ∀ id, KeptFor b s id w1 := by
    intro id
    obtain ⟨si, w2, s2, s', hsi, hafter, h2, h3, -⟩ := execute_ok h
    have hst : KeptFor b s id (started w i si) :=
      ⟨s, by rw [started_get_ne hib]; exact hs, .refl _, rfl⟩
    obtain ⟨s4, e1, e2, e3⟩ := apis_keptFor (F := fun j _ => j ≠ b) (Z := fun j _ => j ≠ b) (by simp) (by simp)
      (afterOps_apis (fun op hop => builtIn_respects (GenKept.any (env := env)) (hops op hop)) hsi hafter) hst
    exact ⟨s4, by rw [h3, List.getElem?_set_ne hib]; exact e1, e2, e3⟩
  obtain ⟨s1, e1, e2, -⟩ := hkept (.num 0)
  refine ⟨k1, k3, s1, e1, by rw [e2.2]; exact hn, by rw [e2.1]; exact ha, by rw [e2.1]; exact hg, ?_⟩
  intro id n hid
  obtain ⟨s2, f1, -, f3⟩ := hkept id
  rw [e1] at f1; cases f1
  rw [f3] at hid
  rw [k2]
  exact ht id n hid

theorem ready_self (henv : env.sem = AnyGen.sem env.R) (hR : NoZeroDraw env.R) {step : Int}
    (hstep : 0 < step) (hp : 0 < cfg.steps) (hpos : ∀ x ∈ cfg.profile, 0 ≤ x)
    (hcyc : (cfg.profile.length * cfg.steps) % step = 0) {D : Val → Int → Prop}
    (hD1 : ∀ id d, Active cfg step d → D id d)
    (hD2 : ∀ id d e, SamePoint cfg d e → D id e → D id d)
    {ops : List (Op (World σ (AnyGen σ)))} {w w1 : World σ (AnyGen σ)} {logs : Logs}
    (hops : ∀ op ∈ ops, BuiltIn env (· ≠ b) (· ≠ b) op) (h : execute env ops b w = .ok logs w1)
    (hw : Ready b g cfg env.R step D false w) : Ready b g cfg env.R step D true w1 := by
  obtain ⟨k1, k2, k3⟩ := ready_exec henv hops h hw
  obtain ⟨hst, hot, s, hs, hn, ha, hg, ht⟩ := hw
  obtain ⟨t, w2, s2, s', ht', hafter, h2, h3, -, h5, h6, -, -, hrows⟩ := execute_ok h
  rw [hs] at ht'; cases ht'
  have hapis := afterOps_apis (fun op hop =>
    builtIn_respects (onTimeAt_kept (cfg := cfg) (g := g) henv step w.clock.current)
      (hops op hop)) hs hafter
  have hot2 : OnTimeAt env.R cfg step w.clock.current g w2.gens :=
    apis_gens (onTimeAt_kept henv step _) hapis hot
  obtain ⟨s3, e1, e2, e3⟩ := apis_story (i := b)
    (P := fun t => ∀ id, timerOf t id = timerOf s id ∧ id ∉ t.forced)
    (fun x y _ hx hstep id => by
      rcases hstep.timer id with ⟨k1, k2⟩ | ⟨k, -⟩ | ⟨k, -⟩
      · exact ⟨k1.trans (hx id).1, fun hc => (hx id).2 (k2.1 hc)⟩
      · exact absurd rfl k
      · exact absurd rfl k) (onTimeAt_kept henv step _) hapis hot (started_get hs)
      (fun id => ⟨rfl, by simp⟩)
  rw [h2] at e1; cases e1
  have hids : s2.ids = s.ids := e2.2
  have hauto2 : s2.autoReset = true := by rw [e2.1]; exact ha
  have hgen2 : s2.timerGen = .ref g := by rw [e2.1]; exact hg
  obtain ⟨r1, -, r3, -, r5⟩ := hrows hn
  refine ⟨k1, k3, s', by rw [h3, set_get h2, if_pos rfl], by rw [h6, hids]; exact hn,
    by rw [h5]; exact hauto2, by rw [h5]; exact hgen2, ?_⟩
  intro id n hid
  rw [k2]
  by_cases hmem : id ∈ s.ids
  swap
  · exfalso
    rw [timerOf_eq, r1 id hmem, ← timerOf_eq, (e3 id).1, timerOf_eq, row?_eq_none.2 hmem] at hid
    cases hid
  by_cases hacts : Acts s id
  · have hm : id ∈ s2.minusForced s.activeIds := mem_minusForced.2 ⟨acts_iff.1 hacts, (e3 id).2⟩
    obtain ⟨w3, ps, cells, hps, ho, hlen, hv⟩ := r5 hauto2 (List.ne_nil_of_mem hm)
    rw [hgen2] at ho
    obtain ⟨a, a', ha', ho, -⟩ := observe_ref.1 ho
    obtain ⟨t, ht1, ht2⟩ := hot2
    rw [ht1] at ha'; cases ha'
    rw [henv] at ho
    obtain ⟨acts, g1, rfl, -⟩ := AnyGen.observe_cyclic ho
    have hall := timer_target hR hstep hp hpos hcyc ht2 acts
    obtain ⟨x, hx⟩ := List.mem_iff_getElem?.1 hm
    have hxl := (List.getElem?_eq_some_iff.1 hx).1
    have hxp : x < ps.length := by rw [← hps.length_eq]; exact hxl
    have kx := List.getElem?_eq_getElem hxp
    have hact : acts[x]? = some ps[x].activity := by
      have := congrArg (·[x]?) (mapM_asNum g1)
      simp only [List.getElem?_map, kx, Option.map_some] at this
      obtain ⟨q, hq, hq'⟩ := Option.map_eq_some_iff.1 this.symm
      cases hq'
      rw [hq]
    have hxc : x < ((t.generate env.R acts).1).length := by
      rw [List.length_map] at hlen; omega
    have kc := List.getElem?_eq_getElem hxc
    obtain ⟨hneg, hposi⟩ := Forall₂_get hall hact kc
    obtain ⟨v1, v2⟩ := hv x id ps[x] _ hx kx (by rw [List.getElem?_map, kc]; rfl)
    rcases lt_trichotomy ps[x].activity 0 with hlt | heq | hgt
    · rw [hneg hlt.le] at v2
      rcases v2 hlt.ne with ⟨q, hq, -⟩ | ⟨-, hq⟩
      · cases hq
      · rw [hq] at hid; cases hid
    · rw [v1 heq] at hid
      simp only [Option.some.injEq] at hid
      have : (0 : Rat) ≤ n := by positivity
      rw [← hid] at this
      norm_num at this
    · obtain ⟨m, hm1, hm2⟩ := hposi hgt
      rw [hm1] at v2
      have hnm : n = m := by
        rcases v2 hgt.ne' with ⟨q, hq, hq2⟩ | ⟨hq, -⟩
        · cases hq
          rw [hid] at hq2
          simpa using hq2
        · cases hq
      subst hnm
      simp only [if_true]
      rcases hm2 with hm2 | ⟨rfl, hm2⟩ | hm2
      · exact hD1 _ _ (.inl hm2)
      · refine hD1 _ _ (.inr ?_)
        simpa using hm2
      · refine hD2 _ _ _ hm2 ?_
        rw [acts_iff, mem_activeIds hn] at hacts
        have := ht id 0 (by rw [hacts]; simp)
        simpa using this
  · have hrow := r3 id hmem hacts (e3 id).2
    rw [timerOf_eq, hrow] at hid
    have hold : timerOf s id = some (some ((n + 1 : Nat) : Rat)) := by
      rw [← (e3 id).1, timerOf_eq]
      cases hr : s2.row? id with
      | none => rw [hr] at hid; cases hid
      | some row =>
        rw [hr] at hid
        simp only [Option.map_some, tickedRow, Option.some.injEq] at hid ⊢
        cases hrem : row.remaining with
        | none => rw [hrem] at hid; cases hid
        | some q =>
          rw [hrem, ticked] at hid
          have hn0 : (0 : Rat) ≤ n := by positivity
          split at hid
          · simp only [Option.some.injEq] at hid
            push_cast
            rw [← hid]; simp
          · next hq =>
            simp only [Option.some.injEq] at hid
            rw [hid] at hq
            exact absurd hn0 hq
    have := ht id (n + 1) hold
    simpa using this

theorem ready_tick (henv : env.sem = AnyGen.sem env.R) {step : Int} {D : Val → Int → Prop}
    {w : World σ (AnyGen σ)} (hw : Ready b g cfg env.R step D true w) :
    Ready b g cfg env.R step D false (nextStep env w) := by
  obtain ⟨hst, ⟨t, h1, h2⟩, s, hs, hn, ha, hg, ht⟩ := hw
  refine ⟨hst, ⟨t.increment, ?_, ?_⟩, s, hs, hn, ha, hg, ?_⟩
  · show (w.gens.map env.sem.tick)[g]? = _
    rw [List.getElem?_map, h1, henv]; rfl
  · have := OnTime.increment h2
    rw [← hst] at this ⊢
    exact this
  · intro id n hid
    have := ht id n hid
    simp only [if_true, nextStep, Bool.false_eq_true, if_false, add_zero] at this ⊢
    rw [hst]
    rw [show w.clock.current + step + (n : Int) * step = w.clock.current + (n + 1) * step by ring]
    exact this

/-- the timers remain so, when the story is executed once per step -/
theorem ready_played (henv : env.sem = AnyGen.sem env.R) (hR : NoZeroDraw env.R) {step : Int}
    (hstep : 0 < step) (hp : 0 < cfg.steps) (hpos : ∀ x ∈ cfg.profile, 0 ≤ x)
    (hcyc : (cfg.profile.length * cfg.steps) % step = 0) {D : Val → Int → Prop}
    (hD1 : ∀ id d, Active cfg step d → D id d)
    (hD2 : ∀ id d e, SamePoint cfg d e → D id e → D id d)
    (hch : ∀ ops ∈ chains, ∀ op ∈ ops, BuiltIn env (· ≠ b) (· ≠ b) op)
    {w w' : World σ (AnyGen σ)} {evs : List (Int × Event)} (h : Played env chains w evs w')
    {done done' : Bool} (honce : oncePerStep b done (evs.map (·.2.story)) = some done')
    (hw : Ready b g cfg env.R step D done w) : Ready b g cfg env.R step D done' w' := by
  induction h generalizing done with
  | nil w =>
    cases honce
    exact hw
  | @exec w w1 w' l i ops logs hi h rest ih =>
    have hops := hch ops (List.mem_of_getElem? hi)
    simp only [List.map_cons, Event.story, oncePerStep] at honce
    by_cases hib : i = b
    · subst hib
      rw [if_pos rfl] at honce
      cases done with
      | true => cases honce
      | false => exact ih honce (ready_self henv hR hstep hp hpos hcyc hD1 hD2 hops h hw)
    · rw [if_neg hib] at honce
      exact ih honce (ready_other henv hops h hib hw)
  | tick rest ih =>
    simp only [List.map_cons, Event.story, oncePerStep] at honce
    cases done with
    | false => cases honce
    | true => exact ih honce (ready_tick henv hw)

theorem ready_start {w : World σ (AnyGen σ)} {s0 : Story σ} (htimed : TimedBy env cfg b g w)
    (hs0 : w.stories[b]? = some s0) :
    Ready b g cfg env.R w.clock.step (MayAct cfg s0 w.clock.current w.clock.step) false w := by
  obtain ⟨s, t, h1, h2, h3, h4, h5, h6⟩ := htimed
  rw [hs0] at h1; cases h1
  refine ⟨rfl, ⟨t, h5, h6⟩, s0, hs0, h2, h3, h4, fun id n hid => .inr ⟨n, hid, ?_⟩⟩
  simp only [Bool.false_eq_true, if_false, add_zero]
  exact samePoint_refl _

/-- **C109** In a story that reschedules its members with a cyclic timer, and is executed once per clock
step, a member acts only in a clock step to which the profile gives some weight, or right after such a
step, or when its timer in the beginning says so (at this point of the cycle). No operation forces or
resets the members of the story; they may change their state. No draw is exactly 0. -/
theorem C109_active_hours (henv : env.sem = AnyGen.sem env.R) (hR : NoZeroDraw env.R)
    {w w' : World σ (AnyGen σ)} {s0 s : Story σ} (hstep : 0 < w.clock.step) (hp : 0 < cfg.steps)
    (hpos : ∀ x ∈ cfg.profile, 0 ≤ x) (hcyc : (cfg.profile.length * cfg.steps) % w.clock.step = 0)
    (htimed : TimedBy env cfg b g w) (hs0 : w.stories[b]? = some s0)
    (hch : ∀ ops ∈ chains, ∀ op ∈ ops, BuiltIn env (· ≠ b) (· ≠ b) op) {evs : List (Int × Event)}
    (h : Played env chains w evs w') (honce : oncePerStep b false (evs.map (·.2.story)) = some false)
    (hs : w'.stories[b]? = some s) {id : Val} (hacts : Acts s id) :
    MayAct cfg s0 w.clock.current w.clock.step id w'.clock.current := by
  obtain ⟨-, -, s1, h1, hn, -, -, ht⟩ := ready_played henv hR hstep hp hpos hcyc
    (D := MayAct cfg s0 w.clock.current w.clock.step) (fun _ _ h => .inl h)
    (fun _ _ _ h1 h2 => mayAct_same h1 h2) hch h honce (ready_start htimed hs0)
  rw [hs] at h1; cases h1
  rw [acts_iff, mem_activeIds hn] at hacts
  have := ht id 0 (by rw [hacts]; simp)
  simpa using this

/-- the events before a given one, and its execution -/
theorem played_exec_mem {γ : Type} {env : Env σ γ} {chains : List (List (Op (World σ γ)))}
    {w w' : World σ γ} {evs : List (Int × Event)} (h : Played env chains w evs w') {d : Int} {i : Nat}
    {logs : Logs} (hm : (d, Event.exec i logs) ∈ evs) :
    ∃ evs1 evs2 w1 w2 ops, evs = evs1 ++ (d, .exec i logs) :: evs2 ∧ Played env chains w evs1 w1 ∧
      chains[i]? = some ops ∧ execute env ops i w1 = .ok logs w2 ∧ w1.clock.current = d := by
  induction h with
  | nil w => cases hm
  | @exec w w1 w' l j ops lg hi h rest ih =>
    rcases List.mem_cons.1 hm with heq | hm
    · cases heq
      exact ⟨[], l, w, w1, ops, rfl, .nil w, hi, h, rfl⟩
    · obtain ⟨e1, e2, u1, u2, ops2, k1, k2, k3, k4, k5⟩ := ih hm
      exact ⟨_ :: e1, e2, u1, u2, ops2, by rw [k1]; rfl, .exec hi h k2, k3, k4, k5⟩
  | tick rest ih =>
    rcases List.mem_cons.1 hm with heq | hm
    · cases heq
    · obtain ⟨e1, e2, u1, u2, ops2, k1, k2, k3, k4, k5⟩ := ih hm
      exact ⟨_ :: e1, e2, u1, u2, ops2, by rw [k1]; rfl, .tick k2, k3, k4, k5⟩

/-- an execution that emits logs has an acting member -/
theorem execute_logs_acts {γ : Type} {env : Env σ γ} {ops : List (Op (World σ γ))} {i : Nat}
    {w w' : World σ γ} {logs : Logs} (h : execute env ops i w = .ok logs w') (hl : logs ≠ []) :
    ∃ s id, w.stories[i]? = some s ∧ Acts s id := by
  simp only [execute, Act.bind_eq_ok, onStory_eq_ok, getStory_eq_ok, Act.pure_eq_ok] at h
  obtain ⟨_, _, ⟨s, _, hs, h1, rfl⟩, _, _, ⟨hs0, rfl⟩, lg, w2, hrun, _, _, -, rfl, rfl⟩ := h
  cases h1
  rw [List.getElem?_set_self (List.getElem?_eq_some_iff.1 hs).1] at hs0
  cases hs0
  rw [show s.clearForced.activeIds = s.activeIds from rfl] at hrun
  rw [runActive] at hrun
  split at hrun
  · rw [Act.pure_eq_ok] at hrun
    exact absurd hrun.1.symm hl
  · next hne =>
    obtain ⟨id, hid⟩ := List.exists_mem_of_ne_nil _ hne
    exact ⟨s, id, hs, acts_iff.2 hid⟩

theorem oncePerStep_append (b : Nat) (l1 l2 : List (Option Nat)) (done : Bool) :
    oncePerStep b done (l1 ++ l2) = (oncePerStep b done l1).bind fun d => oncePerStep b d l2 := by
  induction l1 generalizing done with
  | nil => rfl
  | cons x l1 ih =>
    cases x with
    | none =>
      simp only [List.cons_append, oncePerStep]
      split
      · exact ih _
      · rfl
    | some i =>
      simp only [List.cons_append, oncePerStep]
      split
      · split
        · rfl
        · exact ih _
      · exact ih _

/-- **C109** Hence the logs: a story emits logs only at such a date, for one of its members. -/
theorem C109_logs (henv : env.sem = AnyGen.sem env.R) (hR : NoZeroDraw env.R)
    {w w' : World σ (AnyGen σ)} {s0 : Story σ} (hstep : 0 < w.clock.step) (hp : 0 < cfg.steps)
    (hpos : ∀ x ∈ cfg.profile, 0 ≤ x) (hcyc : (cfg.profile.length * cfg.steps) % w.clock.step = 0)
    (htimed : TimedBy env cfg b g w) (hs0 : w.stories[b]? = some s0)
    (hch : ∀ ops ∈ chains, ∀ op ∈ ops, BuiltIn env (· ≠ b) (· ≠ b) op) {evs : List (Int × Event)}
    (h : Played env chains w evs w') {done : Bool}
    (honce : oncePerStep b false (evs.map (·.2.story)) = some done) {d : Int} {logs : Logs}
    (hm : (d, Event.exec b logs) ∈ evs) (hl : logs ≠ []) :
    ∃ id, MayAct cfg s0 w.clock.current w.clock.step id d := by
  obtain ⟨e1, e2, w1, w2, ops, rfl, h1, -, h3, rfl⟩ := played_exec_mem h hm
  rw [List.map_append, oncePerStep_append] at honce
  obtain ⟨x, hx, hx2⟩ := Option.bind_eq_some_iff.1 honce
  have hxf : x = false := by
    simp only [List.map_cons, Event.story, oncePerStep, if_true] at hx2
    cases x with
    | false => rfl
    | true => cases hx2
  subst hxf
  obtain ⟨s, id, hs, ha⟩ := execute_logs_acts h3 hl
  exact ⟨id, C109_active_hours henv hR hstep hp hpos hcyc htimed hs0 hch h1 hx hs ha⟩

theorem oncePerStep_range (b m : Nat) :
    oncePerStep b false ((List.range m).map some) = if b < m then some true else some false := by
  induction m with
  | zero => rfl
  | succ m ih =>
    rw [List.range_succ, List.map_append, oncePerStep_append, ih]
    by_cases h1 : b < m
    · have h2 : b < m + 1 := by omega
      have h3 : m ≠ b := by omega
      simp [h1, h2, h3, oncePerStep]
    · by_cases h2 : m = b
      · subst h2; simp [oncePerStep]
      · have h3 : ¬ b < m + 1 := by omega
        simp [h1, h2, h3, oncePerStep]

/-- a run of a circus executes each story once per step -/
theorem oncePerStep_schedule (start step : Int) (n : Nat) {m : Nat} (hb : b < m) :
    oncePerStep b false ((schedule start step n m).map Prod.snd) = some false := by
  have hblock : ∀ k : Nat, ((((List.range m).map fun i => (start + (k : Int) * step, some i)) ++
      [(start + (k : Int) * step, none)]).map Prod.snd) = (List.range m).map some ++ [none] := by
    intro k
    simp [Function.comp_def]
  rw [schedule]
  induction n with
  | zero => rfl
  | succ n ih =>
    rw [List.range_succ, List.flatMap_append, List.map_append, oncePerStep_append, ih]
    simp only [Option.bind_some, List.flatMap_cons, List.flatMap_nil, List.append_nil]
    rw [hblock, oncePerStep_append, oncePerStep_range, if_pos hb]
    rfl

/-- **C109** In a run of a circus, a story scheduled by a cyclic timer logs only at such dates. -/
theorem C109_run {fmt : Cell → Text} {folder : Path} (so : SetOrder String) (fuel : Nat) (duration : Int)
    (delete : Bool) (s s' : Sys σ (AnyGen σ)) (henv : env.sem = AnyGen.sem env.R) (hR : NoZeroDraw env.R)
    {s0 : Story σ} (hstep : 0 < s.circus.world.clock.step) (hp : 0 < cfg.steps)
    (hpos : ∀ x ∈ cfg.profile, 0 ≤ x)
    (hcyc : (cfg.profile.length * cfg.steps) % s.circus.world.clock.step = 0)
    (htimed : TimedBy env cfg b g s.circus.world) (hs0 : s.circus.world.stories[b]? = some s0)
    (hch : ∀ ops ∈ chains, ∀ op ∈ ops, BuiltIn env (· ≠ b) (· ≠ b) op)
    (h : Sys.run env fmt folder so fuel chains duration delete s = .ok () s') :
    ∃ n events, s.circus.world.clock.nIterations duration = .ok n ∧
      Played env chains s.circus.world events s'.circus.world ∧
      events.map (fun e => (e.1, e.2.story)) =
        schedule s.circus.world.clock.current s.circus.world.clock.step n.toNat chains.length ∧
      ∀ d logs, (d, Event.exec b logs) ∈ events → logs ≠ [] →
        ∃ id, MayAct cfg s0 s.circus.world.clock.current s.circus.world.clock.step id d := by
  obtain ⟨n, hn⟩ := Sys.run_ok_iterations h
  obtain ⟨events, h1, h2, -⟩ := C59_run so fuel duration delete s s' n
    (fun ops hops op hop => C59_builtIn_keepsDate op (hch ops hops op hop)) hn h
  refine ⟨n, events, hn, h1, h2, fun d logs hm hl => ?_⟩
  obtain ⟨-, -, -, -, ops, -, -, hops, -⟩ := played_exec_mem h1 hm
  have hb : b < chains.length := (List.getElem?_eq_some_iff.1 hops).1
  refine C109_logs henv hR hstep hp hpos hcyc htimed hs0 hch h1 (done := false) ?_ hm hl
  have := congrArg (List.map Prod.snd) h2
  rw [List.map_map] at this
  rw [show (fun e : Int × Event => e.2.story) = Prod.snd ∘ fun e : Int × Event => (e.1, e.2.story) from rfl, this]
  exact oncePerStep_schedule _ _ _ hb

/-! ### New stories -/

theorem first_timer {step date : Int} {R : Rng σ} {t : CyclicTimer σ} (hR : NoZeroDraw R)
    (hs : 0 < step) (hp : 0 < cfg.steps) (hw : ∀ x ∈ cfg.profile, 0 ≤ x)
    (hcyc : (cfg.profile.length * cfg.steps) % step = 0) (ht : OnTime R cfg step date t) (obs : List Rat)
    {x : Nat} {a : Rat} {r : Option Rat} (hx : obs[x]? = some a)
    (hr : (t.generate R obs).1[x]? = some r) : FirstTimer cfg step date r := by
  obtain ⟨h1, h2⟩ := Forall₂_get (timer_target hR hs hp hw hcyc ht obs) hx hr
  by_cases ha : 0 < a
  · obtain ⟨n, rfl, hn⟩ := h2 ha
    refine .inr ⟨n, rfl, ?_⟩
    rw [show date + (n : Int) * step + step = date + (n + 1) * step by ring]
    exact hn
  · rw [h1 (not_lt.1 ha)]
    trivial

theorem storyParams_kept {γ : Type} {env : Env σ γ} {G : List γ → Prop} (hI : GenKept env G)
    {ids : List Val} {size : Nat} {states : List (Val × StateGens)}
    {params params' : Dict Val (Dict Val StateParams)} {w w' : World σ γ} (hG : G w.gens)
    (h : storyParams env ids size states params w = .ok params' w') : G w'.gens := by
  induction states generalizing params w with
  | nil =>
    rw [storyParams, Act.pure_eq_ok] at h
    rw [← h.2]; exact hG
  | cons st rest ih =>
    obtain ⟨st, g⟩ := st
    rw [storyParams] at h
    simp only [Act.bind_eq_ok, Act.ofPy_eq_ok] at h
    obtain ⟨c1, w1, h1, c2, w2, h2, a, _, ⟨h3, rfl⟩, b, _, ⟨h4, rfl⟩, ps, _, ⟨h5, rfl⟩, h6⟩ := h
    exact ih (call_gens hI (call_gens hI hG h1) h2) h6

theorem reset_first {step date : Int} (henv : env.sem = AnyGen.sem env.R) (hR : NoZeroDraw env.R)
    (hs : 0 < step) (hp : 0 < cfg.steps) (hpos : ∀ x ∈ cfg.profile, 0 ≤ x)
    (hcyc : (cfg.profile.length * cfg.steps) % step = 0) {s s' : Story σ} {w w' : World σ (AnyGen σ)}
    (hg : s.timerGen = .ref g) (hot : OnTimeAt env.R cfg step date g w.gens)
    (h : resetStory env s none w = .ok s' w') {id : Val} {r : Option Rat} (hf : s.forced = [])
    (hid : timerOf s' id = some r) : FirstTimer cfg step date r := by
  obtain ⟨-, -, -, hids, -, -, hcase⟩ := resetStory_ok h
  have hmf : s.minusForced s.ids = s.ids := by simp [minusForced, hf]
  rw [show (none : Option (List Val)).getD s.ids = s.ids from rfl, hmf] at hcase
  have hmem : id ∈ s.ids := by
    by_contra hn
    rw [timerOf_eq, row?_eq_none.2 (by rw [hids]; exact hn)] at hid
    cases hid
  rcases hcase with ⟨hnil, -⟩ | ⟨ps, cells, ts, -, -, h1, h2, h3, h4, h5, -⟩
  · rw [hnil] at hmem; cases hmem
  rw [hg] at h2
  obtain ⟨a, a', ha', ho, -⟩ := observe_ref.1 h2
  obtain ⟨t, ht1, ht2⟩ := hot
  rw [ht1] at ha'; cases ha'
  rw [henv] at ho
  obtain ⟨acts, g1, rfl, -⟩ := AnyGen.observe_cyclic ho
  obtain ⟨k, p, x, k1, k2, k3, k4⟩ := h5 id hmem
  rw [timerOf_eq, k4] at hid
  obtain ⟨row, hrow, hrow2⟩ := Option.map_eq_some_iff.1 hid
  obtain ⟨row0, -, rfl⟩ := Option.map_eq_some_iff.1 hrow
  subst hrow2
  have hact : acts[k]? = some p.activity := by
    have := congrArg (·[k]?) (mapM_asNum g1)
    simp only [List.getElem?_map, k2, Option.map_some] at this
    obtain ⟨q, hq, hq'⟩ := Option.map_eq_some_iff.1 this.symm
    cases hq'
    rw [hq]
  rw [newTimer]
  split
  · have hm := mapM_ok_iff.1 h3
    have hkl : k < ((t.generate env.R acts).1).length := by
      have h6 := hm.length_eq
      have h7 := (List.getElem?_eq_some_iff.1 k3).1
      rw [List.length_map] at h6
      omega
    have kc := List.getElem?_eq_getElem hkl
    have hk5 := Forall₂_get hm (by rw [List.getElem?_map, kc]; rfl) k3
    have hfirst := first_timer hR hs hp hpos hcyc ht2 acts hact kc
    have hx : x = ((t.generate env.R acts).1)[k] := by
      generalize ((t.generate env.R acts).1)[k] = y at hk5
      rcases asTimer_spec hk5 with ⟨q, hq, rfl⟩ | ⟨hq, rfl⟩ <;> cases y <;> simp_all [AnyGen.timerCell]
    rw [hx]; exact hfirst
  · exact .inl (by norm_num)

/-- **C109** The first timers of the members of a new story: they act first one step before a step with
some weight, or right now in such a step (or one step before the same point of the cycle as now), if they
act at all. The new story meets the hypothesis of `C109_active_hours`. -/
theorem C109_new_story (henv : env.sem = AnyGen.sem env.R) (hR : NoZeroDraw env.R)
    {w w' : World σ (AnyGen σ)} (hstep : 0 < w.clock.step) (hp : 0 < cfg.steps)
    (hpos : ∀ x ∈ cfg.profile, 0 ≤ x) (hcyc : (cfg.profile.length * cfg.steps) % w.clock.step = 0)
    {sc : StoryConfig} (hauto : sc.autoReset = true) (hgen : sc.timerGen = .ref g) {p : Population}
    (hpop : w.pops[sc.population]? = some p) (hn : p.ids.Nodup) {t : CyclicTimer σ}
    (ht : w.gens[g]? = some (.cyclic t)) (hot : OnTime env.R cfg w.clock.step w.clock.current t)
    {n : Nat} (h : createStory env sc w = .ok n w') :
    w'.clock.current = w.clock.current ∧ w'.clock.step = w.clock.step ∧ TimedBy env cfg n g w' ∧
      ∃ s, w'.stories[n]? = some s ∧ s.ids = p.ids ∧
        ∀ id r, timerOf s id = some r → FirstTimer cfg w.clock.step w.clock.current r := by
  obtain ⟨-, p', s, w1, hp', hnew, rfl, rfl⟩ := createStory_ok h
  rw [hpop] at hp'; cases hp'
  obtain ⟨states, s0, w2, -, -, hr1, -, hr2, -, -, -, c1, c2, -, c3, c4, -, hcase⟩ := newStory_ok hnew
  rw [newStory] at hnew
  simp only [Act.bind_eq_ok, Act.ofPy_eq_ok] at hnew
  obtain ⟨states', _, ⟨-, rfl⟩, params, w3, h2, h3⟩ := hnew
  rw [initialReset, if_pos hauto] at h3
  have hG := storyParams_kept (onTimeAt_kept (cfg := cfg) (g := g) henv w.clock.step w.clock.current)
    ⟨t, ht, hot⟩ h2
  have hids : s.ids = p.ids := by
    obtain ⟨-, -, -, e, -⟩ := resetStory_ok h3
    rw [e]
    simp [Story.ids, Function.comp_def]
  have hst : s.autoReset = true ∧ s.timerGen = .ref g := by
    obtain ⟨-, -, e, -⟩ := resetStory_ok h3
    rw [e]
    exact ⟨hauto, hgen⟩
  have hlast : (w1.stories ++ [s])[w1.stories.length]? = some s := by simp
  refine ⟨hr2.date, hr2.step, ?_, s, hlast, hids, fun id r hid => ?_⟩
  · obtain ⟨t', k1, k2⟩ := resetStory_gens (onTimeAt_kept (cfg := cfg) (g := g) henv w.clock.step
      w.clock.current) hG h3
    refine ⟨s, t', hlast, by rw [hids]; exact hn, hst.1, hst.2, k1, ?_⟩
    show OnTime env.R cfg w1.clock.step w1.clock.current t'
    rw [hr2.date, hr2.step]
    exact k2
  · exact reset_first henv hR hstep hp hpos hcyc (s := _) hgen hG h3 rfl hid

/-- **C109** Together: the members of a new story act only within one step of a step with some weight,
before or after (or one step before the point of the cycle where the story was created). -/
theorem C109_near {step now date : Int} {s0 : Story σ} {id : Val}
    (hfirst : ∀ id r, timerOf s0 id = some r → FirstTimer cfg step now r)
    (h : MayAct cfg s0 now step id date) :
    0 < profileWeight cfg (date - step) ∨ 0 < profileWeight cfg date ∨
      0 < profileWeight cfg (date + step) ∨ SamePoint cfg (date + step) now := by
  rcases h with h | ⟨n, h1, h2⟩
  · rcases h with h | h
    · exact .inr (.inl h)
    · exact .inl h
  · rcases hfirst id _ h1 with hneg | ⟨m, hm, hw⟩
    · have : (0 : Rat) ≤ n := by positivity
      exact absurd hneg (not_lt.2 this)
    · have : n = m := by exact_mod_cast hm
      subst this
      have h3 := samePoint_shift step h2
      rcases hw with hw | ⟨rfl, hw⟩ | hw
      · exact .inr (.inr (.inl (by rw [profileWeight_same h3]; exact hw)))
      · refine .inr (.inl ?_)
        rw [profileWeight_same h2]
        simpa using hw
      · exact .inr (.inr (.inr (samePoint_trans h3 hw)))

/-! ### The calendar of the profilers -/

theorem week_index (date : Int) :
    ((date - profilerStart) % (168 * (3600 * nsPerSec)) / (3600 * nsPerSec)) =
      24 * weekday date + hourOf date := by
  simp only [profilerStart, weekday, hourOf, nsPerDay, nsPerSec]
  omega

theorem weekday_range (date : Int) : 0 ≤ weekday date ∧ weekday date < 7 := by
  rw [weekday]; omega

theorem hourOf_range (date : Int) : 0 ≤ hourOf date ∧ hourOf date < 24 := by
  simp only [hourOf, nsPerDay, nsPerSec]; omega

/-- **C69** The profile of the work hours generator gives the weight 1 to the work hours, both included,
from Monday to Friday of every week, and nothing to the other ones. -/
theorem C69_work_hours_calendar {s e : Int} (h : workHoursConfig s e = .ok cfg) (date : Int) :
    profileWeight cfg date =
      if weekday date < 5 ∧ s ≤ hourOf date ∧ hourOf date ≤ e then 1 else 0 := by
  by_cases hse : 0 ≤ s ∧ e < 24 ∧ s ≤ e
  swap
  · rw [workHoursConfig, C69_work_hours_rejected s e (by omega)] at h
    cases h
  obtain ⟨prof, h1, h2, h3⟩ := C69_work_hours s e hse.1 hse.2.1 hse.2.2
  rw [workHoursConfig, h1] at h
  cases h
  have hw := weekday_range date
  have hh := hourOf_range date
  rw [profileWeight]
  simp only [h2]
  have hi := week_index date
  norm_num at hi ⊢
  rw [hi]
  have := h3 (weekday date).toNat (hourOf date).toNat (by omega) (by omega)
  rw [show (24 * weekday date + hourOf date).toNat = (weekday date).toNat * 24 + (hourOf date).toNat by omega,
    this]
  simp only [Option.getD_some, Int.toNat_of_nonneg hh.1]
  have : (weekday date).toNat < 5 ↔ weekday date < 5 := by omega
  simp only [this]

/-- **C69** The other weekly profile gives the weight 5 to the days from Monday to Friday, and 3 to
Saturday and Sunday. -/
theorem C69_week_days_calendar (date : Int) :
    profileWeight highWeekDaysConfig date = if weekday date < 5 then 5 else 3 := by
  have hw := weekday_range date
  have hi : (date - profilerStart) % (7 * nsPerDay) / nsPerDay = weekday date := by
    simp only [profilerStart, weekday, nsPerDay, nsPerSec]
    omega
  rw [profileWeight]
  show highWeekDaysProfile.getD ((date - profilerStart) % (7 * nsPerDay) / nsPerDay).toNat 0 = _
  rw [hi]
  generalize weekday date = d at hw
  obtain ⟨h0, h7⟩ := hw
  interval_cases d <;> rfl

theorem daily_index (date : Int) :
    ((date - profilerStart) % (24 * (3600 * nsPerSec)) / (3600 * nsPerSec)) = hourOf date := by
  simp only [profilerStart, hourOf, nsPerDay, nsPerSec]
  omega

theorem daily_weight (date : Int) : profileWeight defaultDailyConfig date =
    defaultDailyConfig.profile.getD (hourOf date).toNat 0 := by
  rw [profileWeight]
  show defaultDailyConfig.profile.getD ((date - profilerStart) % (24 * (3600 * nsPerSec)) /
    (3600 * nsPerSec)).toNat 0 = _
  rw [daily_index]

/-- **C69** The weights of the daily profile depend on the hour only; they are positive, the smallest
one is the one of 3 o'clock, and the largest one the one of 20 o'clock. -/
theorem C69_daily_calendar (d e : Int) :
    (hourOf d = hourOf e → profileWeight defaultDailyConfig d = profileWeight defaultDailyConfig e) ∧
    0 < profileWeight defaultDailyConfig d ∧
    (hourOf e = 3 → hourOf d ≠ 3 → profileWeight defaultDailyConfig e < profileWeight defaultDailyConfig d) ∧
    (hourOf e = 20 → hourOf d ≠ 20 →
      profileWeight defaultDailyConfig d < profileWeight defaultDailyConfig e) := by
  rw [daily_weight, daily_weight]
  have h := hourOf_range d
  generalize hourOf d = x at h
  generalize hourOf e = y
  refine ⟨fun h => by rw [h], ?_, ?_, ?_⟩
  · obtain ⟨h0, h1⟩ := h
    interval_cases x <;> decide +kernel
  · rintro rfl hx
    obtain ⟨h0, h1⟩ := h
    interval_cases x <;> first | (exact absurd rfl hx) | decide +kernel
  · rintro rfl hx
    obtain ⟨h0, h1⟩ := h
    interval_cases x <;> first | (exact absurd rfl hx) | decide +kernel

/-- **C109** For the work hours generator and a clock of one hour per step: the members of a new story
act only from Monday to Friday, from one hour before the work hours to one hour after (or one hour before
the hour of the week at which the story was created). -/
theorem C109_work_hours {s e : Int} (h : workHoursConfig s e = .ok cfg) {now date : Int} {s0 : Story σ}
    {id : Val} (hs : 1 ≤ s) (he : e ≤ 22)
    (hfirst : ∀ id r, timerOf s0 id = some r → FirstTimer cfg (3600 * nsPerSec) now r)
    (hm : MayAct cfg s0 now (3600 * nsPerSec) id date) :
    (weekday date < 5 ∧ s - 1 ≤ hourOf date ∧ hourOf date ≤ e + 1) ∨
      (weekday (date + 3600 * nsPerSec) = weekday now ∧ hourOf (date + 3600 * nsPerSec) = hourOf now) := by
  have hpos : ∀ d, 0 < profileWeight cfg d → weekday d < 5 ∧ s ≤ hourOf d ∧ hourOf d ≤ e := by
    intro d hd
    rw [C69_work_hours_calendar h] at hd
    split at hd
    · assumption
    · exact absurd hd (lt_irrefl _)
  have hdur : (cfg.profile.length : Int) * cfg.steps = 168 * (3600 * nsPerSec) := by
    by_cases hse : 0 ≤ s ∧ e < 24 ∧ s ≤ e
    · obtain ⟨prof, h1, h2, -⟩ := C69_work_hours s e hse.1 hse.2.1 hse.2.2
      rw [workHoursConfig, h1] at h
      cases h
      simp only [h2]
      rfl
    · rw [workHoursConfig, C69_work_hours_rejected s e (by omega)] at h
      cases h
  rcases C109_near hfirst hm with h1 | h1 | h1 | h1
  · have := hpos _ h1
    refine .inl ?_
    simp only [weekday, hourOf, nsPerDay, nsPerSec] at this ⊢
    omega
  · have := hpos _ h1
    omega
  · have := hpos _ h1
    refine .inl ?_
    simp only [weekday, hourOf, nsPerDay, nsPerSec] at this ⊢
    omega
  · refine .inr ?_
    rw [SamePoint, hdur] at h1
    simp only [weekday, hourOf, nsPerDay, nsPerSec] at h1 ⊢
    omega

/-! ### An example -/

/-- all the draws are 1/100 -/
def hundredth : Rng Nat := { Rng.counter with
  uniform := fun s n => (List.replicate n (1/100), s)
  uniform_length := by simp
  uniform_range := by
    intro s n u hu
    rw [(List.mem_replicate.1 hu).2]
    norm_num
  beta := fun s _ _ => (1/100, s)
  beta_range := by intros; norm_num }

theorem hundredth_noZero : NoZeroDraw hundredth :=
  ⟨fun s n u hu => by
    have : u ∈ List.replicate n (1/100 : Rat) := hu
    rw [(List.mem_replicate.1 this).2]; norm_num, fun _ _ _ => by norm_num [hundredth]⟩

def hoursEnv : Env Nat (AnyGen Nat) :=
  ⟨hundredth, Orders.a, SetOrder.dedup String, AnyGen.sem hundredth⟩

/-- a circus that starts on Monday 6 June 2016, at midnight, with a population and a timer -/
def hoursWorld (t : CyclicTimer Nat) : World Nat (AnyGen Nat) :=
  { exWorld with
    clock := ⟨profilerStart, 3600 * nsPerSec, 0, [.cyclic t]⟩
    stories := [] }

/-- a story scheduled by the timer, with ten actions per week on average -/
def hoursStory : StoryConfig :=
  { name := "visits", population := 0, idField := "ID", activity := .constant (.num 10)
    timerGen := .ref 0 }

/-- the dates at which the story logs something -/
def loggedDates : Nat → World Nat (AnyGen Nat) → List Int
  | 0, _ => []
  | n + 1, w =>
    match execute hoursEnv [Ops.fieldLogger "r" [] []] 0 w with
    | .ok logs w1 =>
      (if logs = [] then [] else [w.clock.current]) ++ loggedDates n (nextStep hoursEnv w1)
    | .error _ _ => []

/-- the work hours from 9 to 17 -/
def nineToFive : TimerProfile :=
  match workHoursConfig 9 17 with
  | .ok cfg => cfg
  | .error _ => highWeekDaysConfig

/-- the two first days of a circus with a story scheduled by the work hours -/
def twoDays : Option (List Int) :=
  match CyclicTimer.new 10 hundredth nineToFive 7 profilerStart (3600 * nsPerSec) with
  | some (some (.ok t)) =>
    ((createStory hoursEnv hoursStory).world? (hoursWorld t)).map fun w => loggedDates 48 w
  | _ => none

/-- **C109** The claim that members act only in steps with some weight is false: with work hours from 9
to 17, they act on Monday at 8 and at 18, and on Tuesday at 18. -/
theorem C109_counterexample :
    twoDays.map (fun l => l.map fun d => (weekday d, hourOf d)) =
      some [(0, 8), (0, 9), (0, 10), (0, 11), (0, 12), (0, 13), (0, 14), (0, 15), (0, 16), (0, 17), (0, 18),
        (1, 9), (1, 10), (1, 11), (1, 12), (1, 13), (1, 14), (1, 15), (1, 16), (1, 17), (1, 18)] ∧
    workHoursConfig 9 17 = .ok nineToFive ∧
    profileWeight nineToFive (profilerStart + 18 * (3600 * nsPerSec)) = 0 ∧
    profileWeight nineToFive (profilerStart + 8 * (3600 * nsPerSec)) = 0 := by
  decide +kernel

/-- a timer was built -/
def built {α β γ : Type} : Option (Option (Except β α)) → (α → γ) → Option γ
  | some (some (.ok t)), f => some (f t)
  | _, _ => none

theorem built_eq {α β γ : Type} {x : Option (Option (Except β α))} {f : α → γ} {c : γ}
    (h : built x f = some c) : ∃ t, x = some (some (.ok t)) ∧ f t = c := by
  unfold built at h
  split at h
  · cases h; exact ⟨_, rfl, rfl⟩
  · cases h

theorem value_eq {W α : Type} {x : Act W α} {w : W} {a : α} (h : x.value? w = some a) :
    ∃ w', x w = .ok a w' := by
  unfold Act.value? at h
  split at h
  · next heq => cases h; exact ⟨_, heq⟩
  · cases h

/-- this circus meets the hypotheses of `C109_new_story`, hence of `C109_active_hours` and of the other
theorems -/
example : ∃ t w, CyclicTimer.new 10 hundredth nineToFive 7 profilerStart (3600 * nsPerSec) = some (some (.ok t)) ∧
    createStory hoursEnv hoursStory (hoursWorld t) = .ok 0 w ∧ TimedBy hoursEnv nineToFive 0 0 w ∧
    ∀ ops ∈ [[Ops.fieldLogger (W := World Nat (AnyGen Nat)) "r" [] []]], ∀ op ∈ ops,
      BuiltIn hoursEnv (· ≠ 0) (· ≠ 0) op := by
  have h : built (CyclicTimer.new 10 hundredth nineToFive 7 profilerStart (3600 * nsPerSec))
      (fun t => (createStory hoursEnv hoursStory).value? (hoursWorld t)) = some (some 0) := by decide +kernel
  obtain ⟨t, ht, h2⟩ := built_eq h
  obtain ⟨w, hw⟩ := value_eq h2
  have h0 : 0 < nineToFive.steps := by decide +kernel
  have h1 : ∀ x ∈ nineToFive.profile, 0 ≤ x := by decide +kernel
  have h2 : ((nineToFive.profile.length * nineToFive.steps : Int)) % (3600 * nsPerSec) = 0 := by decide +kernel
  have h3 : (profilerStart - nineToFive.start) % (3600 * nsPerSec) = 0 := by decide +kernel
  have h4 : (0 : Int) < 3600 * nsPerSec := by decide
  refine ⟨t, w, ht, hw, ?_, ?_⟩
  · generalize nineToFive = cfg at *
    exact (C109_new_story (w := hoursWorld t) (sc := hoursStory) (p := exPop) (t := t) rfl hundredth_noZero h4
      h0 h1 h2 rfl rfl rfl (by decide) rfl ⟨10, 7, profilerStart, t, 0, ht, .start,
        (by simp [hoursWorld]), h3⟩ hw).2.2.1
  · simp only [List.mem_singleton, forall_eq]
    exact .fieldLogger _ _ _

end Trumania
