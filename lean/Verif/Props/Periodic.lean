import Verif.Spec.Periodic
import Verif.Props.Shop
import Verif.Props.Journal
import Verif.Props.StoryStates
import Verif.Proofs.CdrTrigger

/-!
# C124: stories whose timer is a constant act every so many executions
-/

namespace Trumania
open Spec World Story
variable {σ γ : Type} {env : Env σ γ} {w w' : World σ γ} {i c : Nat} {ids : List Val}

theorem Spec.Beats.same {s s' : Story σ} (hs : w.stories[i]? = some s) (hs' : w'.stories[i]? = some s')
    (h : SameStatic s s') (hb : Beats w i c ids) : Beats w' i c ids := by
  obtain ⟨⟨t, h1, h2, h3, h4, h5, h6⟩, hn⟩ := hb
  rw [hs] at h1
  cases h1
  refine ⟨⟨s', hs', h.2.trans h2, ?_, ?_, ?_, ?_⟩, hn⟩
  · rw [h.1]; exact h3
  · rw [h.1]; exact h4
  · rw [h.1]; exact h5
  · rw [h.2]
    intro id hid b p e1 e2
    rw [h.1] at e1
    exact h6 id hid b p e1 e2

/-- who acts while all have the same timer -/
theorem acts_wait (hb : Beats w i c ids) {q : Rat} (hw : AllWait w i q) {s : Story σ} (hs : w.stories[i]? = some s)
    (id : Val) : Acts s id ↔ id ∈ ids ∧ q = 0 := by
  obtain ⟨⟨t, h1, h2, -⟩, hn⟩ := hb
  rw [hs] at h1
  cases h1
  obtain ⟨t, h1, hw⟩ := hw
  rw [hs] at h1
  cases h1
  rw [acts_iff, mem_activeIds (h2 ▸ hn)]
  constructor
  · intro h
    have hid : id ∈ s.ids := by
      by_contra hn
      rw [timerOf_eq, row?_eq_none.2 hn] at h
      cases h
    rw [hw id hid] at h
    exact ⟨h2 ▸ hid, Option.some.inj (Option.some.inj h)⟩
  · rintro ⟨hid, rfl⟩
    exact hw id (h2 ▸ hid)

/-- another story is executed -/
theorem wait_other {ops : List (Op (World σ γ))} {j : Nat} {logs : Logs} (hj : j ≠ i)
    (hops : ∀ op ∈ ops, BuiltIn env (· ≠ i) (· ≠ i) op) (h : execute env ops j w = .ok logs w')
    (hb : Beats w i c ids) {q : Rat} (hw : AllWait w i q) : Beats w' i c ids ∧ AllWait w' i q := by
  obtain ⟨s, hs, hw⟩ := hw
  obtain ⟨t, w1, t1, t', ht, hafter, h2, h3, -, -, -, -, -, -⟩ := execute_ok h
  have hs1 : (started w j t).stories[i]? = some s := by
    show (w.stories.set j _)[i]? = _
    rw [List.getElem?_set_ne hj, hs]
  obtain ⟨s', e1, e2, e3⟩ := apis_story (i := i) (P := fun x => ∀ id, timerOf x id = timerOf s id)
    (fun x y _ hx hstep id => by
      rcases hstep.timer id with ⟨k1, -⟩ | ⟨k, -⟩ | ⟨k, -⟩
      · exact k1.trans (hx id)
      · exact absurd rfl k
      · exact absurd rfl k) GenKept.any
    (afterOps_apis (fun op hop => builtIn_respects (GenKept.any (env := env)) (hops op hop)) ht hafter) trivial hs1
    (fun _ => rfl)
  have hs' : w'.stories[i]? = some s' := by rw [h3, List.getElem?_set_ne hj, e1]
  refine ⟨hb.same hs hs' e2, s', hs', fun id hid => ?_⟩
  rw [e3 id]
  exact hw id (e2.2 ▸ hid)

/-- the story itself is executed -/
theorem wait_self {ops : List (Op (World σ γ))} {logs : Logs}
    (hops : ∀ op ∈ ops, BuiltIn env (· ≠ i) (· ≠ i) op) (h : execute env ops i w = .ok logs w')
    (hb : Beats w i c ids) {q : Rat} (hq : 0 ≤ q) (hw : AllWait w i q) :
    Beats w' i c ids ∧ AllWait w' i (if q = 0 then (c : Rat) else q - 1) := by
  obtain ⟨s, hs, hw⟩ := hw
  obtain ⟨t, w2, s2, s', ht, hafter, h2, h3, -, h5, h6, h7, -, hrows⟩ := execute_ok h
  rw [hs] at ht; cases ht
  have hb0 := hb
  obtain ⟨⟨t, k1, k2, k3, k4, k5, k6⟩, hn⟩ := hb
  rw [hs] at k1; cases k1
  have hapis := afterOps_apis (fun op hop => builtIn_respects (GenKept.any (env := env)) (hops op hop)) hs hafter
  have hstat : SameStatic s s2 ∧ ∀ id, timerOf s2 id = timerOf s id ∧ id ∉ s2.forced := by
    obtain ⟨s3, e1, e2, e3⟩ := apis_story (i := i)
      (P := fun t => ∀ id, timerOf t id = timerOf s id ∧ id ∉ t.forced)
      (fun x y _ hx hstep id => by
        rcases hstep.timer id with ⟨k1, k2⟩ | ⟨k, -⟩ | ⟨k, -⟩
        · exact ⟨k1.trans (hx id).1, fun hc => (hx id).2 (k2.1 hc)⟩
        · exact absurd rfl k
        · exact absurd rfl k) GenKept.any hapis trivial (started_get hs)
        (fun id => ⟨rfl, by simp⟩)
    rw [h2] at e1; cases e1
    refine ⟨⟨?_, e2.2⟩, e3⟩
    rw [e2.1]
  have hstat' : SameStatic s s' := hstat.1.trans ⟨by rw [h5], h6⟩
  have hs' : w'.stories[i]? = some s' := by rw [h3, set_get h2, if_pos rfl]
  refine ⟨hb0.same hs hs' hstat', s', hs', fun id hid => ?_⟩
  have hid' : id ∈ s.ids := hstat'.2 ▸ hid
  obtain ⟨-, -, r3, -, r5⟩ := hrows (k2 ▸ hn)
  have hact := acts_wait hb0 ⟨s, hs, hw⟩ hs id
  by_cases h0 : q = 0
  · rw [if_pos h0]
    have ha : Acts s id := hact.2 ⟨k2 ▸ hid', h0⟩
    have hm : id ∈ s2.minusForced s.activeIds := mem_minusForced.2 ⟨acts_iff.1 ha, (hstat.2 id).2⟩
    have hauto2 : s2.autoReset = true := by rw [hstat.1.1]; exact k4
    have hgen2 : s2.timerGen = .constant (.num c) := by rw [hstat.1.1]; exact k3
    obtain ⟨w3, params, cells, m1, m2, m3, m4⟩ := r5 hauto2 (fun e => by rw [e] at hm; cases hm)
    rw [hgen2] at m2
    obtain ⟨k, hk⟩ := List.mem_iff_getElem?.1 hm
    have hlt := (List.getElem?_eq_some_iff.1 hk).1
    have hp : params[k]? = some (params[k]'(m1.length_eq ▸ hlt)) := List.getElem?_eq_getElem _
    have hc : cells[k]? = some (cells[k]'(m3.symm ▸ hlt)) := List.getElem?_eq_getElem _
    obtain ⟨-, j2⟩ := m4 k id _ _ hk hp hc
    have hv := Cdr.observe_constant m2 _ (List.mem_of_getElem? hc)
    have hpar : paramsOf s2 id = some (params[k]'(m1.length_eq ▸ hlt)) := by
      have := (List.forall₂_iff_get.1 m1).2 k hlt (m1.length_eq ▸ hlt)
      rw [List.get_eq_getElem, List.get_eq_getElem, (List.getElem?_eq_some_iff.1 hk).2] at this
      exact this
    have hne : (params[k]'(m1.length_eq ▸ hlt)).activity ≠ 0 := by
      rw [paramsOf] at hpar
      simp only [Option.bind_eq_bind, Option.bind_eq_some_iff] at hpar
      obtain ⟨b, e1, st, -, e3⟩ := hpar
      rw [if_pos (by rw [hstat.1.1]; exact k5)] at e3
      rw [hstat.1.1] at e1
      exact k6 id hid' b _ e1 e3
    rcases j2 hne with ⟨q', e1, e2⟩ | ⟨e1, e2⟩
    · rw [hv] at e1
      cases e1
      exact e2
    · rw [hv] at e1
      cases e1
  · rw [if_neg h0]
    have ha : ¬ Acts s id := fun ha => h0 (hact.1 ha).2
    have h1 := r3 id hid' ha (hstat.2 id).2
    have h2 := (hstat.2 id).1
    rw [hw id hid', timerOf_eq] at h2
    rw [timerOf_eq, h1]
    cases hr : s2.row? id with
    | none => rw [hr] at h2; cases h2
    | some r =>
      rw [hr] at h2
      have h2 : r.remaining = some q := Option.some.inj h2
      simp [tickedRow, ticked, h2, hq]

/-- all the members, in order, when the timers have run out -/
theorem acting_all (hb : Beats w i c ids) (hw : AllWait w i 0) {s : Story σ} (hs : w.stories[i]? = some s) :
    (actingRows s).map (·.idx) = ids := by
  obtain ⟨⟨t, h1, h2, -⟩, hn⟩ := hb
  rw [hs] at h1
  cases h1
  obtain ⟨t, h1, hw⟩ := hw
  rw [hs] at h1
  cases h1
  have hr : ∀ r ∈ s.timer, r.remaining = some 0 := by
    intro r hr
    have h := hw r.id (List.mem_map_of_mem hr)
    rw [timerOf_eq, row?_of_mem (h2 ▸ hn) hr] at h
    exact Option.some.inj h
  rw [← h2, actingRows, Story.ids]
  have : ∀ l : List TimerRow, (∀ r ∈ l, r.remaining = some 0) →
      ((l.filterMap fun r => if r.remaining = some 0 then some ({ idx := r.id, cells := [.scalar r.id] } : Row)
        else none).map (·.idx)) = l.map (·.id) := by
    intro l
    induction l with
    | nil => simp
    | cons a l ih =>
      intro hl
      rw [List.filterMap_cons, if_pos (hl a (by simp)), List.map_cons, List.map_cons,
        ih fun r hr => hl r (by simp [hr])]
  exact this s.timer hr

variable {chains : List (List (Op (World σ γ)))} {evs : List (Int × Event)}

/-- how many executions are left, after one more -/
theorem left_succ (c j : Nat) : ((c - (j + 1) % (c + 1) : Nat) : Rat) =
    if ((c - j % (c + 1) : Nat) : Rat) = 0 then (c : Rat) else ((c - j % (c + 1) : Nat) : Rat) - 1 := by
  have hlt : j % (c + 1) < c + 1 := Nat.mod_lt j (Nat.succ_pos c)
  have hm : (j + 1) % (c + 1) = if j % (c + 1) = c then 0 else j % (c + 1) + 1 := by
    rw [Nat.add_mod]
    split
    · rename_i h
      rw [h]
      by_cases hc : c = 0
      · subst hc; simp
      · rw [Nat.mod_eq_of_lt (a := 1) (by omega), Nat.mod_self]
    · by_cases hc : c = 0
      · subst hc; omega
      · rw [Nat.mod_eq_of_lt (a := 1) (by omega), Nat.mod_eq_of_lt (by omega)]
  rw [hm]
  by_cases h : j % (c + 1) = c
  · rw [if_pos h, if_pos (by rw [h]; simp)]
    simp
  · have hq : c - j % (c + 1) = (c - (j % (c + 1) + 1)) + 1 := by omega
    rw [if_neg h, hq, if_neg (by push_cast; positivity)]
    push_cast
    ring

theorem left_zero (c j : Nat) : ((c - j % (c + 1) : Nat) : Rat) = 0 ↔ (c + 1) ∣ j + 1 := by
  have hlt : j % (c + 1) < c + 1 := Nat.mod_lt j (Nat.succ_pos c)
  rw [Nat.cast_eq_zero, Nat.dvd_iff_mod_eq_zero]
  constructor
  · intro h
    have : j % (c + 1) = c := by omega
    have e := Nat.div_add_mod j (c + 1)
    rw [this] at e
    rw [← e, show (c + 1) * (j / (c + 1)) + c + 1 = (c + 1) * (j / (c + 1) + 1) by ring]
    exact Nat.mul_mod_right _ _
  · intro h
    have e := Nat.div_add_mod (j + 1) (c + 1)
    rw [h, Nat.add_zero] at e
    have : j % (c + 1) = c := by
      obtain ⟨m, hm⟩ : ∃ m, (j + 1) / (c + 1) = m + 1 := by
        rcases Nat.eq_zero_or_pos ((j + 1) / (c + 1)) with h0 | h0
        · rw [h0] at e; omega
        · exact ⟨_, (Nat.succ_pred_eq_of_pos h0).symm⟩
      rw [hm] at e
      have : j = c + (c + 1) * m := by
        have : (c + 1) * (m + 1) = c + (c + 1) * m + 1 := by ring
        omega
      rw [this, Nat.add_mul_mod_self_left]
      exact Nat.mod_eq_of_lt (by omega)
    omega

theorem execDates_self (d : Int) (logs : Logs) (l : List (Int × Event)) :
    execDates i ((d, .exec i logs) :: l) = d :: execDates i l := by
  simp [execDates, Event.story]

theorem execDates_other {j : Nat} (hj : j ≠ i) (d : Int) (logs : Logs) (l : List (Int × Event)) :
    execDates i ((d, .exec j logs) :: l) = execDates i l := by
  simp [execDates, Event.story, hj]

theorem execDates_tick (d : Int) (l : List (Int × Event)) : execDates i ((d, .tick) :: l) = execDates i l := by
  simp [execDates, Event.story]

/-- through a run that begins after `j` executions -/
theorem wait_run (hops : ∀ ops ∈ chains, ∀ op ∈ ops, BuiltIn env (· ≠ i) (· ≠ i) op) (j : Nat)
    (h : Played env chains w evs w') (hb : Beats w i c ids) (hw : AllWait w i ((c - j % (c + 1) : Nat) : Rat)) :
    Beats w' i c ids ∧ AllWait w' i ((c - (j + (execDates i evs).length) % (c + 1) : Nat) : Rat) := by
  induction h generalizing j with
  | nil w => exact ⟨hb, hw⟩
  | @exec w w1 w' l i' ops logs hi hx rest ih =>
    have hmem := hops ops (List.mem_of_getElem? hi)
    by_cases hj : i' = i
    · subst hj
      obtain ⟨g1, g2⟩ := wait_self hmem hx hb (Nat.cast_nonneg _) hw
      rw [← left_succ] at g2
      have := ih (j + 1) g1 g2
      rwa [execDates_self, List.length_cons, show j + ((execDates i' l).length + 1) =
        j + 1 + (execDates i' l).length by omega]
    · obtain ⟨g1, g2⟩ := wait_other hj hmem hx hb hw
      rw [execDates_other hj]
      exact ih j g1 g2
  | tick rest ih =>
    rw [execDates_tick]
    exact ih j ⟨hb.story, hb.nodup⟩ hw

/-- **C124** A story whose timer generator is the constant `c`, whose members all have this timer in the beginning, and
whose timers no operation forces or resets: in its `k`-th execution all of its members act if `k` is a multiple of
`c + 1`, and nobody otherwise. -/
theorem C124_acts {e1 e2 : List (Int × Event)} {d : Int} {logs : Logs}
    (hops : ∀ ops ∈ chains, ∀ op ∈ ops, BuiltIn env (· ≠ i) (· ≠ i) op) (hb : Beats w i c ids) (hw : AllWait w i c)
    (h : Played env chains w (e1 ++ (d, .exec i logs) :: e2) w') :
    ∃ u u' s ops, Played env chains w e1 u ∧ chains[i]? = some ops ∧ execute env ops i u = .ok logs u' ∧
      Played env chains u' e2 w' ∧ u.stories[i]? = some s ∧
      ∀ id, Acts s id ↔ id ∈ ids ∧ (c + 1) ∣ (execDates i e1).length + 1 := by
  obtain ⟨u, u', ops, k1, k2, k3, k4, k5⟩ := Shop.played_at h rfl
  obtain ⟨g1, g2⟩ := wait_run hops 0 k1 hb (by simpa using hw)
  rw [Nat.zero_add] at g2
  have g3 := g2
  obtain ⟨s, hs, -⟩ := g3
  refine ⟨u, u', s, ops, k1, k2, k3, k4, hs, fun id => ?_⟩
  rw [acts_wait g1 g2 hs, left_zero]

variable {key time logId : String} {cols : List String} {fmt : Int → Cell}

theorem whoWhen_append (l m : Logs) :
    whoWhen logId key time (l ++ m) = whoWhen logId key time l ++ whoWhen logId key time m := by
  rw [whoWhen, Shop.tablesOf_append, List.flatMap_append]
  rfl

/-- **C124** If moreover its members are dated with the date of the clock and then logged, all of them, and nobody else
logs there: the log tells of all the members, in their order, at the date of each `c + 1`-th execution of the story, and
of nothing else. -/
theorem C124_log (hi : ∀ ops, chains[i]? = some ops → Journals env (· ≠ i) (· ≠ i) key time logId cols false fmt True ops)
    (hother : ∀ (j : Nat) ops, j ≠ i → chains[j]? = some ops → Silent env (· ≠ i) (· ≠ i) logId ops)
    (hkey : key ∈ cols) (hf : ∀ s, w.stories[i]? = some s → s.idField = key) (hstep : 0 ≤ w.clock.step)
    (hb : Beats w i c ids) (hw : AllWait w i c) (h : Played env chains w evs w') :
    whoWhen logId key time (emitted evs) =
      (every (c + 1) (execDates i evs)).flatMap fun d => ids.map fun id => (.scalar id, fmt d) := by
  have hbi : ∀ (j : Nat) ops, chains[j]? = some ops → ∀ op ∈ ops, BuiltIn env (· ≠ i) (· ≠ i) op := by
    intro j ops hj op hop
    by_cases e : j = i
    · subst e
      exact journals_builtIn (.inl (hi ops hj)) op hop
    · exact journals_builtIn (idField := key) (time := time) (cols := cols) (random := false) (fmt := fmt) (keep := True)
        (.inr (hother j ops e hj)) op hop
  suffices H : ∀ j, AllWait w i ((c - j % (c + 1) : Nat) : Rat) → whoWhen logId key time (emitted evs) =
      (everyFrom (c + 1) j (execDates i evs)).flatMap fun d => ids.map fun id => (.scalar id, fmt d) from
    H 0 (by simpa using hw)
  clear hw
  intro j hw
  induction h generalizing j with
  | nil w => rfl
  | @exec w w1 w' l i' ops logs hi' hx rest ih =>
    have hmem := hbi i' ops hi'
    have hsame := execute_sameStories hmem hx
    have hd := execute_date (env := env) (fun op hop => builtIn_date (hmem op hop)) i' w
    rw [Act.after_ok hx] at hd
    have hf1 : ∀ s, w1.stories[i]? = some s → s.idField = key := by
      intro s hs
      have hsame : List.Forall₂ World.SameStatic w.stories w1.stories := hsame
      obtain ⟨hlt, he⟩ := List.getElem?_eq_some_iff.1 hs
      have h2 := (List.forall₂_iff_get.1 hsame).2 i (hsame.length_eq ▸ hlt) hlt
      rw [List.get_eq_getElem, List.get_eq_getElem, he] at h2
      rw [h2.1]
      exact hf (w.stories[i]'(hsame.length_eq ▸ hlt)) (List.getElem?_eq_getElem _)
    have hstep1 : 0 ≤ w1.clock.step := by
      have : w1.clock.step = w.clock.step := congrArg Prod.snd hd
      rw [this]
      exact hstep
    rw [show emitted ((w.clock.current, Event.exec i' logs) :: l) = logs ++ emitted l from rfl, whoWhen_append]
    by_cases hj : i' = i
    · subst hj
      obtain ⟨g1, g2⟩ := wait_self hmem hx hb (Nat.cast_nonneg _) hw
      rw [← left_succ] at g2
      rw [ih hf1 hstep1 g1 (j + 1) g2, execDates_self, everyFrom]
      obtain ⟨s, hs, -⟩ := id hw
      have hn : (s.timer.map (·.id)).Nodup := by
        obtain ⟨⟨t, e1, e2, -⟩, e3⟩ := hb
        rw [hs] at e1
        cases e1
        rw [← e2] at e3
        exact e3
      obtain ⟨k1, k2⟩ := C96_execution (hi ops hi') hs (hf s hs) hn hstep hx
      have hact := acts_wait hb hw hs
      by_cases hdvd : c + 1 ∣ j + 1
      · rw [if_pos hdvd, List.flatMap_cons]
        congr 1
        rw [(left_zero c j).2 hdvd] at hw hact
        by_cases hne : ids = []
        · have : tablesOf logId logs = [] := k1 fun id ha => by
            have := (hact id).1 ha
            rw [hne] at this
            exact absurd this.1 (by simp)
          rw [whoWhen, this, hne]
          rfl
        · obtain ⟨id0, h0⟩ := List.exists_mem_of_ne_nil _ hne
          obtain ⟨t, t1, t2, -, t4, t5⟩ := k2 ⟨id0, (hact id0).2 ⟨h0, rfl⟩⟩
          rw [whoWhen, t1, List.flatMap_singleton, ← acting_all hb hw hs, ← t5 trivial, Frame.index, List.map_map]
          refine List.map_congr_left fun r hr => ?_
          obtain ⟨-, q2, d, q3, q4⟩ := t4 r hr
          rw [InStep, if_neg (by simp)] at q3
          rw [q2 hkey, q4, q3]
          rfl
      · rw [if_neg hdvd]
        have : tablesOf logId logs = [] := k1 fun id ha => hdvd ((left_zero c j).1 ((hact id).1 ha).2)
        rw [whoWhen, this]
        rfl
    · obtain ⟨g1, g2⟩ := wait_other hj hmem hx hb hw
      rw [ih hf1 hstep1 g1 j g2, execDates_other hj, whoWhen, silent_exec (hother i' ops hj hi') hx]
      rfl
  | tick rest ih =>
    rw [execDates_tick]
    exact ih hf hstep ⟨hb.story, hb.nodup⟩ j hw

theorem draws_constant {size : Nat} {order : List (Val × StateGens)} {drawn : List (Val × List Rat × List Rat)} {a : Rat}
    (h : StateDraws env size w order drawn w') (ho : ∀ x ∈ order, x.2.activity = .constant (.num a)) :
    ∀ y ∈ drawn, ∀ v ∈ y.2.1, v = a := by
  induction h with
  | nil => simp
  | @cons w w1 w2 w3 st g acts backs order drawn h1 h2 rest ih =>
    intro y hy v hv
    rcases List.mem_cons.1 hy with rfl | hy
    · rw [ho (st, g) (by simp), World.generate, World.call] at h1
      obtain ⟨h3, -⟩ := Act.pure_eq_ok.1 h1
      have hm : Cell.scalar (.num v) ∈ acts.map fun q => Cell.scalar (.num q) := List.mem_map_of_mem hv
      rw [← h3] at hm
      have := List.eq_of_mem_replicate hm
      cases this
      rfl
    · exact ih (fun x hx => ho x (by simp [hx])) y hy v hv

/-- **C124** A story that is created with a whole constant as timer, an activity that is a constant other than 0 and no
other states is such a story, and all of its members wait for this number of executions. -/
theorem C124_created {cfg : StoryConfig} {n : Nat} {p : Population} {a : Rat} (h : createStory env cfg w = .ok n w')
    (hp : w.pops[cfg.population]? = some p) (hids : p.ids.Nodup) (hst : cfg.states = none)
    (hauto : cfg.autoReset = true) (ht : cfg.timerGen = .constant (.num c)) (ha : cfg.activity = .constant (.num a))
    (h0 : a ≠ 0) : n = w.stories.length ∧ Beats w' n c p.ids ∧ AllWait w' n c := by
  obtain ⟨s, order, drawn, w1, d1, d2, d3, d4, d5, d6⟩ := C90_parameters_of_a_new_story env cfg w w' n p hp hids h
  obtain ⟨-, p', s', w2, hp', hnew, rfl, rfl⟩ := createStory_ok h
  rw [hp] at hp'
  cases hp'
  have hs : s' = s := by simpa using d1
  subst hs
  obtain ⟨states, s0, w3, hm, -, -, e0, -, -, -, -, c1, c2, c3, c4, c5, -, hcase⟩ := newStory_ok hnew
  rw [hst, merge_2_dicts] at hm
  cases hm
  rcases hcase with ⟨hc, -⟩ | ⟨-, hreset⟩
  · rw [hauto] at hc; cases hc
  obtain ⟨-, -, r3, r4, r5, r6, r7⟩ := resetStory_ok hreset
  have hids0 : s0.ids = p.ids := by simp [Story.ids, c5, Function.comp_def]
  have hpar : ∀ id ∈ p.ids, ∀ b q, s'.params.get? id = some b → b.get? (.str "default") = some q → q.activity ≠ 0 := by
    intro id hid b q hb hq
    obtain ⟨k, hk⟩ := List.mem_iff_getElem?.1 hid
    have hord : (Val.str "default", (⟨cfg.activity, .constant (.num 1)⟩ : StateGens)) ∈ order := (d3 _ _).2 (.inl ⟨rfl, rfl⟩)
    have hmem : Val.str "default" ∈ drawn.map Prod.fst := by
      rw [d5]
      exact List.mem_map_of_mem hord
    obtain ⟨⟨st, acts, backs⟩, hd, rfl⟩ := List.mem_map.1 hmem
    have hall := draws_constant d4 (a := a) (fun x hx => by
      obtain ⟨st, g⟩ := x
      rcases (d3 st g).1 hx with ⟨-, rfl⟩ | hx
      · exact ha
      · rw [hst] at hx
        cases hx) _ hd
    obtain ⟨l1, l2, l3⟩ := d6 _ _ _ hd
    have hlt := (List.getElem?_eq_some_iff.1 hk).1
    obtain ⟨b', e1, e2⟩ := l3 k id _ _ hk (List.getElem?_eq_getElem (by rw [l1]; exact hlt))
      (List.getElem?_eq_getElem (by rw [l2]; exact hlt))
    rw [hb] at e1
    cases e1
    rw [hq] at e2
    cases e2
    show acts[k]'_ ≠ 0
    rw [hall _ (List.getElem_mem _)]
    exact h0
  refine ⟨by rw [e0], ⟨⟨s', by simp, r4.trans hids0, ?_, ?_, ?_, ?_⟩, hids⟩, s', by simp, ?_⟩
  · rw [r3]; exact c1.trans ht
  · rw [r3]; exact c2.trans hauto
  · rw [r3]
    show s0.states.length = 1
    rw [c3]
    rfl
  · rw [r4, hids0]
    exact hpar
  · intro id hid
    rw [r4, hids0] at hid
    have hmf : s0.minusForced s0.ids = p.ids := by simp [Story.minusForced, c4, hids0]
    rw [show (none : Option (List Val)).getD s0.ids = s0.ids from rfl, hmf] at r7
    rcases r7 with ⟨hnil, -⟩ | ⟨ps, cells, ts, -, -, k1, k2, k3, k4, k5, -⟩
    · rw [hnil] at hid; cases hid
    obtain ⟨k, q, x, i1, i2, i3, i4⟩ := k5 id hid
    have hq : paramsOf s0 id = some q := by
      obtain ⟨_, hx, hy⟩ := Cdr.forall₂_at' k1 i2
      rw [i1] at hx
      cases hx
      exact hy
    have hne : q.activity ≠ 0 := by
      rw [paramsOf] at hq
      simp only [Option.bind_eq_bind, Option.bind_eq_some_iff] at hq
      obtain ⟨b, e1, st, -, e3⟩ := hq
      rw [if_pos (by rw [c3]; rfl)] at e3
      refine hpar id hid b q ?_ e3
      rw [r3]
      exact e1
    rw [c1, ht] at k2
    rw [mapM_ok_iff] at k3
    obtain ⟨v, hv, hvx⟩ := Cdr.forall₂_at' k3 i3
    rw [Cdr.observe_constant k2 v (List.mem_of_getElem? hv)] at hvx
    cases hvx
    rw [timerOf_eq, i4, initial_row hid s0 c5]
    simp [newTimer, hne]

end Trumania
