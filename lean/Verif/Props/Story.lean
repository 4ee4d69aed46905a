import Verif.Proofs.Api
import Verif.Spec.ExampleWorld
import Mathlib.Tactic.Linarith

/-!
# Properties C30-C36 (execution of a story)
-/

namespace Trumania
open Spec Story World
variable {σ γ : Type}

/-! ### C30 -/

/-- **C30** `execute` runs the chain exactly once, on the frame holding one row per member of timer
0 (and continues in a way that does not depend on the chain); if there is none, the chain is not run
at all and there is no log. The rows are labelled by the ids of the members of timer 0, in the order
of the members. -/
theorem C30_exactly_timer_zero_acts (env : Env σ γ) (i : Nat) (w : World σ γ) (s : Story σ)
    (hs : w.stories[i]? = some s) :
    (actingRows s = [] → ∀ ops ops', execute env ops i w = execute env ops' i w ∧
      ∀ logs w', execute env ops i w = .ok logs w' → logs = []) ∧
    (actingRows s ≠ [] → ∃ fin : Act (World σ γ) Unit, ∀ ops, execute env ops i w =
      (do let out ← chain env.logSet ops ⟨[s.idField], actingRows s⟩
          fin
          pure out.2 : Act (World σ γ) Logs) (started w i s)) ∧
    (s.ids.Nodup → (actingRows s).map (·.idx) =
        s.ids.filter (fun id => decide (timerOf s id = some (some 0))) ∧
      (∀ r ∈ actingRows s, r.cells = [.scalar r.idx])) := by
  have hstart : onStory i (fun s => .ok s.clearForced) w = .ok () (started w i s) :=
    onStory_eq_ok.2 ⟨s, s.clearForced, hs, rfl, rfl⟩
  have hget : getStory i (started w i s) = .ok s.clearForced (started w i s) :=
    getStory_eq_ok.2 ⟨started_get hs, rfl⟩
  have hex : ∀ ops, execute env ops i w =
      (do let logs ← runActive env ops i s.clearForced s.activeIds
          onStory i fun t => t.timerTick s.inactiveIds
          pure logs : Act (World σ γ) Logs) (started w i s) := by
    intro ops
    rw [execute, Act.bind_ok hstart, Act.bind_ok hget]
    rfl
  refine ⟨fun ha ops ops' => ?_, fun ha => ?_, fun hnd => ⟨?_, ?_⟩⟩
  · have ha := actingRows_eq_nil.1 ha
    constructor
    · rw [hex, hex, runActive, if_pos ha, runActive, if_pos ha]
    · intro logs w' h
      rw [hex, runActive, if_pos ha] at h
      simp only [Act.bind_eq_ok, Act.pure_eq_ok] at h
      obtain ⟨_, _, ⟨rfl, -⟩, _, _, _, rfl, -⟩ := h
      rfl
  · have ha : s.activeIds ≠ [] := fun h => ha (actingRows_eq_nil.2 h)
    refine ⟨do reschedule env i s.activeIds; onStory i fun t => t.timerTick s.inactiveIds,
      fun ops => ?_⟩
    rw [hex, runActive, if_neg ha]
    rw [show Story.initStoryData s.clearForced.idField s.activeIds =
      ⟨[s.idField], actingRows s⟩ from initStoryData_eq s]
    simp only [bind_assoc, pure_bind]
  · have : ∀ l : List TimerRow, (l.map (·.id)).Nodup → (∀ r ∈ l, s.row? r.id = some r) →
        (l.filterMap fun r => if r.remaining = some 0 then
          some (Row.mk r.id [.scalar r.id]) else none).map (·.idx) =
        (l.map (·.id)).filter (fun id => decide (timerOf s id = some (some 0))) := by
      intro l
      induction l with
      | nil => simp
      | cons a l ih =>
        intro hnd hl
        have hrow := hl a (by simp)
        rw [List.filterMap_cons, List.map_cons, List.filter_cons, timerOf_eq, hrow]
        have ih := ih (List.nodup_cons.1 hnd).2 fun r hr => hl r (by simp [hr])
        by_cases h0 : a.remaining = some 0
        · simp [h0, ih]
        · simp [h0, ih]
    exact this s.timer hnd fun r hr => row?_of_mem hnd hr
  · intro r hr
    rw [actingRows_eq] at hr
    obtain ⟨a, -, rfl⟩ := List.mem_map.1 hr
    rfl

example : ((execute exEnv [Ops.fieldLogger "calls" [] []] 0).value? exWorld) =
    some [("calls", ⟨["CALLER"], [⟨.str "a", [.str "a"]⟩]⟩)] := by decide +kernel

example : ((execute exEnv [Ops.fieldLogger "calls" [] []] 1).value? exWorld) = some [] := by
  decide +kernel

/-! ### C31 -/

/-- **C31** A member that did not act and was not forced has, after `execute`, the timer it had after
the operations, decreased by exactly 1 if it was `>= 0`, unchanged if it was negative or undefined.
The operations are arbitrary. -/
theorem C31_waiting_members_tick (env : Env σ γ) (ops : List (Op (World σ γ))) (i : Nat)
    (w w' : World σ γ) (logs : Logs) (h : execute env ops i w = .ok logs w') (s : Story σ)
    (hs : w.stories[i]? = some s) (hnd : s.ids.Nodup) :
    ∃ w1 s1 s', AfterOps env ops i w logs w1 ∧ w1.stories[i]? = some s1 ∧
      w'.stories[i]? = some s' ∧ ∀ id ∈ s.ids, ¬Acts s id → id ∉ s1.forced →
        (∀ q, 0 ≤ q → timerOf s1 id = some (some q) → timerOf s' id = some (some (q - 1))) ∧
        (∀ q, q < 0 → timerOf s1 id = some (some q) → timerOf s' id = some (some q)) ∧
        (timerOf s1 id = some none → timerOf s' id = some none) := by
  obtain ⟨_, w1, s1, s', hs', h1, h2, h3, -, -, -, -, -, hrows⟩ := execute_ok h
  rw [hs] at hs'; cases hs'
  obtain ⟨-, hmem, htick, -, -⟩ := hrows hnd
  refine ⟨w1, s1, s', h1, h2, by rw [h3, set_get h2, if_pos rfl], fun id hid ha hf => ?_⟩
  have := htick id hid ha hf
  obtain ⟨r, hr⟩ := exists_row? (hmem id hid hf)
  simp only [timerOf_eq, this, hr, Option.map_some, tickedRow, Option.some.injEq]
  refine ⟨fun q hq h => ?_, fun q hq h => ?_, fun h => ?_⟩
  · simp [h, ticked, hq]
  · simp [h, ticked, not_le.2 hq]
  · simp [h, ticked]

/-- **C31** When the operations act on stories through their methods only and neither force nor reset
the member, its timer after `execute` is the one before, decreased by 1 if it was `>= 0`. -/
theorem C31_waiting_members_tick_calls (env : Env σ γ) (F Z : Nat → Val → Prop)
    (ops : List (Op (World σ γ))) (hops : ∀ op ∈ ops, Respects env F Z anyGens op) (i : Nat)
    (w w' : World σ γ) (logs : Logs) (h : execute env ops i w = .ok logs w') (s : Story σ)
    (hs : w.stories[i]? = some s) (hnd : s.ids.Nodup) (id : Val) (hid : id ∈ s.ids)
    (ha : ¬Acts s id) (hF : ¬F i id) (hZ : ¬Z i id) :
    ∃ s', w'.stories[i]? = some s' ∧
        (∀ q, 0 ≤ q → timerOf s id = some (some q) → timerOf s' id = some (some (q - 1))) ∧
        (∀ q, q < 0 → timerOf s id = some (some q) → timerOf s' id = some (some q)) ∧
        (timerOf s id = some none → timerOf s' id = some none) := by
  obtain ⟨w1, s1, s', h1, h2, h3, hall⟩ := C31_waiting_members_tick env ops i w w' logs h s hs hnd
  obtain ⟨s1', h4, -, ht, hf⟩ := apis_story (i := i)
    (P := fun t => timerOf t id = timerOf s id ∧ id ∉ t.forced) (fun a b _ hab hstep => by
      rcases hstep.timer id with ⟨e1, e2⟩ | ⟨e, -⟩ | ⟨e, -⟩
      · exact ⟨e1.trans hab.1, fun hb => hab.2 (e2.1 hb)⟩
      · exact absurd e hF
      · exact absurd e hZ) GenKept.any (afterOps_apis hops hs h1) trivial (started_get hs) ⟨rfl, by simp⟩
  rw [h2] at h4; cases h4
  have := hall id hid ha hf
  rw [ht] at this
  exact ⟨s', h3, this⟩

example : ((execute exEnv [] 0).world? exWorld).map World.timers =
    some [[some 3, some 1, some (-1)], [some (-1), some (-1), some (-1)]] := by decide +kernel

example : exStory.ids.Nodup ∧ ¬Acts exStory (.str "b") ∧ (.str "b") ∈ exStory.ids := by
  refine ⟨by decide, ?_, by decide⟩
  rw [acts_iff]
  decide +kernel

/-! ### C34 -/

/-- **C34** With auto-reset, the timer of every member that acted, except those forced again
meanwhile, comes from one call of the timer generator on their activities in the state they are in
after the operations; it is -1 for activity 0. This holds for all operations, and does not depend on
the rows they dropped: the rescheduled members are those acting at the start. -/
theorem C34_auto_reset_reschedules (env : Env σ γ) (ops : List (Op (World σ γ))) (i : Nat)
    (w w' : World σ γ) (logs : Logs) (h : execute env ops i w = .ok logs w') (s : Story σ)
    (hs : w.stories[i]? = some s) (hnd : s.ids.Nodup) :
    ∃ w1 s1 s', AfterOps env ops i w logs w1 ∧ w1.stories[i]? = some s1 ∧
      w'.stories[i]? = some s' ∧ (s1.autoReset = true →
        ∃ l, l.Nodup ∧ (∀ id, id ∈ l ↔ Acts s id ∧ id ∉ s1.forced) ∧
          (l ≠ [] → ∃ w2, Rescheduled env w1 s1 l (timerOf s') w2)) := by
  obtain ⟨_, w1, s1, s', hs', h1, h2, h3, -, -, -, -, -, hrows⟩ := execute_ok h
  rw [hs] at hs'; cases hs'
  obtain ⟨-, -, -, -, hre⟩ := hrows hnd
  refine ⟨w1, s1, s', h1, h2, by rw [h3, set_get h2, if_pos rfl], fun hauto =>
    ⟨s1.minusForced s.activeIds, minusForced_nodup (activeIds_nodup hnd), fun id => ?_,
      hre hauto⟩⟩
  rw [mem_minusForced, acts_iff]

/-- dropping the row of the acting member, it is rescheduled all the same -/
example : ((execute exEnv [fun d w => .ok (⟨d.cols, []⟩, []) w] 0).world? exWorld).map
      World.timers =
    some [[some 3, some 1, some (-1)], [some (-1), some (-1), some (-1)]] := by decide +kernel

/-! ### C33 -/

/-- **C33** A forced execution consumes the flag: after the execution in which a member acted, unless
the operations forced it again, it is not marked as forced; with auto-reset its timer is freshly
generated (or -1 for activity 0); without, its timer is -1 if the operations left it alone. -/
theorem C33_forcing_is_one_shot (env : Env σ γ) (ops : List (Op (World σ γ))) (i : Nat)
    (w w' : World σ γ) (logs : Logs) (h : execute env ops i w = .ok logs w') (s : Story σ)
    (hs : w.stories[i]? = some s) (hnd : s.ids.Nodup) :
    ∃ w1 s1 s', AfterOps env ops i w logs w1 ∧ w1.stories[i]? = some s1 ∧
      w'.stories[i]? = some s' ∧ ∀ id, Acts s id → id ∉ s1.forced → id ∉ s'.forced ∧
        (s1.autoReset = true → ∃ l w2, id ∈ l ∧ (∀ x ∈ l, x ∉ s1.forced) ∧
          Rescheduled env w1 s1 l (timerOf s') w2) ∧
        (s1.autoReset = false → timerOf s1 id = timerOf s id →
          timerOf s' id = some (some (-1))) := by
  obtain ⟨_, w1, s1, s', hs', h1, h2, h3, -, h5, -, -, -, hrows⟩ := execute_ok h
  rw [hs] at hs'; cases hs'
  obtain ⟨-, -, -, htick, hre⟩ := hrows hnd
  have hf : s'.forced = s1.forced := by rw [h5]
  refine ⟨w1, s1, s', h1, h2, by rw [h3, set_get h2, if_pos rfl], fun id ha hid =>
    ⟨hf ▸ hid, fun hauto => ?_, fun hauto ht => ?_⟩⟩
  · have hm : id ∈ s1.minusForced s.activeIds := mem_minusForced.2 ⟨acts_iff.1 ha, hid⟩
    obtain ⟨w2, hw⟩ := hre hauto (List.ne_nil_of_mem hm)
    exact ⟨_, w2, hm, fun x hx => (mem_minusForced.1 hx).2, hw⟩
  · rw [acts_iff, mem_activeIds hnd] at ha
    rw [ha, timerOf_eq] at ht
    obtain ⟨r, hr, h0⟩ := Option.map_eq_some_iff.1 ht
    rw [timerOf_eq, htick id (acts_iff.2 ((mem_activeIds hnd).2 ha)) hid hauto, hr]
    simp [tickedRow, ticked, h0]

/-- "b" is forced in the second story, acts in it once, and is then inactive again -/
example : ((do
      onStory 1 fun s => s.forceActNext [.str "b"]
      let l1 ← execute exEnv [Ops.fieldLogger "r" [] []] 1
      let l2 ← execute exEnv [Ops.fieldLogger "r" [] []] 1
      pure (l1, l2) : Act _ _).value? exWorld) =
    some ([("r", ⟨["PAYER"], [⟨.str "b", [.str "b"]⟩]⟩)], []) := by decide +kernel

/-! ### C36 -/

/-- the timer of a member after `k <= n` unattended executions -/
theorem unattended_timer {env : Env σ γ} {i : Nat} {id : Val} {w w' : World σ γ} {k : Nat}
    (h : Unattended env i id w k w') {s : Story σ} (hs : w.stories[i]? = some s)
    (hnd : s.ids.Nodup) {q : Rat} (hq : timerOf s id = some (some q)) :
    ∃ s', w'.stories[i]? = some s' ∧ s'.ids = s.ids ∧
      ((k : Rat) ≤ q → timerOf s' id = some (some (q - k))) ∧
      (q < 0 → timerOf s' id = some (some q)) := by
  have hid : id ∈ s.ids := by
    by_contra hn
    rw [timerOf_eq, row?_eq_none.2 hn] at hq
    cases hq
  induction h with
  | refl => exact ⟨s, hs, rfl, fun _ => by simp [hq], fun _ => hq⟩
  | other _ h1 h2 hids ht ih =>
    obtain ⟨s1, i1, i2, i3, i4⟩ := ih
    rw [h1] at i1; cases i1
    exact ⟨_, h2, hids.trans i2, fun hk => ht.trans (i3 hk), fun hk => ht.trans (i4 hk)⟩
  | @exec w1 wo w2 k s1 so ops logs _ hex h1 hafter ho hids ht hf ih =>
    obtain ⟨s1', i1, i2, i3, i4⟩ := ih
    rw [h1] at i1; cases i1
    obtain ⟨w3, s3, s4, e1, e2, e3, e4⟩ :=
      C31_waiting_members_tick env ops i w1 w2 logs hex s1 h1 (i2 ▸ hnd)
    obtain ⟨_, rfl⟩ := afterOps_unique e1 hafter
    rw [ho] at e2; cases e2
    have hids' : s4.ids = s.ids := by
      obtain ⟨_, w5, s5, s6, -, f1, f2, f3, -, -, f4, -⟩ := execute_ok hex
      obtain ⟨_, rfl⟩ := afterOps_unique f1 hafter
      rw [ho] at f2; cases f2
      rw [f3, set_get ho, if_pos rfl] at e3; cases e3
      rw [f4, hids, i2]
    refine ⟨s4, e3, hids', fun hk => ?_, fun hk => ?_⟩
    · push_cast at hk
      have hk' : (k : Rat) ≤ q := by linarith
      have hna : ¬Acts s1 id := by
        rw [acts_iff, mem_activeIds (i2 ▸ hnd), i3 hk']
        simp only [Option.some.injEq]
        intro h0
        linarith
      have := (e4 id (i2 ▸ hid) hna hf).1 (q - k) (by linarith) (ht.trans (i3 hk'))
      rw [this]
      push_cast
      congr 2
      linarith
    · have hna : ¬Acts s1 id := by
        rw [acts_iff, mem_activeIds (i2 ▸ hnd), i4 hk]
        simp only [Option.some.injEq]
        intro h0
        linarith
      exact (e4 id (i2 ▸ hid) hna hf).2.1 q hk (ht.trans (i4 hk))

/-- **C36** A member whose timer is the whole number `n`, and whose timer nobody touches, does not act
in the `n` next executions of its story, and acts in the following one. The operations are
arbitrary, as are the changes of the world in between. -/
theorem C36_timer_counts_executions (env : Env σ γ) (i : Nat) (id : Val) (w w' : World σ γ)
    (s : Story σ) (hs : w.stories[i]? = some s) (hnd : s.ids.Nodup) (n : Nat)
    (hn : timerOf s id = some (some (n : Rat))) (k : Nat) (hk : k ≤ n)
    (h : Unattended env i id w k w') :
    ∃ s', w'.stories[i]? = some s' ∧ timerOf s' id = some (some ((n - k : Nat) : Rat)) ∧
      (Acts s' id ↔ k = n) := by
  obtain ⟨s', h1, h2, h3, -⟩ := unattended_timer h hs hnd hn
  have h3 := h3 (by exact_mod_cast hk)
  refine ⟨s', h1, by rw [h3, Nat.cast_sub hk], ?_⟩
  rw [acts_iff, mem_activeIds (h2 ▸ hnd), h3]
  simp only [Option.some.injEq]
  rw [sub_eq_zero]
  constructor
  · intro h; exact_mod_cast h.symm
  · rintro rfl; rfl

/-- **C36** A member with a negative timer never acts, as long as nobody touches its timer. -/
theorem C36_negative_timer_never_acts (env : Env σ γ) (i : Nat) (id : Val) (w w' : World σ γ)
    (s : Story σ) (hs : w.stories[i]? = some s) (hnd : s.ids.Nodup) (q : Rat) (hq : q < 0)
    (hn : timerOf s id = some (some q)) (k : Nat) (h : Unattended env i id w k w') :
    ∃ s', w'.stories[i]? = some s' ∧ timerOf s' id = some (some q) ∧ ¬Acts s' id := by
  obtain ⟨s', h1, h2, -, h3⟩ := unattended_timer h hs hnd hn
  have h3 := h3 hq
  refine ⟨s', h1, h3, ?_⟩
  rw [acts_iff, mem_activeIds (h2 ▸ hnd), h3]
  simp only [Option.some.injEq]
  intro h0
  linarith

/-- "b" has timer 2: two executions without it, then it acts -/
example : ((do
      let l1 ← execute exEnv [Ops.fieldLogger "c" [] []] 0
      let l2 ← execute exEnv [Ops.fieldLogger "c" [] []] 0
      let l3 ← execute exEnv [Ops.fieldLogger "c" [] []] 0
      pure [l1, l2, l3] : Act _ _).value? exWorld) =
    some [[("c", ⟨["CALLER"], [⟨.str "a", [.str "a"]⟩]⟩)], [],
      [("c", ⟨["CALLER"], [⟨.str "b", [.str "b"]⟩]⟩)]] := by decide +kernel

/-- an unattended history of one execution exists -/
example : ∃ w', Unattended exEnv 0 (.str "b") exWorld 1 w' := by
  have hs : exWorld.stories[0]? = some exStory := rfl
  cases hx : execute exEnv [] 0 exWorld with
  | error e w' =>
    have h2 : ((execute exEnv [] 0).world? exWorld).isSome = true := by decide +kernel
    rw [Act.world?, hx] at h2
    cases h2
  | ok logs w' =>
    obtain ⟨_, w1, s1, s', -, h1, h2, -⟩ := execute_ok hx
    have h3 := afterOps_apis (F := fun _ _ => False) (Z := fun _ _ => False) (G := anyGens)
      (by simp) hs h1
    obtain ⟨s1', h4, hst, ht, hf⟩ := apis_story (i := 0)
      (P := fun t => timerOf t (.str "b") = timerOf exStory (.str "b") ∧ .str "b" ∉ t.forced)
      (fun a b _ hab hstep => by
        rcases hstep.timer (.str "b") with ⟨e1, e2⟩ | ⟨e, -⟩ | ⟨e, -⟩
        · exact ⟨e1.trans hab.1, fun hb => hab.2 (e2.1 hb)⟩
        · exact absurd e id
        · exact absurd e id) GenKept.any h3 trivial (started_get hs) ⟨rfl, by simp⟩
    exact ⟨w', .exec (.refl _) hx hs h1 h4 hst.2 ht hf⟩

/-! ### C35 -/

/-- **C35** Without auto-reset, a member that acted and whose timer the operations left alone has
timer -1 afterwards, and never acts again as long as nobody touches its timer. -/
theorem C35_acts_once (env : Env σ γ) (ops : List (Op (World σ γ))) (i : Nat)
    (w w1 w' w'' : World σ γ) (logs : Logs) (h : execute env ops i w = .ok logs w')
    (s s1 : Story σ) (hs : w.stories[i]? = some s) (hnd : s.ids.Nodup)
    (hafter : AfterOps env ops i w logs w1) (hs1 : w1.stories[i]? = some s1)
    (hauto : s1.autoReset = false) (hids : s1.ids = s.ids) (id : Val) (ha : Acts s id)
    (hf : id ∉ s1.forced) (ht : timerOf s1 id = timerOf s id) (k : Nat)
    (hun : Unattended env i id w' k w'') :
    ∃ s'', w''.stories[i]? = some s'' ∧ timerOf s'' id = some (some (-1)) ∧ ¬Acts s'' id := by
  obtain ⟨w2, s2, s', h1, h2, h3, h4⟩ := C33_forcing_is_one_shot env ops i w w' logs h s hs hnd
  obtain ⟨_, rfl⟩ := afterOps_unique h1 hafter
  rw [hs1] at h2; cases h2
  have htimer := (h4 id ha hf).2.2 hauto ht
  have hids' : s'.ids = s.ids := by
    obtain ⟨_, w5, s5, s6, -, f1, f2, f3, -, -, f4, -⟩ := execute_ok h
    obtain ⟨_, rfl⟩ := afterOps_unique f1 hafter
    rw [hs1] at f2; cases f2
    rw [f3, set_get hs1, if_pos rfl] at h3; cases h3
    rw [f4, hids]
  exact C36_negative_timer_never_acts env i id w' w'' s' h3 (hids' ▸ hnd) (-1) (by norm_num) htimer
    k hun

end Trumania
