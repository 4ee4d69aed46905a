import Verif.Props.Shop
import Verif.Proofs.ShopTrigger

/-!
# C121: who is restocked in step 5 of examples/tutorial/example2.py, and when
-/

namespace Trumania
namespace Shop
open Spec World Cdr
variable {σ : Type} {env : Env σ (AnyGen σ)} {w w' : World σ (AnyGen σ)} {vols poss : List Val} {sc : Scene}
  {evs : List (Int × Event)} {t : Nat}

theorem restocksOf_append (pos : Val) (l m : Logs) :
    restocksOf pos (l ++ m) = restocksOf pos l + restocksOf pos m := by
  rw [restocksOf, tablesOf_append, List.map_append, List.sum_append, restocksOf, restocksOf]

theorem levelAfter_append {n m : Nat} {pos : Val} {l k : Logs} (h : (m : Rat) = levelAfter n pos l) :
    levelAfter m pos k = levelAfter n pos (l ++ k) := by
  rw [levelAfter, h, levelAfter, levelAfter, deliveredTo_append, soldAt_append]
  push_cast
  ring

theorem Plays.restock (hw : Plays env sc vols poss w) : ∃ s, w.stories[0]? = some s ∧ s.ids.Nodup := by
  have h : 0 < w.stories.length := by
    have := congrArg List.length hw.fields
    simp at this
    omega
  exact ⟨_, List.getElem?_eq_getElem h, hw.ids _ (List.getElem_mem h)⟩

theorem began_exec {i : Nat} {ops : List (Op (World σ (AnyGen σ)))} {logs : Logs} (hi : (sc.chains env)[i]? = some ops)
    (h : World.execute env ops i w = .ok logs w') {r : GenRef} {g : AnyGen σ} (hg : Began env w r g) :
    Began env w' r g := by
  obtain ⟨j, hj, hb'⟩ := began_iff.1 hg
  exact began_iff.2 ⟨j, hj, execute_gens (beganAt_inv j).toGenKept
    (fun op hop => builtIn_respects (beganAt_inv j).toGenKept (chains_builtIn hi op hop)) h hb'⟩

theorem began_tick {r : GenRef} {g : AnyGen σ} (hg : Began env w r g) : Began env (nextStep env w) r g := by
  obtain ⟨j, hj, hb⟩ := began_iff.1 hg
  exact began_iff.2 ⟨j, hj, (beganAt_inv j).tick _ hb⟩

/-! ### One execution -/

/-- **C121** An execution of another story than the restocks asks the trigger once for each purchase that it logs,
about the stock of the point of sale after the purchases. A point of sale gets restocked at the next execution of the
restocks if the answer is `true` for one of its purchases; otherwise nothing changes for it. -/
theorem C121_trigger (hsem : env.sem = AnyGen.sem env.R) (hd : sc.Distinct)
    (hvols : ∀ x ∈ vols, ∃ n : Nat, x = .num (n : Rat)) (htr : sc.trigger = some t) (hw : Plays env sc vols poss w)
    {i : Nat} {ops : List (Op (World σ (AnyGen σ)))} {logs : Logs} (hi : (sc.chains env)[i]? = some ops) (h0 : i ≠ 0)
    (h : World.execute env ops i w = .ok logs w') (o : Orders) (pos : Val) :
    ∃ answers : List Cell, answers.length = soldAt pos logs ∧
      (∀ g, Began env w (.ref t) g → ∀ v ∈ answers, Replies env g (.num (held o w' 0 pos : Rat)) v) ∧
      (pos ≠ .na → .bool true ∈ answers → timerIn w' 0 pos = some (some 0)) ∧
      (pos = .na ∨ .bool true ∉ answers → timerIn w' 0 pos = timerIn w 0 pos) := by
  obtain ⟨s, hs, -⟩ := hw.restock
  obtain ⟨a, ha⟩ := hw.items
  obtain ⟨si, given, -, hh⟩ := happened_of hsem hd hvols hw hi h o ha
  obtain ⟨s', h1, h2, ⟨h3, h4⟩ | ⟨tbl, ans, h3, h4⟩⟩ := prompted_exec hsem hd hvols htr hw hi h0 h o hs
  · refine ⟨[], ?_, by simp, by simp, fun _ => ?_⟩
    · simp [soldAt, purchases, h3, purchasesIn]
    · rw [timerIn_of h1, timerIn_of hs, h4]
  · have hrow : ∀ r ∈ tbl.rows, cell tbl r "POS_ID" = .scalar pos ↔ idIn (cell tbl r "POS_ID") = pos := by
      intro r hr
      obtain ⟨-, -, -, p, -, e, -⟩ := (hh.effect.sales tbl (by rw [h3]; simp)).2 r hr
      rw [e]
      simp [idIn]
    refine ⟨(tbl.rows.filter fun r => decide (cell tbl r "POS_ID" = .scalar pos)).map fun r => ans r.idx, ?_, ?_, ?_, ?_⟩
    · rw [List.length_map, ← List.countP_eq_length_filter, soldAt, purchases, h3, purchasesIn, List.flatMap_singleton,
        List.countP_map]
      refine List.countP_congr fun r hr => ?_
      simp only [Function.comp_apply, decide_eq_true_eq]
      exact hrow r hr
    · intro g hg v hv
      obtain ⟨r, hr, rfl⟩ := List.mem_map.1 hv
      obtain ⟨hr, e⟩ := List.mem_filter.1 hr
      exact h4.replies g hg r hr pos (of_decide_eq_true e)
    · intro hna hv
      obtain ⟨r, hr, e⟩ := List.mem_map.1 hv
      obtain ⟨hr, e'⟩ := List.mem_filter.1 hr
      rw [timerIn_of h1]
      exact h4.prompt pos hna ⟨r, hr, of_decide_eq_true e', e⟩
    · intro hno
      rw [timerIn_of h1, timerIn_of hs]
      refine h4.kept pos (hno.imp_right fun hno r hr e e' => hno ?_)
      exact List.mem_map.2 ⟨r, List.mem_filter.2 ⟨hr, decide_eq_true e⟩, e'⟩

/-- **C121** An execution of the restocks restocks once each point of sale whose timer is 0, and no other; nobody gets
scheduled by it. -/
theorem C121_restock (hsem : env.sem = AnyGen.sem env.R) (hd : sc.Distinct)
    (hvols : ∀ x ∈ vols, ∃ n : Nat, x = .num (n : Rat)) (hw : Plays env sc vols poss w)
    {ops : List (Op (World σ (AnyGen σ)))} {logs : Logs} (hi : (sc.chains env)[0]? = some ops)
    (h : World.execute env ops 0 w = .ok logs w') (hdo : Dormant w 0) (pos : Val) :
    restocksOf pos logs = (if timerIn w 0 pos = some (some 0) then 1 else 0) ∧
      (timerIn w 0 pos = some (some 0) → ¬ Due w' 0 pos) ∧ (Due w' 0 pos → Due w 0 pos) := by
  obtain ⟨s, hs, hgen⟩ := hdo
  have hn := hw.ids s (List.mem_of_getElem? hs)
  obtain ⟨s', k1, -, k3⟩ := dormant_exec_self (chain_builtIn (F := (· ≠ 0)) hi (.inr (by decide))) hs hn hgen h
  have hacts : Acts s pos ↔ timerIn w 0 pos = some (some 0) := by
    rw [Story.acts_iff, Story.mem_activeIds hn, timerIn_of hs]
  refine ⟨?_, fun ht => ?_, ?_⟩
  · obtain ⟨a, ha⟩ := hw.items
    obtain ⟨s0, given, hs0, hh⟩ := happened_of hsem hd hvols hw hi h env.orders ha
    rw [hs] at hs0
    cases hs0
    rcases hh.acting (by decide) with ⟨hno, rfl⟩ | ⟨tbl, ht, hx⟩
    · rw [if_neg fun hc => ?_]
      · rfl
      · have hc := hacts.2 hc
        rw [Acts, hno] at hc
        cases hc
    · have ht : tablesOf "restock" logs = [tbl] := ht
      obtain ⟨hnd, hrow⟩ := hh.effect.restocks tbl (by rw [ht]; simp)
      have hc : restocksOf pos logs = tbl.index.count pos := by
        rw [restocksOf, ht, List.map_singleton, List.sum_singleton, Frame.index, List.count, List.countP_map]
        refine List.countP_congr fun r hr => ?_
        rw [(hrow r hr).1]
        simp
      have hmem : pos ∈ tbl.index ↔ timerIn w 0 pos = some (some 0) := by
        rw [hx, ← hacts]
        rfl
      rw [hc, hnd.count]
      exact if_congr hmem rfl rfl
  · rw [due_iff k1]
    exact (k3 pos).1 (hacts.2 ht)
  · rw [due_iff k1, due_iff hs]
    exact (k3 pos).2

/-- the story of the restocks stays dormant -/
theorem dormant_exec {i : Nat} {ops : List (Op (World σ (AnyGen σ)))} {logs : Logs}
    (hi : (sc.chains env)[i]? = some ops) (h : World.execute env ops i w = .ok logs w') (hdo : Dormant w 0) :
    Dormant w' 0 := by
  obtain ⟨s, hs, hgen⟩ := hdo
  have hsame : List.Forall₂ World.SameStatic w.stories w'.stories := execute_sameStories (chains_builtIn hi) h
  obtain ⟨hlt, he⟩ := List.getElem?_eq_some_iff.1 hs
  have h2 := (List.forall₂_iff_get.1 hsame).2 _ hlt (hsame.length_eq ▸ hlt)
  rw [List.get_eq_getElem, List.get_eq_getElem, he] at h2
  exact ⟨_, List.getElem?_eq_getElem _, by rw [h2.1]; exact hgen⟩

/-- only the execution of the restocks logs restocks -/
theorem no_restock (hsem : env.sem = AnyGen.sem env.R) (hd : sc.Distinct)
    (hvols : ∀ x ∈ vols, ∃ n : Nat, x = .num (n : Rat)) (hw : Plays env sc vols poss w) {i : Nat}
    {ops : List (Op (World σ (AnyGen σ)))} {logs : Logs} (hi : (sc.chains env)[i]? = some ops)
    (h : World.execute env ops i w = .ok logs w') (h0 : i ≠ 0) : tablesOf "restock" logs = [] := by
  obtain ⟨a, ha⟩ := hw.items
  obtain ⟨s, given, -, hh⟩ := happened_of hsem hd hvols hw hi h env.orders ha
  refine hh.other _ ?_
  match i, h0 with
  | 1, _ => decide
  | 2, _ => decide
  | k + 3, _ => exact (by decide : "restock" ≠ "")

/-- only the execution of the purchases logs purchases -/
theorem no_purchase (hsem : env.sem = AnyGen.sem env.R) (hd : sc.Distinct)
    (hvols : ∀ x ∈ vols, ∃ n : Nat, x = .num (n : Rat)) (hw : Plays env sc vols poss w) {i : Nat}
    {ops : List (Op (World σ (AnyGen σ)))} {logs : Logs} (hi : (sc.chains env)[i]? = some ops)
    (h : World.execute env ops i w = .ok logs w') (h2 : i ≠ 2) : tablesOf "purchases" logs = [] := by
  obtain ⟨a, ha⟩ := hw.items
  obtain ⟨s, given, -, hh⟩ := happened_of hsem hd hvols hw hi h env.orders ha
  refine hh.other _ ?_
  match i, h2 with
  | 0, _ => decide
  | 1, _ => decide
  | k + 3, _ => exact (by decide : "purchases" ≠ "")

/-! ### Runs -/

/-- what the trigger of the scenario is -/
structure Triggers (env : Env σ (AnyGen σ)) (sc : Scene) (f : Rat → Rat) (w : World σ (AnyGen σ)) : Prop where
  began : ∃ t m r, sc.trigger = some t ∧ (∀ l : List Rat, m l = l.map f) ∧ Began env w (.ref t) (.trigger m r)

variable {f : Rat → Rat}

/-- **C121** one execution, with a trigger: purchases that leave a stock for which the probability is at least 1 get
the point of sale restocked, and those that leave a stock for which it is at most 0 change nothing. -/
theorem C121_certain (hsem : env.sem = AnyGen.sem env.R) (hd : sc.Distinct)
    (hvols : ∀ x ∈ vols, ∃ n : Nat, x = .num (n : Rat)) (hw : Plays env sc vols poss w) (hf : Triggers env sc f w)
    {i : Nat} {ops : List (Op (World σ (AnyGen σ)))} {logs : Logs} (hi : (sc.chains env)[i]? = some ops) (h0 : i ≠ 0)
    (h : World.execute env ops i w = .ok logs w') (o : Orders) {pos : Val} (hna : pos ≠ .na) :
    (soldAt pos logs ≠ 0 → 1 ≤ f (held o w' 0 pos) → timerIn w' 0 pos = some (some 0)) ∧
      (soldAt pos logs = 0 ∨ f (held o w' 0 pos) ≤ 0 → timerIn w' 0 pos = timerIn w 0 pos) ∧
      (timerIn w 0 pos = some (some 0) → timerIn w' 0 pos = some (some 0)) := by
  obtain ⟨t, m, r, htr, hm, hb⟩ := hf.began
  obtain ⟨answers, h1, h2, h3, h4⟩ := C121_trigger hsem hd hvols htr hw hi h0 h o pos
  refine ⟨fun hs hq => h3 hna ?_, fun hc => h4 (.inr fun hv => ?_), fun ht => ?_⟩
  · obtain ⟨v, hv⟩ := List.exists_mem_of_length_pos (by omega : 0 < answers.length)
    obtain ⟨q, b, e1, rfl, -, k2⟩ := replies_trigger hsem hm (h2 _ hb v hv)
    cases e1
    rw [k2 hq] at hv
    exact hv
  · rcases hc with hc | hc
    · rw [hc, List.length_eq_zero_iff] at h1
      rw [h1] at hv
      cases hv
    · obtain ⟨q, b, e1, e2, k1, -⟩ := replies_trigger hsem hm (h2 _ hb _ hv)
      cases e1
      rw [k1 hc] at e2
      exact absurd e2 (by decide)
  · by_cases hv : Cell.bool true ∈ answers
    · exact h3 hna hv
    · rw [h4 (.inr hv), ht]

theorem Triggers.exec (hf : Triggers env sc f w) {i : Nat} {ops : List (Op (World σ (AnyGen σ)))} {logs : Logs}
    (hi : (sc.chains env)[i]? = some ops) (h : World.execute env ops i w = .ok logs w') : Triggers env sc f w' := by
  obtain ⟨t, m, r, h1, h2, h3⟩ := hf.began
  exact ⟨t, m, r, h1, h2, began_exec hi h h3⟩

theorem Triggers.tick (hf : Triggers env sc f w) : Triggers env sc f (nextStep env w) := by
  obtain ⟨t, m, r, h1, h2, h3⟩ := hf.began
  exact ⟨t, m, r, h1, h2, began_tick h3⟩

theorem triggers_run (h : Played env (sc.chains env) w evs w') (hf : Triggers env sc f w) (hdo : Dormant w 0) :
    Triggers env sc f w' ∧ Dormant w' 0 := by
  induction h with
  | nil w => exact ⟨hf, hdo⟩
  | exec hi h _ ih => exact ih (hf.exec hi h) (dormant_exec hi h hdo)
  | tick _ ih => exact ih hf.tick hdo

/-- a point of sale stays due until the restocks are executed -/
theorem stays_due (hsem : env.sem = AnyGen.sem env.R) (hd : sc.Distinct)
    (hvols : ∀ x ∈ vols, ∃ n : Nat, x = .num (n : Rat)) (h : Played env (sc.chains env) w evs w')
    (hw : Plays env sc vols poss w) (hf : Triggers env sc f w) {pos : Val} (hna : pos ≠ .na)
    (hno : ∀ d logs, (d, Event.exec 0 logs) ∉ evs) (ht : timerIn w 0 pos = some (some 0)) :
    timerIn w' 0 pos = some (some 0) := by
  induction h with
  | nil w => exact ht
  | @exec w w1 w' l i ops logs hi h rest ih =>
    have h0 : i ≠ 0 := fun e => hno w.clock.current logs (by rw [e]; simp)
    exact ih (exec_plays hsem hd hvols hw hi h) (hf.exec hi h) (fun d x hm => hno d x (by simp [hm]))
      ((C121_certain hsem hd hvols hw hf hi h0 h env.orders hna).2.2 ht)
  | tick rest ih =>
    exact ih (tick_plays hw hsem).1 hf.tick (fun d x hm => hno d x (by simp [hm])) ht

/-- **C121** In any run, after purchases at a point of sale that leave it with a stock for which the probability of the
trigger is at least 1 (according to the logs written so far), the next execution of the restocks restocks it. -/
theorem C121_next (hsem : env.sem = AnyGen.sem env.R) (hd : sc.Distinct)
    (hvols : ∀ x ∈ vols, ∃ n : Nat, x = .num (n : Rat)) {e1 e2 e3 : List (Int × Event)} {d d' : Int}
    {logs logs' : Logs} {i : Nat}
    (h : Played env (sc.chains env) w (e1 ++ (d, .exec i logs) :: (e2 ++ (d', .exec 0 logs') :: e3)) w')
    (hw : Plays env sc vols poss w) (hf : Triggers env sc f w) (hdo : Dormant w 0) (o : Orders) {pos : Val}
    (hna : pos ≠ .na) (hs : soldAt pos logs ≠ 0)
    (hq : 1 ≤ f (levelAfter (held o w 0 pos) pos (emitted e1 ++ logs)))
    (hno : ∀ d logs, (d, Event.exec 0 logs) ∉ e2) : restocksOf pos logs' = 1 := by
  obtain ⟨u, u', ops, h1, hi, hx, h2, -⟩ := played_at h rfl
  have ht := through hsem hd hvols h1 hw
  obtain ⟨hf1, hdo1⟩ := triggers_run h1 hf hdo
  have h0 : i ≠ 0 := by
    rintro rfl
    refine hs ?_
    rw [soldAt, purchases, no_purchase hsem hd hvols ht.plays hi hx (by decide)]
    rfl
  have hlev : (held o u' 0 pos : Rat) = levelAfter (held o w 0 pos) pos (emitted e1 ++ logs) := by
    obtain ⟨a, ha⟩ := ht.plays.items
    obtain ⟨s, given, -, hh⟩ := happened_of hsem hd hvols ht.plays hi hx o ha
    rw [hh.effect.level, ht.level, levelAfter, levelAfter, deliveredTo_append, soldAt_append]
    push_cast
    ring
  have hdue := (C121_certain hsem hd hvols ht.plays hf1 hi h0 hx o hna).1 hs (by rw [hlev]; exact hq)
  have hw1 := exec_plays hsem hd hvols ht.plays hi hx
  obtain ⟨v, v', ops', h3, hi', hx', -, -⟩ := played_at h2 rfl
  have hdue' := stays_due hsem hd hvols h3 hw1 (hf1.exec hi hx) hna hno hdue
  have ht' := through hsem hd hvols h3 hw1
  have := (C121_restock hsem hd hvols ht'.plays hi' hx'
    (triggers_run h3 (hf1.exec hi hx) (dormant_exec hi hx hdo1)).2 pos).1
  rw [this, if_pos hdue']

/-- some purchase at the point of sale left it with a stock for which the trigger may answer `true`, and it was not
restocked since -/
def Wanted (f : Rat → Rat) (first : Nat) (pos : Val) (evs : List (Int × Event)) : Prop :=
  ∃ e1 d logs e2, evs = e1 ++ (d, Event.exec 2 logs) :: e2 ∧ soldAt pos logs ≠ 0 ∧
    0 < f (levelAfter first pos (emitted e1 ++ logs)) ∧ restocksOf pos (emitted e2) = 0

theorem wanted_run (hsem : env.sem = AnyGen.sem env.R) (hd : sc.Distinct)
    (hvols : ∀ x ∈ vols, ∃ n : Nat, x = .num (n : Rat)) (h : Played env (sc.chains env) w evs w')
    (hw : Plays env sc vols poss w) (hf : Triggers env sc f w) (hdo : Dormant w 0) (o : Orders) {pos : Val}
    (hna : pos ≠ .na) (hdue : Due w' 0 pos) :
    (Due w 0 pos ∧ restocksOf pos (emitted evs) = 0) ∨ Wanted f (held o w 0 pos) pos evs := by
  induction h with
  | nil w => exact .inl ⟨hdue, rfl⟩
  | @exec w w1 w' l i ops logs hi h rest ih =>
    have e : emitted ((w.clock.current, Event.exec i logs) :: l) = logs ++ emitted l := rfl
    have hlev : (held o w1 0 pos : Rat) = levelAfter (held o w 0 pos) pos logs := by
      obtain ⟨a, ha⟩ := hw.items
      obtain ⟨s, given, -, hh⟩ := happened_of hsem hd hvols hw hi h o ha
      exact hh.effect.level pos
    rcases ih (exec_plays hsem hd hvols hw hi h) (hf.exec hi h) (dormant_exec hi h hdo) hdue with ⟨h1, h2⟩ | h1
    · rw [e, restocksOf_append, h2]
      by_cases h0 : i = 0
      · subst h0
        obtain ⟨k1, k2, k3⟩ := C121_restock hsem hd hvols hw hi h hdo pos
        refine .inl ⟨k3 h1, ?_⟩
        rw [k1, if_neg fun hc => k2 hc h1]
      · have hr : restocksOf pos logs = 0 := by
          rw [restocksOf, no_restock hsem hd hvols hw hi h h0]
          rfl
        obtain ⟨-, k2, -⟩ := C121_certain hsem hd hvols hw hf hi h0 h o hna
        by_cases hc : soldAt pos logs = 0 ∨ f (held o w1 0 pos) ≤ 0
        · refine .inl ⟨?_, by rw [hr]⟩
          rw [Due, k2 hc] at h1
          exact h1
        · push Not at hc
          have h2' : i = 2 := by
            by_contra h2'
            refine hc.1 ?_
            rw [soldAt, purchases, no_purchase hsem hd hvols hw hi h h2']
            rfl
          subst h2'
          refine .inr ⟨[], w.clock.current, logs, l, rfl, hc.1, ?_, h2⟩
          rw [hlev] at hc
          exact hc.2
    · obtain ⟨e1, d, lg, e2, rfl, k1, k2, k3⟩ := h1
      refine .inr ⟨(w.clock.current, Event.exec i logs) :: e1, d, lg, e2, rfl, k1, ?_, k3⟩
      have : emitted ((w.clock.current, Event.exec i logs) :: e1) = logs ++ emitted e1 := rfl
      rw [this, List.append_assoc, ← levelAfter_append hlev]
      exact k2
  | @tick w w' l rest ih =>
    rcases ih (tick_plays hw hsem).1 hf.tick hdo hdue with h1 | ⟨e1, d, lg, e2, rfl, k1, k2, k3⟩
    · exact .inl h1
    · exact .inr ⟨(w.clock.current, .tick) :: e1, d, lg, e2, rfl, k1, k2, k3⟩

/-- **C121** In any run, a point of sale that was not due in the beginning is restocked only if some purchase there left
it with a stock for which the trigger may answer `true`, and it was not restocked since. -/
theorem C121_why (hsem : env.sem = AnyGen.sem env.R) (hd : sc.Distinct)
    (hvols : ∀ x ∈ vols, ∃ n : Nat, x = .num (n : Rat)) {e1 e2 : List (Int × Event)} {d : Int} {j : Nat} {logs : Logs}
    (h : Played env (sc.chains env) w (e1 ++ (d, .exec j logs) :: e2) w') (hw : Plays env sc vols poss w)
    (hf : Triggers env sc f w) (hdo : Dormant w 0) (o : Orders) {pos : Val} (hna : pos ≠ .na) (hnd : ¬ Due w 0 pos)
    (hr : restocksOf pos logs ≠ 0) : Wanted f (held o w 0 pos) pos e1 := by
  obtain ⟨u, u', ops, h1, hi, hx, -, -⟩ := played_at h rfl
  have ht := through hsem hd hvols h1 hw
  obtain ⟨hf1, hdo1⟩ := triggers_run h1 hf hdo
  have h0 : j = 0 := by
    by_contra h0
    refine hr ?_
    rw [restocksOf, no_restock hsem hd hvols ht.plays hi hx h0]
    rfl
  subst h0
  have hk := (C121_restock hsem hd hvols ht.plays hi hx hdo1 pos).1
  have hdue : Due u 0 pos := by
    by_contra hc
    rw [if_neg fun e => hc ⟨0, le_refl _, e⟩] at hk
    exact hr hk
  exact (wanted_run hsem hd hvols h1 hw hf hdo o hna hdue).resolve_left fun hc => hnd hc.1

theorem deliveredTo_zero {pos : Val} {l : Logs} (h : restocksOf pos l = 0) : deliveredTo pos l = 0 := by
  rw [restocksOf, List.sum_eq_zero_iff] at h
  rw [deliveredTo, volumeIn]
  refine List.sum_eq_zero fun x hx => ?_
  obtain ⟨t, ht, rfl⟩ := List.mem_map.1 hx
  have := h _ (List.mem_map.2 ⟨t, ht, rfl⟩)
  rw [List.countP_eq_length_filter, List.length_eq_zero_iff] at this
  rw [this]
  rfl

/-- what one execution does to the stock of a point of sale -/
theorem level_exec (hsem : env.sem = AnyGen.sem env.R) (hd : sc.Distinct)
    (hvols : ∀ x ∈ vols, ∃ n : Nat, x = .num (n : Rat)) (hw : Plays env sc vols poss w) {i : Nat}
    {ops : List (Op (World σ (AnyGen σ)))} {logs : Logs} (hi : (sc.chains env)[i]? = some ops)
    (h : World.execute env ops i w = .ok logs w') (o : Orders) (pos : Val) :
    held o w' 0 pos ≤ held o w 0 pos ∨ restocksOf pos logs ≠ 0 ∧ ∃ n : Nat, .num (n : Rat) ∈ vols ∧
      held o w' 0 pos = held o w 0 pos + n := by
  obtain ⟨a, ha⟩ := hw.items
  obtain ⟨s, given, -, hh⟩ := happened_of hsem hd hvols hw hi h o ha
  by_cases hr : restocksOf pos logs = 0
  · left
    have h1 := hh.effect.level pos
    rw [deliveredTo_zero hr] at h1
    have h2 : (held o w' 0 pos : Rat) ≤ held o w 0 pos := by
      rw [h1]
      have : (0 : Rat) ≤ soldAt pos logs := Nat.cast_nonneg _
      linarith
    exact_mod_cast h2
  · right
    refine ⟨hr, ?_⟩
    rw [restocksOf, List.sum_eq_zero_iff] at hr
    push Not at hr
    obtain ⟨k, hk, hne⟩ := hr
    obtain ⟨t, ht, rfl⟩ := List.mem_map.1 hk
    obtain ⟨r, hr', e⟩ := List.countP_pos_iff.1 (Nat.pos_of_ne_zero hne)
    obtain ⟨f1, -, n, -, f4, f5⟩ := (hh.effect.restocks t ht).2 r hr'
    rw [f1, decide_eq_true_eq] at e
    cases e
    exact ⟨n, f4, f5⟩

/-- **C121** In any run, a point of sale that was not due in the beginning is not restocked more often than items were
bought there; if it is due in the end, at least once less. -/
theorem C121_run (hsem : env.sem = AnyGen.sem env.R) (hd : sc.Distinct)
    (hvols : ∀ x ∈ vols, ∃ n : Nat, x = .num (n : Rat)) (htr : sc.trigger ≠ none)
    (h : Played env (sc.chains env) w evs w') (hw : Plays env sc vols poss w) (hdo : Dormant w 0) {pos : Val}
    (hnd : ¬ Due w 0 pos) : restocksOf pos (emitted evs) ≤ soldAt pos (emitted evs) ∧
      (Due w' 0 pos → restocksOf pos (emitted evs) < soldAt pos (emitted evs)) := by
  obtain ⟨t, htr⟩ := Option.ne_none_iff_exists'.1 htr
  have key : restocksOf pos (emitted evs) + dueCount w' 0 pos ≤ soldAt pos (emitted evs) + dueCount w 0 pos := by
    clear hnd
    induction h with
    | nil w => exact le_refl _
    | @exec w w1 w' l i ops logs hi h rest ih =>
      have e : emitted ((w.clock.current, Event.exec i logs) :: l) = logs ++ emitted l := rfl
      have ih := ih (exec_plays hsem hd hvols hw hi h) (dormant_exec hi h hdo)
      have step : restocksOf pos logs + dueCount w1 0 pos ≤ soldAt pos logs + dueCount w 0 pos := by
        by_cases h0 : i = 0
        · subst h0
          obtain ⟨k1, k2, k3⟩ := C121_restock hsem hd hvols hw hi h hdo pos
          rw [k1, dueCount, dueCount]
          split
          · rename_i ht
            rw [if_neg (k2 ht), if_pos ⟨0, le_refl _, ht⟩]
            omega
          · by_cases hdue : Due w1 0 pos
            · rw [if_pos hdue, if_pos (k3 hdue)]
              omega
            · rw [if_neg hdue]
              omega
        · have hr : restocksOf pos logs = 0 := by
            rw [restocksOf, no_restock hsem hd hvols hw hi h h0]
            rfl
          obtain ⟨answers, k1, -, -, k4⟩ := C121_trigger hsem hd hvols htr hw hi h0 h env.orders pos
          by_cases hs : soldAt pos logs = 0
          · rw [hs, List.length_eq_zero_iff] at k1
            have k4 := k4 (.inr (by rw [k1]; simp))
            rw [hr, hs, dueCount, dueCount, Due, Due, k4]
          · rw [hr, dueCount]
            split <;> omega
      rw [e, restocksOf_append, soldAt_append]
      omega
    | @tick w w' l rest ih => exact ih (tick_plays hw hsem).1 hdo
  rw [dueCount, dueCount, if_neg hnd] at key
  refine ⟨by omega, fun h' => ?_⟩
  rw [if_pos h'] at key
  omega

/-- **C121** If the probability of the trigger is at most 0 for stocks above `most` (9 in the scenario: it decreases from
1 for 2 items to 0 for 10), the log of restocks only tells of previous stocks up to that. -/
theorem C121_previous (hsem : env.sem = AnyGen.sem env.R) (hd : sc.Distinct)
    (hvols : ∀ x ∈ vols, ∃ n : Nat, x = .num (n : Rat)) {e1 e2 : List (Int × Event)} {d : Int} {j : Nat} {logs : Logs}
    (h : Played env (sc.chains env) w (e1 ++ (d, .exec j logs) :: e2) w') (hw : Plays env sc vols poss w)
    (hf : Triggers env sc f w) (hdo : Dormant w 0) {most : Nat} (hm : ∀ n : Nat, most < n → f n ≤ 0) {pos : Val}
    (hna : pos ≠ .na) (hnd : ¬ Due w 0 pos) :
    ∀ t ∈ tablesOf "restock" logs, ∀ r ∈ t.rows, cell t r "POS_ID" = .scalar pos →
      ∃ n : Nat, n ≤ most ∧ cell t r "PREV_STOCK_LEVEL" = .num (n : Rat) := by
  intro t ht r hr hp
  have hrs : restocksOf pos logs ≠ 0 := by
    rw [restocksOf, Ne, List.sum_eq_zero_iff]
    intro hc
    have := hc _ (List.mem_map.2 ⟨t, ht, rfl⟩)
    rw [List.countP_eq_zero] at this
    exact this r hr (decide_eq_true hp)
  obtain ⟨a1, d1, l1, a2, rfl, k1, k2, k3⟩ := C121_why hsem hd hvols h hw hf hdo env.orders hna hnd hrs
  obtain ⟨t0, -, -, htr, -, -⟩ := hf.began
  obtain ⟨p, v, f1, -, f3, -⟩ := C119_levels hsem hd (by rw [htr]; simp) hvols h hw env.orders t ht r hr
  rw [hp] at f1
  cases f1
  obtain ⟨u, u', ops, h1, hi, hx, -, -⟩ := played_at h rfl
  have hlu := (through hsem hd hvols h1 hw).level env.orders pos
  rw [List.append_assoc, List.cons_append] at h
  obtain ⟨v1, v2, ops', h1', hi', hx', -, -⟩ := played_at h rfl
  have ht1 := through hsem hd hvols h1' hw
  have hlv : (held env.orders v2 0 pos : Rat) = levelAfter (held env.orders w 0 pos) pos (emitted a1 ++ l1) := by
    obtain ⟨a, ha⟩ := ht1.plays.items
    obtain ⟨s, given, -, hh⟩ := happened_of hsem hd hvols ht1.plays hi' hx' env.orders ha
    rw [hh.effect.level, ht1.level, levelAfter, levelAfter, deliveredTo_append, soldAt_append]
    push_cast
    ring
  have hle : held env.orders v2 0 pos ≤ most := by
    by_contra hc
    have := hm _ (not_le.1 hc)
    rw [hlv] at this
    exact absurd k2 (not_lt.2 this)
  refine ⟨held env.orders u 0 pos, ?_, by rw [f3, hlu]⟩
  have he : emitted (a1 ++ (d1, Event.exec 2 l1) :: a2) = (emitted a1 ++ l1) ++ emitted a2 := by
    rw [emitted, List.flatMap_append, List.flatMap_cons, ← List.append_assoc]
    rfl
  have : (held env.orders u 0 pos : Rat) ≤ held env.orders v2 0 pos := by
    rw [hlu, he, ← levelAfter_append hlv, levelAfter, deliveredTo_zero k3]
    have : (0 : Rat) ≤ soldAt pos (emitted a2) := Nat.cast_nonneg _
    linarith
  have this : held env.orders u 0 pos ≤ held env.orders v2 0 pos := by exact_mod_cast this
  exact this.trans hle

/-- **C121** In any run, if moreover no volume exceeds `big` (25 in the scenario), the stock of a point of sale that was
not due in the beginning never exceeds what it was then or `most + big`. -/
theorem C121_bound (hsem : env.sem = AnyGen.sem env.R) (hd : sc.Distinct)
    (hvols : ∀ x ∈ vols, ∃ n : Nat, x = .num (n : Rat)) (h : Played env (sc.chains env) w evs w')
    (hw : Plays env sc vols poss w) (hf : Triggers env sc f w) (hdo : Dormant w 0) {most big : Nat}
    (hm : ∀ n : Nat, most < n → f n ≤ 0) (hb : ∀ n : Nat, .num (n : Rat) ∈ vols → n ≤ big) {pos : Val}
    (hna : pos ≠ .na) (hnd : ¬ Due w 0 pos) (o : Orders) :
    held o w' 0 pos ≤ max (held o w 0 pos) (most + big) := by
  have key : ∀ top, most + big ≤ top → held o w 0 pos ≤ top → (Due w 0 pos → held o w 0 pos ≤ most) →
      held o w' 0 pos ≤ top := by
    intro top htop
    clear hnd
    induction h with
    | nil w => exact fun h _ => h
    | @exec w w1 w' l i ops logs hi h rest ih =>
      intro hle hdue
      refine ih (exec_plays hsem hd hvols hw hi h) (hf.exec hi h) (dormant_exec hi h hdo) ?_ ?_
      · rcases level_exec hsem hd hvols hw hi h o pos with h1 | ⟨h1, n, h2, h3⟩
        · exact h1.trans hle
        · have h0 : i = 0 := by
            by_contra h0
            refine h1 ?_
            rw [restocksOf, no_restock hsem hd hvols hw hi h h0]
            rfl
          subst h0
          have hk := (C121_restock hsem hd hvols hw hi h hdo pos).1
          have hd0 : Due w 0 pos := by
            by_contra hc
            rw [if_neg fun e => hc ⟨0, le_refl _, e⟩] at hk
            exact h1 hk
          have := hdue hd0
          have := hb n h2
          omega
      · intro hd1
        by_cases h0 : i = 0
        · subst h0
          obtain ⟨k1, k2, k3⟩ := C121_restock hsem hd hvols hw hi h hdo pos
          rw [if_neg fun e => k2 e hd1] at k1
          rcases level_exec hsem hd hvols hw hi h o pos with h1 | ⟨h1, -⟩
          · exact h1.trans (hdue (k3 hd1))
          · exact absurd k1 h1
        · by_cases hc : most < held o w1 0 pos
          · have hk := (C121_certain hsem hd hvols hw hf hi h0 h o hna).2.1 (.inr (hm _ hc))
            rw [Due, hk] at hd1
            rcases level_exec hsem hd hvols hw hi h o pos with h1 | ⟨h1, -⟩
            · exact h1.trans (hdue hd1)
            · refine absurd ?_ h1
              rw [restocksOf, no_restock hsem hd hvols hw hi h h0]
              rfl
          · exact not_lt.1 hc
    | @tick w w' l rest ih => exact ih (tick_plays hw hsem).1 hf.tick hdo
  exact key _ (le_max_right _ _) (le_max_left _ _) fun h => absurd h hnd

end Shop
end Trumania
