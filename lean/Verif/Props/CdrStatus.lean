import Verif.Spec.CdrStatus
import Verif.Props.Cdr
import Verif.Props.Replies

/-!
# C116: the status of calls and messages
-/

namespace Trumania
namespace Cdr
open Spec World
variable {σ γ : Type} {env : Env σ γ} {fmt : Int → Cell} {c : Cast} {g : γ}

theorem talk_status {w : World σ γ} {P' : List Population} {p : Population} {ao am ac : Attribute}
    {fr sr : List (Val × Val × Rat)} {logId : String} {cols : List String} {value : (String → Cell) → Prop}
    {data f tbl : Frame} {ls : List Logs} {p' : Population} {ac' : Attribute} {t : Talk}
    (hc : ∀ x ∈ ["STATUS", "CELL_A", "CELL_B"], x ∈ cols)
    (h : TalkRun t (Verdict env w t.flatTrigger) logId cols value data w.pops P' p ao am ac fr sr ls f tbl p' ac')
    (hg : Began env w t.flatTrigger g) : ∀ r ∈ tbl.rows, StatusOf env g w t.cells tbl r := by
  intro r hr
  have hi : r.idx ∈ f.index := by
    rw [← h.index]
    exact List.mem_map.2 ⟨r, hr, rfl⟩
  obtain ⟨a, b, q, at_, ha, hb, h1, h2, h3, h4, h5, h6, h7⟩ := h.status _ hi
  have e := fun x hx => h.rows r hr x (hc x hx)
  refine ⟨a, b, ?_, fun x hx => ⟨ha, ⟨q, at_, h2, h3, ?_⟩, h6 g hg⟩, fun x hx => ⟨hb, ⟨q, at_, h2, h3, ?_⟩, h7 g hg⟩⟩
  · rw [e _ (by decide), h1, status]
    cases a <;> cases b <;> rfl
  · rw [e _ (by decide)] at hx
    rw [hx] at h4
    exact h4
  · rw [e _ (by decide)] at hx
    rw [hx] at h5
    exact h5

/-- **C116** one execution -/
theorem C116_status (hd : c.Distinct) {w w' : World σ γ} (hw : Plays env c w) {i : Nat}
    {ops : List (Op (World σ γ))} {logs : Logs} (hi : (c.chains env fmt)[i]? = some ops)
    (h : World.execute env ops i w = .ok logs w') (hg : Began env w c.t.flatTrigger g) :
    ∀ t ∈ tablesOf "voice_cdr" logs ++ tablesOf "sms_cdr" logs, ∀ r ∈ t.rows,
      StatusOf env g w c.t.cells t r := by
  intro t ht
  have hh := ((exec_step hd hw hi h).2 env.orders).1
  have h0 : ∀ {ls : List Logs} {logId : String}, (∀ id, tablesOf id logs = ls.filterMap (·.get? id)) →
      (∀ id, id ≠ logId → ls.filterMap (·.get? id) = []) → ∀ id, id ≠ logId → tablesOf id logs = [] :=
    fun a b id hid => (a id).trans (b id hid)
  cases hh with
  | aside quiet _ _ =>
    rw [quiet _ (by decide), quiet _ (by decide)] at ht
    cases ht
  | moved _ _ _ tables h =>
    rw [h0 tables h.quiet _ (by decide), h0 tables h.quiet _ (by decide)] at ht
    cases ht
  | topped _ _ _ _ _ tables h =>
    rw [h0 tables h.quiet _ (by decide), h0 tables h.quiet _ (by decide)] at ht
    cases ht
  | called hrf hrs hp hao ham hac tables h =>
    rw [h0 tables h.quiet "sms_cdr" (by decide), (tables _).trans h.logged, List.append_nil,
      List.mem_singleton] at ht
    subst ht
    exact talk_status (by decide) h hg
  | texted hrf hrs hp hao ham hac tables h =>
    rw [h0 tables h.quiet "voice_cdr" (by decide), (tables _).trans h.logged, List.nil_append,
      List.mem_singleton] at ht
    subst ht
    exact talk_status (by decide) h hg

/-- an object remains the same one through the executions -/
theorem began_execute {w w' : World σ γ} {i : Nat} {ops : List (Op (World σ γ))} {logs : Logs} {r : GenRef}
    (hi : (c.chains env fmt)[i]? = some ops) (h : World.execute env ops i w = .ok logs w')
    (hg : Began env w r g) : Began env w' r g := by
  obtain ⟨j, hj, hb⟩ := began_iff.1 hg
  exact began_iff.2 ⟨j, hj, execute_gens (beganAt_inv j).toGenKept
    (fun op hop => builtIn_respects (beganAt_inv j).toGenKept
      (chains_fine ops (List.mem_of_getElem? hi) op hop).1) h hb⟩

theorem began_tick {w : World σ γ} {r : GenRef} (hg : Began env w r g) :
    Began env { w with clock := w.clock.increment env.sem.tick } r g := by
  obtain ⟨j, hj, hb⟩ := began_iff.1 hg
  exact began_iff.2 ⟨j, hj, (beganAt_inv j).tick _ hb⟩

/-- **C116** In any run of the six stories, the status of each record of a call or of a message tells whether both
cells let it through, and each of them did so or not as the trigger answered to the health that the cell had then,
in a world `u` of the run. -/
theorem C116_run (hd : c.Distinct) {w w' : World σ γ} {evs : List (Int × Event)}
    (h : Played env (c.chains env fmt) w evs w') (hw : Plays env c w) (hg : Began env w c.t.flatTrigger g) :
    ∀ t ∈ tablesOf "voice_cdr" (emitted evs) ++ tablesOf "sms_cdr" (emitted evs), ∃ e1 e2 u, evs = e1 ++ e2 ∧
      Played env (c.chains env fmt) w e1 u ∧ ∀ r ∈ t.rows, StatusOf env g u c.t.cells t r := by
  induction h with
  | nil w =>
    intro t ht
    cases ht
  | @exec w w1 w' evs i ops logs hi h rest ih =>
    have e : emitted ((w.clock.current, Event.exec i logs) :: evs) = logs ++ emitted evs := rfl
    have e' : ∀ id, tablesOf id (logs ++ emitted evs) = tablesOf id logs ++ tablesOf id (emitted evs) := by
      simp [tablesOf]
    obtain ⟨k1, -⟩ := exec_step hd hw hi h
    have h1 := C116_status hd hw hi h hg
    have h2 := ih k1 (began_execute hi h hg)
    have later : ∀ t, (∃ e1 e2 u, evs = e1 ++ e2 ∧ Played env (c.chains env fmt) w1 e1 u ∧
        ∀ r ∈ t.rows, StatusOf env g u c.t.cells t r) →
        ∃ e1 e2 u, (w.clock.current, Event.exec i logs) :: evs = e1 ++ e2 ∧
          Played env (c.chains env fmt) w e1 u ∧ ∀ r ∈ t.rows, StatusOf env g u c.t.cells t r := by
      rintro t ⟨e1, e2, u, rfl, h5, h6⟩
      exact ⟨_ :: e1, e2, u, rfl, .exec hi h h5, h6⟩
    intro t ht
    rw [e, e', e', List.mem_append, List.mem_append, List.mem_append] at ht
    rcases ht with (ht | ht) | ht | ht
    · exact ⟨[], _, w, rfl, .nil w, h1 t (List.mem_append_left _ ht)⟩
    · exact later t (h2 t (List.mem_append_left _ ht))
    · exact ⟨[], _, w, rfl, .nil w, h1 t (List.mem_append_right _ ht)⟩
    · exact later t (h2 t (List.mem_append_right _ ht))
  | @tick w w' evs rest ih =>
    intro t ht
    obtain ⟨e1, e2, u, rfl, h5, h6⟩ := ih ⟨hw.wf, hw.ids, hw.fields, hw.rels, hw.sims, hw.subs⟩ (began_tick hg) t ht
    exact ⟨_ :: e1, e2, u, rfl, .tick h5, h6⟩

/-- **C116** With a trigger: a call or a message between two cells where the probability is at least 1 is not
dropped, one with a cell where it is at most 0 is dropped. -/
theorem C116_certain {env : Env σ (AnyGen σ)} (hsem : env.sem = AnyGen.sem env.R) (hd : c.Distinct)
    {w w' : World σ (AnyGen σ)} {evs : List (Int × Event)} (h : Played env (c.chains env fmt) w evs w')
    (hw : Plays env c w) {m : List Rat → List Rat} {f : Rat → Rat} (hm : ∀ l, m l = l.map f) {s : σ}
    (hg : Began env w c.t.flatTrigger (.trigger m s)) :
    ∀ t ∈ tablesOf "voice_cdr" (emitted evs) ++ tablesOf "sms_cdr" (emitted evs), ∃ e1 e2 u, evs = e1 ++ e2 ∧
      Played env (c.chains env fmt) w e1 u ∧ ∀ r ∈ t.rows, ∀ x y, cell t r "CELL_A" = .scalar x →
        cell t r "CELL_B" = .scalar y → ∃ p q : Rat, ValueOf u c.t.cells "HEALTH" x (.num p) ∧
          ValueOf u c.t.cells "HEALTH" y (.num q) ∧ (1 ≤ f p → 1 ≤ f q → cell t r "STATUS" = .str "OK") ∧
          (f p ≤ 0 ∨ f q ≤ 0 → cell t r "STATUS" = .str "DROPPED") := by
  intro t ht
  obtain ⟨e1, e2, u, h1, h2, h3⟩ := C116_run hd h hw hg t ht
  refine ⟨e1, e2, u, h1, h2, fun r hr x y hx hy => ?_⟩
  obtain ⟨a, b, h4, h5, h6⟩ := h3 r hr
  obtain ⟨ha, h7, h8⟩ := h5 x hx
  obtain ⟨hb, h9, h10⟩ := h6 y hy
  obtain ⟨p, a', rfl, ea, k1, k2⟩ := replies_trigger hsem hm h8
  obtain ⟨q, b', rfl, eb, k3, k4⟩ := replies_trigger hsem hm h10
  cases ea
  cases eb
  refine ⟨p, q, h7, h9, fun i j => ?_, fun ij => ?_⟩
  · rw [h4, k2 i, k4 j]
    rfl
  · rw [h4]
    rcases ij with i | j
    · rw [k1 i]
      rfl
    · rw [k3 j, if_neg (by simp)]

end Cdr
end Trumania
