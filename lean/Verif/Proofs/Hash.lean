import Verif.Spec.Hash
import Verif.Props.Repeatable
import Verif.Proofs.Act

/-! The order of sets does not reach the results of the operations. -/

namespace Trumania
open Spec

/-! ### Related runs -/

section
variable {W α β : Type} {S : W → W → Prop} {P : α → α → Prop} {Q : β → β → Prop}

theorem Spec.SameRun.pure {a b : α} (h : P a b) : SameRun S P (pure a : Act W α) (pure b) :=
  fun _ _ hs => ⟨h, hs⟩

theorem Spec.SameRun.throw (e : Err) : SameRun S P (throw e : Act W α) (throw e) :=
  fun _ _ hs => ⟨rfl, hs⟩

theorem Spec.SameRun.bind {x y : Act W α} {f g : α → Act W β} (h : SameRun S P x y)
    (hf : ∀ a b, P a b → SameRun S Q (f a) (g b)) : SameRun S Q (x >>= f) (y >>= g) := by
  intro w1 w2 hs
  have hx := h w1 w2 hs
  simp only [Bind.bind, EStateM.bind]
  cases hx1 : x w1 with
  | ok a v1 =>
    cases hy1 : y w2 with
    | ok b v2 =>
      rw [hx1, hy1] at hx
      exact hf a b hx.1 v1 v2 hx.2
    | error e v2 => rw [hx1, hy1] at hx; exact hx.elim
  | error e v1 =>
    cases hy1 : y w2 with
    | ok b v2 => rw [hx1, hy1] at hx; exact hx.elim
    | error e v2 => rw [hx1, hy1] at hx; exact hx

theorem Spec.SameRun.ofPy {x y : Py α} (h : SameRes P x y) :
    SameRun S P (Act.ofPy x : Act W α) (Act.ofPy y) := by
  cases x <;> cases y <;> simp only [SameRes] at h
  · subst h; exact SameRun.throw _
  · exact SameRun.pure h

theorem Spec.SameRun.ofPy_eq {x y : Py α} (h : x = y) :
    SameRun S Eq (Act.ofPy x : Act W α) (Act.ofPy y) := SameRun.ofPy (SameRes.of_eq h)

theorem Spec.SameRun.mono {P' : α → α → Prop} {x y : Act W α} (h : SameRun S P x y)
    (hP : ∀ a b, P a b → P' a b) : SameRun S P' x y := by
  intro w1 w2 hs
  have := h w1 w2 hs
  revert this
  cases x w1 <;> cases y w2 <;> simp only [imp_self]
  exact fun h => ⟨hP _ _ h.1, h.2⟩

end

variable {σ γ : Type}

theorem sameRelations_iff {r1 r2 : Relationship σ} : SameRelations r1 r2 ↔ Same r1 r2 := by
  constructor
  · intro h
    exact ⟨h.seed, h.state, h.get, ⟨h.distinct1, h.aligned⟩,
      ⟨h.distinct2, fun f rs hf => h.aligned f rs (by rw [h.get]; exact hf)⟩⟩
  · intro h
    exact ⟨h.seed, h.state, h.get, h.wf1.wf, h.wf2.wf, h.wf1.len⟩

/-! ### Stories -/

namespace Story

theorem same_iff {s1 s2 : Story σ} : SameStory s1 s2 ↔
    s2 = { s1 with states := s2.states, params := s2.params } ∧ s1.states.Perm s2.states ∧
    s1.params.map Prod.fst = s2.params.map Prod.fst ∧
    ∀ id st, (s1.params.get? id).bind (·.get? st) = (s2.params.get? id).bind (·.get? st) := by
  constructor
  · intro h
    obtain ⟨n, p, i, t, a, j, st, pa, ti, f⟩ := s2
    refine ⟨?_, h.states, h.members, h.params⟩
    simp only [Story.mk.injEq, true_and]
    exact ⟨h.name.symm, h.population.symm, h.idField.symm, h.timerGen.symm, h.autoReset.symm,
      h.judge.symm, h.timer.symm, h.forced.symm⟩
  · rintro ⟨h1, h2, h3, h4⟩
    rw [h1]
    exact ⟨rfl, rfl, rfl, rfl, rfl, rfl, rfl, rfl, h2, h3, h4⟩

theorem same_refl (s : Story σ) : SameStory s s :=
  ⟨rfl, rfl, rfl, rfl, rfl, rfl, rfl, rfl, .refl _, rfl, fun _ _ => rfl⟩

theorem same_paramOf {s1 s2 : Story σ} (h : SameStory s1 s2) (id : Val) :
    s1.paramOf id = s2.paramOf id := by
  have hm : s1.params.get? id = none ↔ s2.params.get? id = none := by
    rw [Dict.get?_eq_none_iff, Dict.get?_eq_none_iff, Dict.keys, Dict.keys, h.members]
  have hp := h.params id
  rw [paramOf, paramOf, Dict.get, Dict.get, h.states.length_eq, row?, row?, h.timer]
  cases h1 : s1.params.get? id with
  | none => rw [hm.1 h1]
  | some d1 =>
    cases h2 : s2.params.get? id with
    | none => rw [hm.2 h2] at h1; cases h1
    | some d2 =>
      rw [h1, h2] at hp
      simp only [Option.bind_some] at hp
      simp only [bind_ok, Dict.get, hp]

theorem same_getParam {s1 s2 : Story σ} (h : SameStory s1 s2) (which : StateParams → Rat)
    (ids : List Val) : s1.getParam which ids = s2.getParam which ids := by
  rw [getParam, getParam]
  congr 1
  funext i
  rw [same_paramOf h]

theorem same_checkIds {s1 s2 : Story σ} (h : SameStory s1 s2) (ids : List Val) :
    s1.checkIds ids = s2.checkIds ids := by
  rw [checkIds, checkIds, Story.ids, Story.ids, h.timer]

theorem same_timer {s1 s2 : Story σ} (h : SameStory s1 s2) {t1 t2 : List TimerRow} (ht : t1 = t2)
    {f1 f2 : List Val} (hf : f1 = f2) :
    SameStory { s1 with timer := t1, forced := f1 } { s2 with timer := t2, forced := f2 } :=
  ⟨h.name, h.population, h.idField, h.timerGen, h.autoReset, h.judge, ht, hf, h.states, h.members,
    h.params⟩

theorem same_clearForced {s1 s2 : Story σ} (h : SameStory s1 s2) :
    SameStory s1.clearForced s2.clearForced := same_timer h h.timer rfl

theorem same_transitToState {s1 s2 : Story σ} (h : SameStory s1 s2) (ids states : List Val) :
    SameRes SameStory (s1.transitToState ids states) (s2.transitToState ids states) := by
  rw [transitToState, transitToState, same_checkIds h]
  refine SameRes.bind (SameRes.of_eq rfl) ?_
  rintro _ _ rfl
  split
  · rfl
  · exact same_timer h (by rw [h.timer]) h.forced

theorem same_minusForced {s1 s2 : Story σ} (h : SameStory s1 s2) (ids : List Val) :
    s1.minusForced ids = s2.minusForced ids := by
  rw [minusForced, minusForced, h.forced]

theorem same_timerTick {s1 s2 : Story σ} (h : SameStory s1 s2) (ids : List Val) :
    SameRes SameStory (s1.timerTick ids) (s2.timerTick ids) := by
  rw [timerTick, timerTick, same_minusForced h, same_checkIds h, h.forced]
  refine SameRes.bind (SameRes.of_eq rfl) ?_
  rintro _ _ rfl
  exact same_timer h (by rw [h.timer]) rfl

theorem same_forceActNext {s1 s2 : Story σ} (h : SameStory s1 s2) (ids : List Val) :
    SameRes SameStory (s1.forceActNext ids) (s2.forceActNext ids) := by
  rw [forceActNext, forceActNext]
  split
  · rw [same_checkIds h]
    refine SameRes.bind (SameRes.of_eq rfl) ?_
    rintro _ _ rfl
    exact same_timer h (by rw [h.timer]) (by rw [h.forced])
  · exact h

theorem same_maybeBackToDefault (R : Rng σ) {s1 s2 : Story σ} (h : SameStory s1 s2)
    (index : List Val) :
    SameRes SameStory (s1.maybeBackToDefault R index) (s2.maybeBackToDefault R index) := by
  have hn : s1.nonDefault index = s2.nonDefault index := by
    simp only [nonDefault, row?, h.timer]
  rw [maybeBackToDefault, maybeBackToDefault, same_checkIds h, hn]
  refine SameRes.bind (SameRes.of_eq rfl) ?_
  rintro _ _ rfl
  simp only
  split
  · exact h
  · rw [same_getParam h, h.judge]
    refine SameRes.bind (SameRes.of_eq rfl) ?_
    rintro probs _ rfl
    have hj : ∀ j : σ, SameStory { s1 with judge := j } { s2 with judge := j } := fun j =>
      ⟨h.name, h.population, h.idField, h.timerGen, h.autoReset, rfl,
        h.timer, h.forced, h.states, h.members, h.params⟩
    exact same_transitToState (hj _) _ _

theorem same_resetTimers {δ : Type} (observe : δ → List Cell → Py (List Cell × δ)) (g : δ)
    {s1 s2 : Story σ} (h : SameStory s1 s2) (ids : Option (List Val)) :
    SameRes (fun x y => SameStory x.1 y.1 ∧ x.2 = y.2) (s1.resetTimers observe g ids)
      (s2.resetTimers observe g ids) := by
  rw [resetTimers, resetTimers, Story.ids, Story.ids, h.timer, same_minusForced h]
  simp only
  split
  · exact ⟨h, rfl⟩
  · rw [same_getParam h]
    refine SameRes.bind (SameRes.of_eq rfl) ?_
    rintro activity _ rfl
    refine SameRes.bind (SameRes.of_eq rfl) ?_
    rintro ⟨vals, g⟩ _ rfl
    refine SameRes.bind (SameRes.of_eq rfl) ?_
    rintro timers _ rfl
    rw [same_checkIds h]
    refine SameRes.bind (SameRes.of_eq rfl) ?_
    rintro _ _ rfl
    split
    · rfl
    · exact ⟨same_timer h rfl h.forced, rfl⟩

end Story

namespace World

/-! ### Objects -/

theorem same_fetch {α : Type} {l : World σ γ → List α}
    (hl : ∀ w1 w2, SameWorld w1 w2 → l w1 = l w2) (i : Nat) :
    SameRun SameWorld Eq (fetch l i) (fetch l i) := by
  intro w1 w2 hs
  simp only [fetch, hl w1 w2 hs]
  cases (l w2)[i]? with
  | none => exact ⟨rfl, hs⟩
  | some a => exact ⟨rfl, hs⟩

theorem same_getGen (i : Nat) : SameRun SameWorld Eq (getGen i : Act (World σ γ) γ) (getGen i) :=
  same_fetch (fun _ _ h => by rw [gens, gens, h.clock]) i

theorem same_getPop (i : Nat) :
    SameRun SameWorld Eq (getPop i : Act (World σ γ) Population) (getPop i) :=
  same_fetch (fun _ _ h => h.pops) i

/-- related objects of two worlds -/
theorem same_fetch₂ {α : Type} {R : α → α → Prop} {l : World σ γ → List α}
    (hl : ∀ w1 w2, SameWorld w1 w2 → List.Forall₂ R (l w1) (l w2)) (i : Nat) :
    SameRun SameWorld R (fetch l i) (fetch l i) := by
  intro w1 w2 hs
  simp only [fetch]
  have hr := hl w1 w2 hs
  have hlen := hr.length_eq
  by_cases hi : i < (l w1).length
  · rw [List.getElem?_eq_getElem hi, List.getElem?_eq_getElem (hlen ▸ hi)]
    exact ⟨hr.get hi (hlen ▸ hi), hs⟩
  · rw [List.getElem?_eq_none (by omega), List.getElem?_eq_none (by omega)]
    exact ⟨rfl, hs⟩

theorem same_getStory (i : Nat) :
    SameRun SameWorld SameStory (getStory i : Act (World σ γ) (Story σ)) (getStory i) :=
  same_fetch₂ (fun _ _ h => h.stories) i

theorem same_getRel (i : Nat) :
    SameRun SameWorld Same (getRel i : Act (World σ γ) (Relationship σ)) (getRel i) :=
  (same_fetch₂ (fun _ _ h => h.rels) i).mono fun _ _ => sameRelations_iff.1

theorem same_setGen (i : Nat) (g : γ) :
    SameRun SameWorld Eq (setGen i g : Act (World σ γ) Unit) (setGen i g) := by
  intro w1 w2 hs
  exact ⟨rfl, ⟨by simp only [hs.clock], hs.seeder, hs.pops, hs.stories, hs.rels⟩⟩

theorem same_setPop (i : Nat) (p : Population) :
    SameRun SameWorld Eq (setPop i p : Act (World σ γ) Unit) (setPop i p) := by
  intro w1 w2 hs
  exact ⟨rfl, ⟨hs.clock, hs.seeder, by simp only [hs.pops], hs.stories, hs.rels⟩⟩

theorem forall₂_set_both {α β : Type} {R : α → β → Prop} : ∀ {l : List α} {m : List β} (i : Nat)
    {a : α} {b : β}, List.Forall₂ R l m → R a b → List.Forall₂ R (l.set i a) (m.set i b)
  | _, _, _, _, _, .nil, _ => .nil
  | _, _, 0, _, _, .cons _ h2, h => .cons h h2
  | _, _, i + 1, _, _, .cons h1 h2, h => .cons h1 (forall₂_set_both i h2 h)

theorem same_setRel (i : Nat) {r1 r2 : Relationship σ} (h : Same r1 r2) :
    SameRun SameWorld Eq (setRel i r1 : Act (World σ γ) Unit) (setRel i r2) := by
  intro w1 w2 hs
  exact ⟨rfl, ⟨hs.clock, hs.seeder, hs.pops, hs.stories,
    forall₂_set_both i hs.rels (sameRelations_iff.2 h)⟩⟩

theorem same_setStory (i : Nat) {s1 s2 : Story σ} (h : SameStory s1 s2) :
    SameRun SameWorld Eq (setStory i s1 : Act (World σ γ) Unit) (setStory i s2) := by
  intro w1 w2 hs
  exact ⟨rfl, ⟨hs.clock, hs.seeder, hs.pops, forall₂_set_both i hs.stories h, hs.rels⟩⟩

theorem same_onStory (i : Nat) {f1 f2 : Story σ → Py (Story σ)}
    (h : ∀ s1 s2, SameStory s1 s2 → SameRes SameStory (f1 s1) (f2 s2)) :
    SameRun SameWorld Eq (onStory i f1 : Act (World σ γ) Unit) (onStory i f2) := by
  refine (same_getStory i).bind fun s1 s2 hs => ?_
  refine (SameRun.ofPy (h s1 s2 hs)).bind fun t1 t2 ht => ?_
  exact same_setStory i ht

/-! ### Generators -/

variable {env1 env2 : Env σ γ}

theorem same_bulkLoop {f g : Rat → Act (World σ γ) (List Cell)}
    (h : ∀ n, SameRun SameWorld Eq (f n) (g n)) (obs : List Cell) :
    SameRun SameWorld Eq (bulkLoop f obs) (bulkLoop g obs) := by
  induction obs with
  | nil => exact SameRun.pure rfl
  | cons c cs ih =>
    refine (SameRun.ofPy_eq rfl).bind ?_
    rintro n _ rfl
    refine (h n).bind ?_
    rintro v _ rfl
    refine (SameRun.ofPy_eq rfl).bind ?_
    rintro vals _ rfl
    refine ih.bind ?_
    rintro rest _ rfl
    exact SameRun.pure rfl

theorem same_isArray (he : SameButSets env1 env2) (g : GenRef) :
    SameRun SameWorld Eq (isArray env1 g) (isArray env2 g) := by
  cases g with
  | ref i =>
    refine (same_getGen i).bind ?_
    rintro g _ rfl
    rw [he.sem]
    exact SameRun.pure rfl
  | constant v => exact SameRun.pure rfl
  | mapped g f => exact SameRun.pure rfl
  | mappedVect g f => exact SameRun.pure rfl
  | flatmapped g d => exact SameRun.pure rfl
  | bulk g => exact SameRun.pure rfl

theorem same_call (he : SameButSets env1 env2) (g : GenRef) :
    ∀ r, SameRun SameWorld Eq (call env1 g r) (call env2 g r) := by
  induction g with
  | constant v =>
    rintro (n | obs | ⟨a, obs⟩)
    · exact SameRun.pure rfl
    · exact SameRun.pure rfl
    · exact SameRun.throw _
  | ref i =>
    rintro (n | obs | ⟨a, obs⟩)
    · refine (same_getGen i).bind ?_
      rintro g _ rfl
      rw [he.sem]
      refine (SameRun.ofPy_eq rfl).bind ?_
      rintro ⟨v, g⟩ _ rfl
      refine (same_setGen i g).bind ?_
      rintro _ _ rfl
      exact SameRun.pure rfl
    · refine (same_getGen i).bind ?_
      rintro g _ rfl
      rw [he.sem]
      refine (SameRun.ofPy_eq rfl).bind ?_
      rintro ⟨v, g⟩ _ rfl
      refine (same_setGen i g).bind ?_
      rintro _ _ rfl
      exact SameRun.pure rfl
    · refine (same_getGen i).bind ?_
      rintro g _ rfl
      rw [he.sem]
      refine (SameRun.ofPy_eq rfl).bind ?_
      rintro _ _ rfl
      refine (SameRun.ofPy_eq rfl).bind ?_
      rintro ⟨v, g⟩ _ rfl
      refine (same_setGen i g).bind ?_
      rintro _ _ rfl
      exact SameRun.pure rfl
  | mapped g f ih =>
    rintro (n | obs | ⟨a, obs⟩)
    · refine (ih (.size n)).bind ?_
      rintro v _ rfl
      exact SameRun.ofPy_eq rfl
    · exact SameRun.throw _
    · exact SameRun.throw _
  | mappedVect g f ih =>
    rintro (n | obs | ⟨a, obs⟩)
    · refine (ih (.size n)).bind ?_
      rintro v _ rfl
      exact SameRun.ofPy_eq rfl
    · exact SameRun.throw _
    · exact SameRun.throw _
  | flatmapped g d ih ih2 =>
    rintro (n | obs | ⟨a, obs⟩)
    · refine (ih (.size n)).bind ?_
      rintro v _ rfl
      refine (same_isArray he g).bind ?_
      rintro a _ rfl
      exact ih2 _
    · exact SameRun.throw _
    · exact SameRun.throw _
  | bulk g ih =>
    rintro (n | obs | ⟨a, obs⟩)
    · exact SameRun.throw _
    · exact same_bulkLoop (fun n => ih (.size n)) obs
    · exact same_bulkLoop (fun n => ih (.size n)) obs

theorem same_resetStory (he : SameButSets env1 env2) {s1 s2 : Story σ} (hs : SameStory s1 s2)
    (ids : Option (List Val)) :
    SameRun SameWorld SameStory (resetStory env1 s1 ids) (resetStory env2 s2 ids) := by
  rw [resetStory.eq_def, resetStory.eq_def, hs.timerGen]
  split
  · refine (SameRun.ofPy (Story.same_resetTimers _ _ hs ids)).bind ?_
    rintro ⟨s, u⟩ ⟨s', u'⟩ ⟨h, -⟩
    exact SameRun.pure h
  · refine (same_getGen _).bind ?_
    rintro g _ rfl
    rw [he.sem]
    refine (SameRun.ofPy (Story.same_resetTimers _ _ hs ids)).bind ?_
    rintro ⟨s, g⟩ ⟨s', g'⟩ ⟨h, hg⟩
    simp only at h hg
    subst hg
    refine (same_setGen _ g).bind ?_
    rintro _ _ rfl
    exact SameRun.pure h
  · refine (SameRun.ofPy (Story.same_resetTimers _ _ hs ids)).bind ?_
    rintro ⟨s, u⟩ ⟨s', u'⟩ ⟨h, -⟩
    exact SameRun.pure h

theorem same_resetTimers (he : SameButSets env1 env2) (i : Nat) (ids : Option (List Val)) :
    SameRun SameWorld Eq (resetTimers env1 i ids) (resetTimers env2 i ids) := by
  refine (same_getStory i).bind fun s1 s2 hs => ?_
  refine (same_resetStory he hs ids).bind fun t1 t2 ht => ?_
  exact same_setStory i ht

end World

/-! ### Logs -/

theorem sameLogs_nil : SameLogs [] [] := ⟨List.nodup_nil, List.nodup_nil, fun _ => Iff.rfl⟩

theorem sameLogs_single (x : String × Frame) : SameLogs [x] [x] :=
  ⟨List.nodup_singleton _, List.nodup_singleton _, fun _ => Iff.rfl⟩

theorem sameLogs_get {l1 l2 : Logs} (h : SameLogs l1 l2) (id : String) :
    Dict.get? l1 id = Dict.get? l2 id := by
  cases h1 : Dict.get? l1 id with
  | some f => exact (Dict.get?_of_mem h.distinct2 ((h.mem _).1 (Dict.get?_mem h1))).symm
  | none =>
    cases h2 : Dict.get? l2 id with
    | none => rfl
    | some f =>
      rw [Dict.get?_of_mem h.distinct1 ((h.mem _).2 (Dict.get?_mem h2))] at h1
      cases h1

theorem sameLogs_of_get {l1 l2 : Logs} (h1 : (l1.map Prod.fst).Nodup) (h2 : (l2.map Prod.fst).Nodup)
    (h : ∀ id, Dict.get? l1 id = Dict.get? l2 id) : SameLogs l1 l2 := by
  refine ⟨h1, h2, ?_⟩
  rintro ⟨id, f⟩
  rw [← Dict.get?_eq_some_iff h1, ← Dict.get?_eq_some_iff h2, h]

/-- merging the logs, in whatever order -/
theorem sameLogs_merge (so1 so2 : SetOrder String) {a1 a2 b1 b2 : Logs} (ha : SameLogs a1 a2)
    (hb : SameLogs b1 b2) :
    SameRes SameLogs
      (merge_dicts so1 [a1, b1] (some fun d1 d2 => .ok (Frame.concat d1 d2)))
      (merge_dicts so2 [a2, b2] (some fun d1 d2 => .ok (Frame.concat d1 d2))) := by
  simp only [merge_dicts, merge_2_dicts, List.foldlM_cons, List.foldlM_nil]
  obtain ⟨a, e1, k1, g1⟩ := merge2_total so1 a1 b1 Frame.concat
  obtain ⟨b, e2, k2, g2⟩ := merge2_total so2 a2 b2 Frame.concat
  rw [e1, e2]
  refine sameLogs_of_get ?_ ?_ ?_
  · show (Dict.keys a).Nodup
    rw [k1]; exact so1.nodup _
  · show (Dict.keys b).Nodup
    rw [k2]; exact so2.nodup _
  · intro id
    rw [g1, g2, sameLogs_get ha, sameLogs_get hb]

/-- results of operations -/
def SameOut (x y : Frame × Logs) : Prop := x.1 = y.1 ∧ SameLogs x.2 y.2

/-! ### Operations -/

section
variable {W : Type} {S : W → W → Prop}

theorem same_sideEffect {e1 e2 : Frame → Act W Unit} {d : Frame}
    (h : SameRun S Eq (e1 d) (e2 d)) :
    SameRun S SameOut (Ops.sideEffect e1 d) (Ops.sideEffect e2 d) := by
  refine h.bind ?_
  rintro _ _ rfl
  exact SameRun.pure ⟨rfl, sameLogs_nil⟩

theorem same_addColumns {how : JoinKind} {b1 b2 : Frame → Act W Frame} {d : Frame}
    (h : SameRun S Eq (b1 d) (b2 d)) :
    SameRun S SameOut (Ops.addColumns how b1 d) (Ops.addColumns how b2 d) := by
  refine h.bind ?_
  rintro o _ rfl
  exact SameRun.pure ⟨rfl, sameLogs_nil⟩

theorem same_transform (f : Frame → Py Frame) (d : Frame) :
    SameRun S SameOut (Ops.transform f d : Act W _) (Ops.transform f d) := by
  refine (SameRun.ofPy_eq rfl).bind ?_
  rintro o _ rfl
  exact SameRun.pure ⟨rfl, sameLogs_nil⟩

end

variable {env1 env2 : Env σ γ}

theorem get?_select_all (e : Orders) (r : Relationship σ) (froms : List Val) (f : Val) :
    Dict.get? (r.select_all_horizontal e froms) f =
      if f ∈ froms ∧ pairsAt r.grouped f ≠ [] then some ((pairsAt r.grouped f).map Prod.fst)
      else none := by
  have hrows := get_relations_some_rowsOf e r froms f
  rw [Relationship.select_all_horizontal, get?_map_pair]
  have hmem : f ∈ (r.get_relations e (some froms)).map Prod.fst ↔
      rowsOf f (r.get_relations e (some froms)) ≠ [] := by
    rw [rowsOf, ne_eq, List.filter_eq_nil_iff, List.mem_map]
    constructor
    · rintro ⟨x, hx, rfl⟩ h
      exact h x hx (by simp)
    · intro h
      by_contra hc
      exact h fun x hx he => hc ⟨x, hx, of_decide_eq_true he⟩
  simp only [mem_uniq, hmem, hrows]
  by_cases hf : f ∈ froms
  · simp only [hf, if_true, true_and, ne_eq, List.map_eq_nil_iff]
    split
    · congr 1
      have := hrows
      rw [if_pos hf, rowsOf] at this
      rw [this, List.map_map]
      rfl
    · rfl
  · simp [hf]

theorem mergeLists_congr {d : Frame} {froms : List Val} {name : String}
    {s1 s2 : List (Val × List Val)} (h : ∀ f, Dict.get? s1 f = Dict.get? s2 f) :
    Ops.mergeLists d froms name s1 = Ops.mergeLists d froms name s2 := by
  simp only [Ops.mergeLists, h]

theorem same_getTimestamp (he : SameButSets env1 env2) (name : String) (random : Bool)
    (fmt : Int → Cell) (d : Frame) :
    SameRun SameWorld SameOut (Ops.timestamp env1 name random fmt d)
      (Ops.timestamp env2 name random fmt d) := by
  refine same_addColumns (S := SameWorld) ?_
  intro w1 w2 hs
  simp only [Bind.bind, EStateM.bind, get, getThe, MonadStateOf.get, EStateM.get, he.rng, hs.clock]
  cases w2.clock.getTimestamp env2.R d.rows.length random with
  | error e => exact ⟨rfl, hs⟩
  | ok x =>
    exact SameRun.ofPy_eq (S := SameWorld)
      (rfl : Frame.ofColumn d.index name (x.1.map fmt) = _)
      { w1 with clock := x.2 } { w2 with clock := x.2 }
      ⟨rfl, hs.seeder, hs.pops, hs.stories, hs.rels⟩

theorem same_onRel {rel : Nat} {f1 f2 : Relationship σ → Frame → Py (Relationship σ)} {d : Frame}
    (h : ∀ r1 r2, Same r1 r2 → SameRes Same (f1 r1 d) (f2 r2 d)) :
    SameRun SameWorld SameOut (Ops.onRel rel f1 d : Act (World σ γ) _) (Ops.onRel rel f2 d) := by
  refine same_sideEffect ?_
  split
  · exact SameRun.pure rfl
  · refine (World.same_getRel rel).bind fun r1 r2 hr => ?_
    refine (SameRun.ofPy (h r1 r2 hr)).bind fun r1 r2 hr => ?_
    exact World.same_setRel rel hr

theorem same_onAttribute (pop : Nat) (name : String) (f : Attribute → Py Attribute) :
    SameRun SameWorld Eq (Ops.onAttribute pop name f : Act (World σ γ) _)
      (Ops.onAttribute pop name f) := by
  refine (World.same_getPop pop).bind ?_
  rintro p _ rfl
  refine (SameRun.ofPy_eq rfl).bind ?_
  rintro a _ rfl
  refine (SameRun.ofPy_eq rfl).bind ?_
  rintro a _ rfl
  exact World.same_setPop pop _

theorem same_runOps (hs1 hs2 : SetOrder String) {ops : List (Op (World σ γ) × Op (World σ γ))}
    (h : ∀ x ∈ ops, ∀ d, SameRun SameWorld SameOut (x.1 d) (x.2 d)) :
    ∀ {a1 a2 : Frame × Logs}, SameOut a1 a2 →
      SameRun SameWorld SameOut (World.runOps hs1 a1 (ops.map Prod.fst))
        (World.runOps hs2 a2 (ops.map Prod.snd)) := by
  induction ops with
  | nil => exact fun ha => SameRun.pure ha
  | cons x ops ih =>
    rintro ⟨d1, l1⟩ ⟨d2, l2⟩ ⟨hd, hl⟩
    simp only at hd hl
    subst hd
    refine SameRun.bind (P := SameOut) ?_ fun b1 b2 hb =>
      ih (fun x hx => h x (List.mem_cons_of_mem _ hx)) hb
    refine (h x List.mem_cons_self d1).bind ?_
    rintro ⟨o1, s1⟩ ⟨o2, s2⟩ ⟨ho, hsupp⟩
    simp only at ho hsupp
    subst ho
    refine (SameRun.ofPy (sameLogs_merge hs1 hs2 hl hsupp)).bind fun m1 m2 hm => ?_
    exact SameRun.pure ⟨rfl, hm⟩

theorem same_chain (hs1 hs2 : SetOrder String) {ops : List (Env σ γ → Op (World σ γ))}
    (h : ∀ op ∈ ops, ∀ d, SameRun SameWorld SameOut (op env1 d) (op env2 d)) (d : Frame) :
    SameRun SameWorld SameOut (World.chain hs1 (ops.map (· env1)) d)
      (World.chain hs2 (ops.map (· env2)) d) := by
  have := same_runOps hs1 hs2 (ops := ops.map fun op => (op env1, op env2)) (by
    intro x hx d
    obtain ⟨op, hop, rfl⟩ := List.mem_map.1 hx
    exact h op hop d) (a1 := (d, [])) (a2 := (d, [])) ⟨rfl, sameLogs_nil⟩
  rw [List.map_map, List.map_map] at this
  exact this

theorem same_randomCells (he : SameButSets env1 env2) (g : GenRef) (q : Option String)
    (d : Frame) :
    SameRun SameWorld Eq (Ops.randomCells env1 g q d) (Ops.randomCells env2 g q d) := by
  cases q with
  | none => exact World.same_call he g _
  | some f =>
    refine (SameRun.ofPy_eq rfl).bind ?_
    rintro qties _ rfl
    refine (World.same_call he g _).bind ?_
    rintro flat _ rfl
    refine (SameRun.ofPy_eq rfl).bind ?_
    rintro vals _ rfl
    exact SameRun.pure rfl

theorem written_same (he : SameButSets env1 env2) {op : Env σ γ → Op (World σ γ)}
    (hop : Written op) :
    ∀ d, SameRun SameWorld SameOut (op env1 d) (op env2 d) := by
  induction hop with
  | randomValues g name q =>
    intro d
    refine same_addColumns ((same_randomCells he g q d).bind ?_)
    rintro v _ rfl
    exact SameRun.ofPy_eq rfl
  | randomValuesFromField g name observed =>
    intro d
    refine same_addColumns ((SameRun.ofPy_eq rfl).bind ?_)
    rintro obs _ rfl
    refine (World.same_call he g _).bind ?_
    rintro v _ rfl
    exact SameRun.ofPy_eq rfl
  | timestamp name random fmt => exact same_getTimestamp he name random fmt
  | neighbourhoodSize rel fromField name =>
    intro d
    refine same_addColumns ((SameRun.ofPy_eq rfl).bind ?_)
    rintro froms _ rfl
    refine (World.same_getRel rel).bind fun r1 r2 hr => ?_
    have : r1.get_neighbourhood_size froms = r2.get_neighbourhood_size froms := by
      simp only [Relationship.get_neighbourhood_size, hr.get]
    rw [this]
    exact SameRun.ofPy_eq rfl
  | applySeries sources name f => exact fun d => same_addColumns (SameRun.ofPy_eq rfl)
  | applyFrame sources namedAs f => exact fun d => same_addColumns (SameRun.ofPy_eq rfl)
  | fieldLogger logId cols exploded =>
    intro d
    refine (SameRun.ofPy_eq rfl).bind ?_
    rintro l _ rfl
    exact SameRun.pure ⟨rfl, sameLogs_single _⟩
  | dropRow field => exact same_transform _
  | selectOne rel f name o p dd weight =>
    intro d
    refine same_addColumns ((SameRun.ofPy_eq rfl).bind ?_)
    rintro froms _ rfl
    refine (World.same_getRel rel).bind fun r1 r2 hr => ?_
    rw [he.rng]
    refine (SameRun.ofPy (select_one_congr env2.R hr _ p dd o weight)).bind ?_
    rintro ⟨rows, s1⟩ ⟨_, s2⟩ ⟨hrow, hsm⟩
    simp only at hrow hsm
    subst hrow
    refine (World.same_setRel rel hsm).bind ?_
    rintro _ _ rfl
    exact SameRun.pure rfl
  | selectAll rel f name =>
    intro d
    refine (SameRun.ofPy_eq rfl).bind ?_
    rintro froms _ rfl
    refine (World.same_getRel rel).bind fun r1 r2 hr => ?_
    refine SameRun.pure ⟨mergeLists_congr fun k => ?_, sameLogs_nil⟩
    have : pairsAt r1.grouped k = pairsAt r2.grouped k := by rw [pairsAt, pairsAt, hr.get]
    rw [get?_select_all, get?_select_all, this]
  | selectMany rel f name q p dd =>
    intro d
    refine same_addColumns ((SameRun.ofPy_eq rfl).bind ?_)
    rintro froms _ rfl
    refine (SameRun.ofPy_eq rfl).bind ?_
    rintro qties _ rfl
    refine (World.same_getRel rel).bind fun r1 r2 hr => ?_
    rw [he.rng]
    refine (SameRun.ofPy (select_many_congr env2.R hr _ p dd)).bind ?_
    rintro ⟨rows, s1⟩ ⟨_, s2⟩ ⟨hrow, hsm⟩
    simp only at hrow hsm
    subst hrow
    refine (World.same_setRel rel hsm).bind ?_
    rintro _ _ rfl
    exact SameRun.pure rfl
  | relAdd rel f i =>
    intro d
    refine same_onRel fun r1 r2 hr => ?_
    refine SameRes.bind (SameRes.of_eq rfl) ?_
    rintro a _ rfl
    refine SameRes.bind (SameRes.of_eq rfl) ?_
    rintro b _ rfl
    exact add_relations_congr hr he.sort _ _ _
  | relAddGrouped rel f i =>
    intro d
    refine same_onRel fun r1 r2 hr => ?_
    refine SameRes.bind (SameRes.of_eq rfl) ?_
    rintro c _ rfl
    refine SameRes.bind (SameRes.of_eq rfl) ?_
    rintro b _ rfl
    refine SameRes.bind (SameRes.of_eq rfl) ?_
    rintro a _ rfl
    exact addCall_congr hr he.sort (.grouped a b)
  | relRemove rel f i =>
    intro d
    refine same_onRel fun r1 r2 hr => ?_
    refine SameRes.bind (SameRes.of_eq rfl) ?_
    rintro a _ rfl
    refine SameRes.bind (SameRes.of_eq rfl) ?_
    rintro b _ rfl
    rfl
  | attrUpdate pop name i c =>
    intro d
    refine same_sideEffect ?_
    split
    · exact SameRun.pure rfl
    · refine (SameRun.ofPy_eq rfl).bind ?_
      rintro _ _ rfl
      refine (SameRun.ofPy_eq rfl).bind ?_
      rintro _ _ rfl
      exact same_onAttribute pop name _
  | attrAdd pop name i a sub =>
    intro d
    refine same_sideEffect ?_
    split
    · exact SameRun.pure rfl
    · refine (SameRun.ofPy_eq rfl).bind ?_
      rintro _ _ rfl
      refine (SameRun.ofPy_eq rfl).bind ?_
      rintro _ _ rfl
      refine (SameRun.ofPy_eq rfl).bind ?_
      rintro _ _ rfl
      exact same_onAttribute pop name _
  | lookup pop i sel =>
    intro d
    refine same_addColumns ((World.same_getPop pop).bind ?_)
    rintro p _ rfl
    exact SameRun.ofPy_eq rfl
  | popUpdate pop i copy =>
    intro d
    refine same_sideEffect ((SameRun.ofPy_eq rfl).bind ?_)
    rintro f _ rfl
    refine (World.same_getPop pop).bind ?_
    rintro p _ rfl
    refine (SameRun.ofPy_eq rfl).bind ?_
    rintro p _ rfl
    exact World.same_setPop pop p
  | forceActNext story i cond =>
    intro d
    refine same_sideEffect ?_
    split
    · exact SameRun.pure rfl
    · refine (SameRun.ofPy_eq rfl).bind ?_
      rintro _ _ rfl
      refine (SameRun.ofPy_eq rfl).bind ?_
      rintro _ _ rfl
      exact World.same_onStory story fun s1 s2 hs => Story.same_forceActNext hs _
  | resetTimers story i =>
    intro d
    refine same_sideEffect ((SameRun.ofPy_eq rfl).bind ?_)
    rintro ids _ rfl
    exact World.same_resetTimers he story _
  | transitToState story i src cond =>
    intro d
    refine same_sideEffect ((SameRun.ofPy_eq rfl).bind ?_)
    rintro _ _ rfl
    refine (SameRun.ofPy_eq rfl).bind ?_
    rintro _ _ rfl
    exact World.same_onStory story fun s1 s2 hs => Story.same_transitToState hs _ _
  | maybeBackToDefault story =>
    intro d
    refine same_sideEffect ?_
    rw [he.rng]
    exact World.same_onStory story fun s1 s2 hs => Story.same_maybeBackToDefault _ hs _
  | chain ops h ih => exact same_chain _ _ ih

/-! ### Executions -/

namespace World

theorem same_reschedule (he : SameButSets env1 env2) (i : Nat) (active : List Val) :
    SameRun SameWorld Eq (reschedule env1 i active) (reschedule env2 i active) := by
  refine (same_getStory i).bind fun s1 s2 hs => ?_
  rw [hs.autoReset]
  split
  · exact same_resetTimers he i _
  · exact same_onStory i fun s1 s2 hs => Story.same_timerTick hs _

theorem same_execute (he : SameButSets env1 env2) {ops : List (Env σ γ → Op (World σ γ))}
    (h : ∀ op ∈ ops, Written op) (i : Nat) :
    SameRun SameWorld SameLogs (execute env1 (ops.map (· env1)) i)
      (execute env2 (ops.map (· env2)) i) := by
  refine (same_onStory i (f1 := fun s => .ok s.clearForced) (f2 := fun s => .ok s.clearForced)
    fun s1 s2 hs => Story.same_clearForced hs).bind ?_
  rintro _ _ rfl
  refine (same_getStory i).bind fun s1 s2 hs => ?_
  have hi : s1.inactiveIds = s2.inactiveIds := by
    rw [Story.inactiveIds, Story.inactiveIds, hs.timer]
  have ha : s1.activeIds = s2.activeIds := by rw [Story.activeIds, Story.activeIds, hs.timer]
  rw [hi, ha]
  refine SameRun.bind (P := SameLogs) ?_ ?_
  · rw [runActive, runActive, hs.idField]
    split
    · exact SameRun.pure sameLogs_nil
    · refine (same_chain _ _ (fun op hop => written_same he (h op hop)) _).bind ?_
      rintro ⟨o1, l1⟩ ⟨o2, l2⟩ ⟨-, hl⟩
      refine (same_reschedule he i _).bind ?_
      rintro _ _ rfl
      exact SameRun.pure hl
  · intro l1 l2 hl
    refine (same_onStory i fun s1 s2 hs => Story.same_timerTick hs _).bind ?_
    rintro _ _ rfl
    exact SameRun.pure hl

theorem same_tickClock (he : SameButSets env1 env2) {w1 w2 : World σ γ} (hs : SameWorld w1 w2) :
    SameWorld (tickClock env1 w1) (tickClock env2 w2) :=
  ⟨by simp only [tickClock, he.sem, hs.clock], hs.seeder, hs.pops, hs.stories, hs.rels⟩

end World

end Trumania
