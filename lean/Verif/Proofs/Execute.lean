import Verif.Proofs.Gen
import Verif.Proofs.Story

/-! Helper lemmas on the execution of stories. -/

namespace Trumania
namespace World
open Spec Story
variable {σ γ : Type} {env : Env σ γ}

/-- what a world is besides the stories and the states of the generators -/
structure SameRest (w w' : World σ γ) : Prop where
  date : w'.clock.current = w.clock.current
  step : w'.clock.step = w.clock.step
  clock : w'.clock.state = w.clock.state
  gens : w'.clock.listeners.length = w.clock.listeners.length
  seeder : w'.seeder = w.seeder
  rels : w'.rels = w.rels
  pops : w'.pops = w.pops

theorem SameRest.refl (w : World σ γ) : SameRest w w := ⟨rfl, rfl, rfl, rfl, rfl, rfl, rfl⟩

theorem SameRest.trans {a b c : World σ γ} (h : SameRest a b) (h' : SameRest b c) :
    SameRest a c :=
  ⟨h'.1.trans h.1, h'.2.trans h.2, h'.3.trans h.3, h'.4.trans h.4, h'.5.trans h.5,
    h'.6.trans h.6, h'.7.trans h.7⟩

theorem SameRest.stories (w : World σ γ) (l : List (Story σ)) :
    SameRest w { w with stories := l } := ⟨rfl, rfl, rfl, rfl, rfl, rfl, rfl⟩

theorem set_same {α : Type} {l : List α} {i : Nat} {a : α} (h : l[i]? = some a) :
    l.set i a = l := by
  obtain ⟨hi, rfl⟩ := List.getElem?_eq_some_iff.1 h
  exact List.set_getElem_self hi

theorem observe_ref {j : Nat} {obs : List Cell} {w w' : World σ γ} {cells : List Cell} :
    observe env (.ref j) obs w = .ok cells w' ↔
      ∃ a a', w.gens[j]? = some a ∧ env.sem.observe a obs = .ok (cells, a') ∧
        w' = { w with clock := { w.clock with listeners := w.clock.listeners.set j a' } } := by
  rw [observe, call]
  simp only [Act.bind_eq_ok, getGen_eq_ok, Act.ofPy_eq_ok, setGen_eq_ok, Act.pure_eq_ok]
  constructor
  · rintro ⟨a, _, ⟨h1, rfl⟩, ⟨v, a'⟩, _, ⟨h2, rfl⟩, h3⟩
    obtain ⟨_, _, rfl, rfl, rfl⟩ := h3
    exact ⟨a, a', h1, h2, rfl⟩
  · rintro ⟨a, a', h1, h2, rfl⟩
    exact ⟨a, _, ⟨h1, rfl⟩, (cells, a'), _, ⟨h2, rfl⟩, (), _, rfl, rfl, rfl⟩

theorem call_sameRest {g : GenRef} {q : Request} {w w' : World σ γ} {cells : List Cell}
    (h : call env g q w = .ok cells w') : w'.stories = w.stories ∧ SameRest w w' := by
  obtain ⟨l, hl, rfl⟩ := call_rest h
  exact ⟨rfl, rfl, rfl, rfl, hl, rfl, rfl, rfl⟩

theorem observe_stories {g : GenRef} {obs : List Cell} {w w' : World σ γ} {cells : List Cell}
    (h : observe env g obs w = .ok cells w') : w'.stories = w.stories ∧ SameRest w w' :=
  call_sameRest h

/-- a timer generator which cannot be given observations -/
theorem resetStory_rejected {s s' : Story σ} {ids? : Option (List Val)} {w w' : World σ γ}
    (h : (do
      let (s, _) ← Act.ofPy (s.resetTimers (fun _ _ => .error .typeError) () ids?)
      pure s : Act (World σ γ) (Story σ)) w = .ok s' w') :
    ∃ (δ : Type) (ob : δ → List Cell → Py (List Cell × δ)) (a a' : δ),
      s.resetTimers ob a ids? = .ok (s', a') ∧ w'.stories = w.stories ∧ SameRest w w' ∧
      (a' = a → w' = w) ∧
      (∀ obs cells, ob a obs = .ok (cells, a') → observe env s.timerGen obs w = .ok cells w') := by
  simp only [Act.bind_eq_ok, Act.ofPy_eq_ok] at h
  obtain ⟨⟨s1, u⟩, _, ⟨hr, rfl⟩, h⟩ := h
  simp only [Act.pure_eq_ok] at h
  obtain ⟨rfl, rfl⟩ := h
  refine ⟨_, _, _, _, hr, rfl, .refl _, fun _ => rfl, ?_⟩
  rintro obs cells ho
  cases ho

/-- a reset at the level of the world -/
theorem resetStory_ok {s s' : Story σ} {ids? : Option (List Val)} {w w' : World σ γ}
    (h : resetStory env s ids? w = .ok s' w') :
    w'.stories = w.stories ∧ SameRest w w' ∧
    s' = { s with timer := s'.timer } ∧ s'.ids = s.ids ∧
    (∀ id, (id ∉ ids?.getD s.ids ∨ id ∈ s.forced) → s'.row? id = s.row? id) ∧
    (∀ id, stateOf s' id = stateOf s id) ∧
    ((s.minusForced (ids?.getD s.ids) = [] ∧ s' = s ∧ w' = w) ∨
     ∃ ps cells ts, s.minusForced (ids?.getD s.ids) ≠ [] ∧
      (∀ i ∈ s.minusForced (ids?.getD s.ids), i ∈ s.ids) ∧
      List.Forall₂ (fun id p => paramsOf s id = some p) (s.minusForced (ids?.getD s.ids)) ps ∧
      observe env s.timerGen (ps.map fun p => .num p.activity) w = .ok cells w' ∧
      cells.mapM asTimer = .ok ts ∧ ts.length = (s.minusForced (ids?.getD s.ids)).length ∧
      (∀ id, id ∈ s.minusForced (ids?.getD s.ids) → ∃ (k : Nat) (p : StateParams) (t : Option Rat),
        (s.minusForced (ids?.getD s.ids))[k]? = some id ∧ ps[k]? = some p ∧ ts[k]? = some t ∧
        s'.row? id = (s.row? id).map ({ · with remaining := newTimer p t })) ∧
      ((s.minusForced (ids?.getD s.ids)).Nodup → ∀ (k : Nat) (id : Val) (p : StateParams)
        (t : Option Rat), (s.minusForced (ids?.getD s.ids))[k]? = some id → ps[k]? = some p →
        ts[k]? = some t → s'.row? id = (s.row? id).map ({ · with remaining := newTimer p t }))) := by
  suffices H : ∃ (δ : Type) (ob : δ → List Cell → Py (List Cell × δ)) (a a' : δ),
      s.resetTimers ob a ids? = .ok (s', a') ∧ w'.stories = w.stories ∧ SameRest w w' ∧
      (a' = a → w' = w) ∧
      (∀ obs cells, ob a obs = .ok (cells, a') → observe env s.timerGen obs w = .ok cells w') by
      obtain ⟨δ, ob, a, a', hr, hs, hrest, hw, hob⟩ := H
      obtain ⟨h1, h2, h3, h4⟩ := resetTimers_ok hr
      refine ⟨hs, hrest, h1, h2, h3, fun id => ?_, ?_⟩
      · rcases h4 with ⟨_, rfl, _⟩ | ⟨ps, cells, ts, _, _, _, _, _, _, hrow, _⟩
        · rfl
        · by_cases hm : id ∈ s.minusForced (ids?.getD s.ids)
          · obtain ⟨k, p, t, _, _, _, hr⟩ := hrow id hm
            rw [stateOf_eq, hr, stateOf_eq]
            cases s.row? id <;> rfl
          · have : id ∉ ids?.getD s.ids ∨ id ∈ s.forced := by
              rw [mem_minusForced] at hm
              by_cases hx : id ∈ ids?.getD s.ids
              · exact .inr (by by_contra hf; exact hm ⟨hx, hf⟩)
              · exact .inl hx
            rw [stateOf_eq, h3 id this, stateOf_eq]
      · rcases h4 with ⟨hl, hs', hg⟩ | ⟨ps, cells, ts, hl, hc, hp, ho, ht, hrest⟩
        · exact .inl ⟨hl, hs', hw hg⟩
        · exact .inr ⟨ps, cells, ts, hl, hc, hp, hob _ _ ho, ht, hrest⟩
  cases hv : s.timerGen with
  | constant v =>
    simp only [resetStory, hv, Act.bind_eq_ok, Act.ofPy_eq_ok] at h
    obtain ⟨⟨s1, u⟩, _, ⟨hr, rfl⟩, h⟩ := h
    simp only [Act.pure_eq_ok] at h
    obtain ⟨rfl, rfl⟩ := h
    refine ⟨_, _, _, _, hr, rfl, .refl _, fun _ => rfl, ?_⟩
    rintro obs cells ho
    cases ho
    rfl
  | ref j =>
    simp only [resetStory, hv, Act.bind_eq_ok, Act.ofPy_eq_ok, getGen_eq_ok] at h
    obtain ⟨a, _, ⟨hg, rfl⟩, ⟨s1, a'⟩, _, ⟨hr, rfl⟩, h⟩ := h
    obtain ⟨_, _, h3, h4⟩ := h
    cases setGen_eq_ok.1 h3
    obtain ⟨rfl, rfl⟩ := Act.pure_eq_ok.1 h4
    refine ⟨_, _, _, _, hr, rfl, ⟨rfl, rfl, rfl, by simp, rfl, rfl, rfl⟩, ?_, ?_⟩
    · intro he
      have : w.clock.listeners.set j a = w.clock.listeners := set_same hg
      rw [he, this]
    · intro obs cells ho
      rw [observe_ref]
      exact ⟨a, a', hg, ho, rfl⟩
  | mapped g f => simp only [resetStory, hv] at h; rw [← hv]; exact resetStory_rejected h
  | mappedVect g f => simp only [resetStory, hv] at h; rw [← hv]; exact resetStory_rejected h
  | flatmapped g f => simp only [resetStory, hv] at h; rw [← hv]; exact resetStory_rejected h
  | bulk g => simp only [resetStory, hv] at h; rw [← hv]; exact resetStory_rejected h

theorem resetTimers_eq_ok {i : Nat} {ids? : Option (List Val)} {w w' : World σ γ} {u : Unit} :
    resetTimers env i ids? w = .ok u w' ↔ ∃ s s' w1, w.stories[i]? = some s ∧
      resetStory env s ids? w = .ok s' w1 ∧ w' = { w1 with stories := w1.stories.set i s' } := by
  simp only [resetTimers, Act.bind_eq_ok, getStory_eq_ok, setStory_eq_ok]
  constructor
  · rintro ⟨s, _, ⟨h1, rfl⟩, s', w1, h2, rfl⟩
    exact ⟨s, s', w1, h1, h2, rfl⟩
  · rintro ⟨s, s', w1, h1, h2, rfl⟩
    exact ⟨s, _, ⟨h1, rfl⟩, s', w1, h2, rfl⟩

theorem Forall₂_get {α β : Type} {R : α → β → Prop} {l : List α} {m : List β}
    (h : List.Forall₂ R l m) {k : Nat} {a : α} {b : β} (ha : l[k]? = some a) (hb : m[k]? = some b) :
    R a b := by
  induction h generalizing k with
  | nil => simp at ha
  | cons hr _ ih =>
    cases k with
    | zero => simp at ha hb; subst ha; subst hb; exact hr
    | succ k => simp at ha hb; exact ih ha hb

theorem asTimer_spec {c : Cell} {t : Option Rat} (h : asTimer c = .ok t) :
    (∃ q, c = .scalar (.num q) ∧ t = some q) ∨ (c = .scalar .na ∧ t = none) := by
  unfold asTimer at h
  split at h
  · cases h; exact .inl ⟨_, rfl, rfl⟩
  · cases h; exact .inr ⟨rfl, rfl⟩
  · cases h

/-- the specification of a reset -/
theorem rescheduled_of {w w' : World σ γ} {s : Story σ} {l : List Val} {ps : List StateParams}
    {cells : List Cell} {ts : List (Option Rat)} {timer : Val → Option (Option Rat)}
    (hp : List.Forall₂ (fun id p => paramsOf s id = some p) l ps)
    (ho : observe env s.timerGen (ps.map fun p => .num p.activity) w = .ok cells w')
    (ht : cells.mapM asTimer = .ok ts) (hl : ts.length = l.length)
    (hval : ∀ (k : Nat) (id : Val) (p : StateParams) (t : Option Rat), l[k]? = some id →
      ps[k]? = some p → ts[k]? = some t → timer id = some (newTimer p t)) :
    Rescheduled env w s l timer w' := by
  have h2 := mapM_ok_iff.1 ht
  refine ⟨ps, cells, hp, ho, by rw [← hl, h2.length_eq], fun k id p c h1 hpk hc => ?_⟩
  obtain ⟨t, htk⟩ : ∃ t, ts[k]? = some t := by
    have : k < cells.length := (List.getElem?_eq_some_iff.1 hc).1
    exact ⟨_, List.getElem?_eq_getElem (by rw [← h2.length_eq]; exact this)⟩
  have := hval k id p t h1 hpk htk
  constructor
  · intro h0; rw [this, newTimer, if_neg (by simpa using h0)]
  · intro h0
    rw [newTimer, if_pos h0] at this
    rcases asTimer_spec (Forall₂_get h2 hc htk) with ⟨q, rfl, rfl⟩ | ⟨rfl, rfl⟩
    · exact .inl ⟨q, rfl, this⟩
    · exact .inr ⟨rfl, this⟩

/-- everything about one execution -/
theorem execute_ok {ops : List (Op (World σ γ))} {i : Nat} {w w' : World σ γ} {logs : Logs}
    (h : execute env ops i w = .ok logs w') :
    ∃ s w1 s1 s', w.stories[i]? = some s ∧ AfterOps env ops i w logs w1 ∧
      w1.stories[i]? = some s1 ∧ w'.stories = w1.stories.set i s' ∧ SameRest w1 w' ∧
      s' = { s1 with timer := s'.timer } ∧ s'.ids = s1.ids ∧
      (∀ id, stateOf s' id = stateOf s1 id) ∧
      (∀ id, id ∈ s1.forced → s'.row? id = s1.row? id) ∧
      (s.ids.Nodup →
        (∀ id, id ∉ s.ids → s'.row? id = s1.row? id) ∧
        (∀ id, id ∈ s.ids → id ∉ s1.forced → id ∈ s1.ids) ∧
        (∀ id, id ∈ s.ids → ¬Acts s id → id ∉ s1.forced →
          s'.row? id = (s1.row? id).map tickedRow) ∧
        (∀ id, Acts s id → id ∉ s1.forced → s1.autoReset = false →
          s'.row? id = (s1.row? id).map tickedRow) ∧
        (s1.autoReset = true → s1.minusForced s.activeIds ≠ [] →
          ∃ w2, Rescheduled env w1 s1 (s1.minusForced s.activeIds) (timerOf s') w2)) := by
  have clr : ∀ s : Story σ, s.clearForced.activeIds = s.activeIds ∧
      s.clearForced.inactiveIds = s.inactiveIds ∧ s.clearForced.idField = s.idField :=
    fun s => ⟨rfl, rfl, rfl⟩
  simp only [execute, Act.bind_eq_ok, onStory_eq_ok, getStory_eq_ok, Act.pure_eq_ok] at h
  obtain ⟨_, _, ⟨s, _, hs, h1, rfl⟩, _, _, ⟨hs0, rfl⟩, lg, w2, hrun, _, _,
    ⟨s2, s', hs2, htick, rfl⟩, rfl, rfl⟩ := h
  cases h1
  rw [List.getElem?_set_self (List.getElem?_eq_some_iff.1 hs).1] at hs0
  cases hs0
  rw [(clr s).1] at hrun
  rw [(clr s).2.1] at htick
  obtain ⟨t1, t2, t3, t4⟩ := timerTick_ok htick
  have hst : ∀ id, stateOf s' id = stateOf s2 id := by
    intro id
    rw [stateOf_eq, t4, stateOf_eq]
    split
    · cases s2.row? id <;> rfl
    · rfl
  have hinact : s.ids.Nodup → ∀ id, id ∈ s.inactiveIds ↔ id ∈ s.ids ∧ ¬Acts s id := by
    intro hnd id
    rw [mem_inactiveIds hnd, acts_iff, mem_activeIds hnd]
  rw [runActive] at hrun
  split at hrun
  · rename_i hact
    rw [Act.pure_eq_ok] at hrun
    obtain ⟨rfl, rfl⟩ := hrun
    refine ⟨s, _, s2, s', hs, ⟨s, hs, .inl ⟨actingRows_eq_nil.2 hact, rfl, rfl⟩⟩, hs2, rfl,
      .stories _ _, t2, t3, hst, fun id hid => ?_, fun hnd => ?_⟩
    · rw [t4, if_neg (fun h => h.2 hid)]
    have hno : ∀ id, ¬Acts s id := by intro id; rw [acts_iff, hact]; simp
    refine ⟨fun id hid => ?_, fun id hid hf => ?_, fun id hid hna hf => ?_, fun id ha => ?_,
      fun _ hne => ?_⟩
    · rw [t4, if_neg (fun h => hid ((hinact hnd id).1 h.1).1)]
    · exact t1 id ((hinact hnd id).2 ⟨hid, hno id⟩) hf
    · rw [t4, if_pos ⟨(hinact hnd id).2 ⟨hid, hna⟩, hf⟩]
    · exact absurd ha (hno id)
    · refine absurd (List.eq_nil_iff_forall_not_mem.2 fun a ha => ?_) hne
      rw [mem_minusForced, hact] at ha
      simp at ha
  · rename_i hact
    simp only [Act.bind_eq_ok] at hrun
    obtain ⟨⟨fr, lg'⟩, w1, hchain, hrun⟩ := hrun
    simp only [Act.bind_eq_ok, reschedule, Act.pure_eq_ok, getStory_eq_ok] at hrun
    obtain ⟨_, w2', ⟨s1, _, ⟨hs1, rfl⟩, hre⟩, rfl, rfl⟩ := hrun
    have hafter : AfterOps env ops i w lg' w1 := by
      refine ⟨s, hs, .inr ⟨fun h => hact (actingRows_eq_nil.1 h), fr, ?_⟩⟩
      rw [← initStoryData_eq]
      exact hchain
    have hi1 := (List.getElem?_eq_some_iff.1 hs1).1
    split at hre
    · rename_i hauto
      obtain ⟨s1', s2', w3, h1, h2, h3⟩ := resetTimers_eq_ok.1 hre
      rw [hs1] at h1; cases h1
      obtain ⟨r1, r2, r3, r4, r5, r6, r7⟩ := resetStory_ok h2
      subst h3
      obtain rfl : s2' = s2 := by simpa [r1, List.getElem?_set_self hi1] using hs2
      have hforced : s2'.forced = s1.forced := by rw [r3]
      refine ⟨s, w1, s1, s', hs, hafter, hs1, by simp [r1], r2.trans ⟨rfl, rfl, rfl, rfl, rfl, rfl, rfl⟩,
        ?_, t3.trans r4, fun id => (hst id).trans (r6 id), fun id hid => ?_, fun hnd => ?_⟩
      · rw [t2, r3]
      · rw [t4, if_neg (fun h => h.2 (hforced ▸ hid)), r5 id (.inr hid)]
      refine ⟨fun id hid => ?_, fun id hid hf => ?_, fun id hid hna hf => ?_,
        fun id _ _ ha => ?_, fun _ hne => ?_⟩
      · rw [t4, if_neg (fun h => hid ((hinact hnd id).1 h.1).1), r5]
        left
        intro ha
        exact hid (List.map_subset _ (List.filter_subset_self _) ha)
      · rw [← r4]
        by_cases ha : Acts s id
        · rcases r7 with ⟨hnil, -⟩ | ⟨_, _, _, _, hmem, -⟩
          · have : id ∈ s1.minusForced ((some s.activeIds).getD s1.ids) :=
              mem_minusForced.2 ⟨acts_iff.1 ha, hf⟩
            rw [hnil] at this; simp at this
          · rw [r4]
            exact hmem id (mem_minusForced.2 ⟨acts_iff.1 ha, hf⟩)
        · exact t1 id ((hinact hnd id).2 ⟨hid, ha⟩) (hforced ▸ hf)
      · rw [t4, if_pos ⟨(hinact hnd id).2 ⟨hid, hna⟩, hforced ▸ hf⟩, r5 id (.inl ?_)]
        intro ha; exact hna (acts_iff.2 ha)
      · rw [hauto] at ha; cases ha
      · rcases r7 with ⟨hnil, -⟩ | ⟨ps, cells, ts, _, hmem, hps, hob, hts, hlen, -, hval⟩
        · exact absurd hnil hne
        · refine ⟨w3, rescheduled_of hps hob hts hlen fun k id p t k1 k2 k3 => ?_⟩
          have hv := hval (minusForced_nodup (activeIds_nodup hnd)) k id p t k1 k2 k3
          have hin : id ∈ s1.minusForced ((some s.activeIds).getD s1.ids) :=
            List.mem_of_getElem? k1
          have hni : id ∉ s.inactiveIds := by
            rw [hinact hnd]
            rintro ⟨_, hna⟩
            exact hna (acts_iff.2 (mem_minusForced.1 hin).1)
          rw [timerOf_eq, t4, if_neg (fun h => hni h.1), hv]
          obtain ⟨r, hr⟩ := exists_row? (hmem id hin)
          rw [hr]; rfl
    · rename_i hauto
      obtain ⟨s1', s2', h1, h2, h3⟩ := onStory_eq_ok.1 hre
      rw [hs1] at h1; cases h1
      obtain ⟨u1, u2, u3, u4⟩ := timerTick_ok h2
      subst h3
      obtain rfl : s2' = s2 := by simpa [List.getElem?_set_self hi1] using hs2
      have hforced : s2'.forced = s1.forced := by rw [u2]
      have hst1 : ∀ id, stateOf s2' id = stateOf s1 id := by
        intro id
        rw [stateOf_eq, u4, stateOf_eq]
        split
        · cases s1.row? id <;> rfl
        · rfl
      refine ⟨s, w1, s1, s', hs, hafter, hs1, by simp, ⟨rfl, rfl, rfl, rfl, rfl, rfl, rfl⟩,
        ?_, t3.trans u3, fun id => (hst id).trans (hst1 id), fun id hid => ?_, fun hnd => ?_⟩
      · rw [t2, u2]
      · rw [t4, if_neg (fun h => h.2 (hforced ▸ hid)), u4, if_neg (fun h => h.2 hid)]
      refine ⟨fun id hid => ?_, fun id hid hf => ?_, fun id hid hna hf => ?_,
        fun id ha hf _ => ?_, fun hx => absurd hx hauto⟩
      · rw [t4, if_neg (fun h => hid ((hinact hnd id).1 h.1).1), u4, if_neg]
        rintro ⟨ha, -⟩
        exact hid (List.map_subset _ (List.filter_subset_self _) ha)
      · by_cases ha : Acts s id
        · exact u1 id (acts_iff.1 ha) hf
        · rw [← u3]
          exact t1 id ((hinact hnd id).2 ⟨hid, ha⟩) (hforced ▸ hf)
      · rw [t4, if_pos ⟨(hinact hnd id).2 ⟨hid, hna⟩, hforced ▸ hf⟩, u4, if_neg]
        rintro ⟨ha, -⟩
        exact hna (acts_iff.2 ha)
      · rw [t4, if_neg, u4, if_pos ⟨acts_iff.1 ha, hf⟩]
        rintro ⟨hx, -⟩
        exact ((hinact hnd id).1 hx).2 ha

end World
end Trumania
