import Verif.Proofs.Typed

/-! Helper lemmas: the methods of well-formed stories never raise. -/

namespace Trumania
open Spec World Story
variable {σ γ : Type} {env : Env σ γ} {S : Sig γ} {K : StoryKind}

namespace Spec.StoryFits
variable {s s' : Story σ}

theorem mem_ids (h : StoryFits env S K s) {l : List Val} (hl : ∀ i ∈ l, K.members i) :
    ∀ i ∈ l, i ∈ s.ids := fun i hi => (h.members i).2 (hl i hi)

/-- a change of the timers, states, forced members or of the judge -/
theorem change (h : StoryFits env S K s) (hp : s'.params = s.params) (hg : s'.timerGen = s.timerGen)
    (hf : s'.idField = s.idField) (hid : s'.ids = s.ids)
    (hst : ∀ id r', s'.row? id = some r' → K.states r'.state) : StoryFits env S K s' := by
  refine ⟨by rw [hid]; exact h.nodup, fun v => by rw [hid]; exact h.members v, h.default, ?_, ?_, hf.trans h.idField, ?_, ?_⟩
  · intro r hr
    exact hst r.id r (row?_of_mem (by rw [hid]; exact h.nodup) hr)
  · rw [hp]; exact h.params
  · rw [hg]; exact h.direct
  · rw [hg]; exact h.timers

theorem row_state (h : StoryFits env S K s) {id : Val} {r : TimerRow} (hr : s.row? id = some r) :
    K.states r.state := h.states r (row?_mem hr)

theorem clearForced (h : StoryFits env S K s) : StoryFits env S K s.clearForced :=
  h.change rfl rfl rfl rfl fun _ _ hr => h.row_state (s := s) hr

theorem timerTick (h : StoryFits env S K s) {l : List Val} (hl : ∀ i ∈ l, K.members i) :
    ∃ s', s.timerTick l = .ok s' ∧ StoryFits env S K s' := by
  obtain ⟨s', hs⟩ := timerTick_total (s := s) fun i hi _ => h.mem_ids hl i hi
  obtain ⟨-, he, hid, hrow⟩ := timerTick_ok hs
  refine ⟨s', hs, h.change (by rw [he]) (by rw [he]) (by rw [he]) hid ?_⟩
  intro id r' hr'
  rw [hrow] at hr'
  split at hr'
  · obtain ⟨r, hr, rfl⟩ := Option.map_eq_some_iff.1 hr'
    have := h.row_state hr
    exact this
  · exact h.row_state hr'

theorem forceActNext (h : StoryFits env S K s) {l : List Val} (hl : ∀ i ∈ l, K.members i) :
    ∃ s', s.forceActNext l = .ok s' ∧ StoryFits env S K s' := by
  have : ∃ s', s.forceActNext l = .ok s' := by
    rw [Story.forceActNext]
    split
    · rw [checkIds_eq_ok (u := ()) |>.2 (h.mem_ids hl)]
      exact ⟨_, rfl⟩
    · exact ⟨_, rfl⟩
  obtain ⟨s', hs⟩ := this
  obtain ⟨-, he, hid, -, hrow⟩ := forceActNext_ok hs
  refine ⟨s', hs, h.change (by rw [he]) (by rw [he]) (by rw [he]) hid ?_⟩
  intro id r' hr'
  rw [hrow] at hr'
  split at hr'
  · obtain ⟨r, hr, rfl⟩ := Option.map_eq_some_iff.1 hr'
    have := h.row_state hr
    exact this
  · exact h.row_state hr'

theorem transitToState (h : StoryFits env S K s) {l st : List Val} (hl : ∀ i ∈ l, K.members i)
    (hlen : st.length = l.length) (hst : ∀ x ∈ st, K.states x) :
    ∃ s', s.transitToState l st = .ok s' ∧ StoryFits env S K s' := by
  obtain ⟨s', hs⟩ := transitToState_total (h.mem_ids hl) hlen
  obtain ⟨-, -, he, hid, hout, hin, -⟩ := transitToState_ok hs
  refine ⟨s', hs, h.change (by rw [he]) (by rw [he]) (by rw [he]) hid ?_⟩
  intro id r' hr'
  by_cases hm : id ∈ l
  · obtain ⟨k, v, -, hv, hrow⟩ := hin id hm
    rw [hrow] at hr'
    obtain ⟨r, hr, rfl⟩ := Option.map_eq_some_iff.1 hr'
    exact hst v (List.mem_of_getElem? hv)
  · rw [hout id hm] at hr'
    exact h.row_state hr'

theorem paramsOf (h : StoryFits env S K s) {id : Val} (hm : K.members id) :
    ∃ p, Spec.paramsOf s id = some p := by
  obtain ⟨r, hr⟩ := exists_row? ((h.members id).2 hm)
  obtain ⟨d, p, hd, hp⟩ := h.params id (if s.states.length = 1 then .str "default" else r.state) hm (by
    split
    · exact h.default
    · exact h.row_state hr)
  refine ⟨p, ?_⟩
  rw [Spec.paramsOf, hd, stateOf_eq, hr]
  exact hp

theorem getParam (h : StoryFits env S K s) (which : StateParams → Rat) {l : List Val}
    (hl : ∀ i ∈ l, K.members i) : ∃ a, s.getParam which l = .ok a ∧ a.length = l.length := by
  have : ∃ ps, List.Forall₂ (fun id p => Spec.paramsOf s id = some p) l ps := by
    induction l with
    | nil => exact ⟨[], .nil⟩
    | cons i l ih =>
      obtain ⟨p, hp⟩ := h.paramsOf (hl i (by simp))
      obtain ⟨ps, hps⟩ := ih fun i hi => hl i (by simp [hi])
      exact ⟨p :: ps, .cons hp hps⟩
  obtain ⟨ps, hps⟩ := this
  exact ⟨_, (getParam_eq_ok (h.mem_ids hl)).2 ⟨ps, hps, rfl⟩, by simp [hps.length_eq]⟩

theorem maybeBackToDefault (h : StoryFits env S K s) {l : List Val} (hl : ∀ i ∈ l, K.members i) :
    ∃ s', s.maybeBackToDefault env.R l = .ok s' ∧ StoryFits env S K s' := by
  have : ∃ s', s.maybeBackToDefault env.R l = .ok s' := by
    rw [Story.maybeBackToDefault, checkIds_eq_ok (u := ()) |>.2 (h.mem_ids hl)]
    simp only [bind, Except.bind]
    split
    · exact ⟨_, rfl⟩
    · have hsub : ∀ i ∈ s.nonDefault l, K.members i := fun i hi => hl i (List.mem_of_mem_filter hi)
      obtain ⟨a, ha, -⟩ := h.getParam (·.back) hsub
      rw [ha]
      apply transitToState_total
      · intro i hi
        obtain ⟨x, hx, rfl⟩ := List.mem_map.1 hi
        exact h.mem_ids hsub x.1 (List.of_mem_zip (List.mem_of_mem_filter hx)).1
      · simp
  obtain ⟨s', hs⟩ := this
  obtain ⟨he, hid, -, hrow⟩ := maybeBackToDefault_ok hs
  refine ⟨s', hs, h.change (by rw [he]) (by rw [he]) (by rw [he]) hid ?_⟩
  intro id r' hr'
  rcases hrow with ⟨-, rfl⟩ | ⟨ps, -, -, -, hrow⟩
  · exact h.row_state hr'
  · rw [hrow] at hr'
    split at hr'
    · obtain ⟨r, hr, rfl⟩ := Option.map_eq_some_iff.1 hr'
      exact h.default
    · exact h.row_state hr'

theorem asTimers {cells : List Cell} (h : ∀ c ∈ cells, IsAmount c) :
    ∃ ts, cells.mapM asTimer = .ok ts ∧ ts.length = cells.length := by
  obtain ⟨ts, hts⟩ := mapM_isOk (f := asTimer) (l := cells) fun c hc => by
    rcases h c hc with rfl | ⟨q, rfl⟩
    · exact ⟨none, rfl⟩
    · exact ⟨some q, rfl⟩
  exact ⟨ts, hts, (mapM_ok_iff.1 hts).length_eq.symm⟩

/-- a reset whose generator answers -/
theorem resetTimers {δ : Type} (h : StoryFits env S K s) {observe : δ → List Cell → Py (List Cell × δ)}
    {g : δ} {I : δ → Prop} (hI : I g)
    (ho : ∀ obs : List Cell, (∀ c ∈ obs, ∃ q, c = .scalar (.num q)) →
      ∃ cells g', observe g obs = .ok (cells, g') ∧ I g' ∧ cells.length = obs.length ∧
        ∀ c ∈ cells, IsAmount c)
    {ids : Option (List Val)} (hl : ∀ l, ids = some l → ∀ i ∈ l, K.members i) :
    ∃ s' g', s.resetTimers observe g ids = .ok (s', g') ∧ StoryFits env S K s' ∧ I g' := by
  have hsub : ∀ i ∈ s.minusForced (ids.getD s.ids), K.members i := by
    intro i hi
    have := (mem_minusForced.1 hi).1
    cases ids with
    | none => exact (h.members i).1 this
    | some l => exact hl l rfl i this
  have : ∃ s' g', s.resetTimers observe g ids = .ok (s', g') ∧ I g' := by
    rw [Story.resetTimers]
    generalize s.minusForced (ids.getD s.ids) = l at hsub
    simp only
    split
    · exact ⟨_, _, rfl, hI⟩
    · obtain ⟨a, ha, hla⟩ := h.getParam (·.activity) hsub
      obtain ⟨cells, g', h1, h2, h3, h4⟩ := ho (a.map Cell.num) fun c hc => by
        obtain ⟨q, -, rfl⟩ := List.mem_map.1 hc
        exact ⟨q, rfl⟩
      obtain ⟨ts, h5, h6⟩ := asTimers h4
      refine ⟨{ s with timer := (assignTimers s.timer
          (l.zip (List.zipWith (fun a t => if a ≠ 0 then t else some (-1)) a ts))) }, g', ?_, h2⟩
      have hlen : ts.length = l.length := by rw [h6, h3, List.length_map, hla]
      rw [ha, checkIds_eq_ok (u := ()) |>.2 (h.mem_ids hsub)]
      simp only [bind, Except.bind]
      rw [h1]
      simp only
      rw [h5]
      simp only [ne_eq, hlen, not_true_eq_false, if_false]
  obtain ⟨s', g', hs, hg⟩ := this
  refine ⟨s', g', hs, ?_, hg⟩
  obtain ⟨he, hid, hout, hcase⟩ := resetTimers_ok hs
  refine h.change (by rw [he]) (by rw [he]) (by rw [he]) hid ?_
  intro id r' hr'
  rcases hcase with ⟨-, rfl, -⟩ | ⟨ps, cells, ts, -, -, -, -, -, -, hin, -⟩
  · exact h.row_state hr'
  · by_cases hm : id ∈ s.minusForced (ids.getD s.ids)
    · obtain ⟨k, p, t, -, -, -, hrow⟩ := hin id hm
      rw [hrow] at hr'
      obtain ⟨r, hr, rfl⟩ := Option.map_eq_some_iff.1 hr'
      have := h.row_state hr
      exact this
    · rw [hout id (by
        by_contra hc
        rw [not_or, not_not] at hc
        exact hm (mem_minusForced.2 hc))] at hr'
      exact h.row_state hr'

/-- `reset_timers` on a story of a well-formed circus -/
theorem resetStory (h : StoryFits env S K s) {w : World σ γ} (hw : Fits env S w)
    {ids : Option (List Val)} (hl : ∀ l, ids = some l → ∀ i ∈ l, K.members i) :
    ∃ s' w', resetStory env s ids w = .ok s' w' ∧ StoryFits env S K s' ∧ Fits env S w' := by
  have hcall : ∀ obs : List Cell, (∀ c ∈ obs, ∃ q, c = .scalar (.num q)) → _ := fun obs hobs =>
    call_safe h.timers (q := .series obs) (n := obs.length) (w := w) ⟨rfl, hobs⟩ hw
  rcases h.direct with ⟨v, hv⟩ | ⟨j, hj⟩
  · obtain ⟨s', u, h1, h2, -⟩ := h.resetTimers (δ := Unit)
      (observe := fun u obs => .ok (obs.map fun _ => v, u)) (g := ()) (I := fun _ => True) trivial
      (fun obs hobs => by
        obtain ⟨cells, w', h1, -, h3, h4⟩ := hcall obs hobs
        rw [hv, World.call] at h1
        obtain ⟨rfl, -⟩ := Act.pure_eq_ok.1 h1
        exact ⟨_, (), rfl, trivial, h3, h4⟩) hl
    refine ⟨s', w, ?_, h2, hw⟩
    rw [World.resetStory, hv]
    simp only
    rw [Act.bind_ok (Act.ofPy_ok h1 w)]
    rfl
  · rw [hj] at hcall
    obtain ⟨_, _, h0, -⟩ := hcall [] (by simp)
    obtain ⟨g, _, hg, -, -⟩ := observe_ref.1 h0
    obtain ⟨s', g', h1, h2, h3⟩ := h.resetTimers (observe := env.sem.observe) (g := g)
      (I := fun g' => Fits env S
        { w with clock := { w.clock with listeners := w.clock.listeners.set j g' } })
      (by
        have e : w.clock.listeners.set j g = w.clock.listeners := set_same hg
        show Fits env S { w with clock := { w.clock with listeners := w.clock.listeners.set j g } }
        rw [e]
        exact hw)
      (fun obs hobs => by
        obtain ⟨cells, w', h1, h2, h3, h4⟩ := hcall obs hobs
        obtain ⟨a, a', h5, h6, rfl⟩ := observe_ref.1 h1
        rw [hg] at h5
        cases h5
        exact ⟨cells, a', h6, h2, h3, h4⟩) hl
    refine ⟨s', _, ?_, h2, h3⟩
    rw [World.resetStory, hj]
    simp only
    rw [Act.bind_ok (getGen_eq_ok.2 ⟨hg, rfl⟩), Act.bind_ok (Act.ofPy_ok h1 w)]
    rfl

end Spec.StoryFits

/-- a method that keeps a story well-formed keeps the circus well-formed -/
theorem onStory_safe {i : Nat} (hi : S.stories[i]? = some K) {f : Story σ → Py (Story σ)}
    (hf : ∀ s, StoryFits env S K s → ∃ s', f s = .ok s' ∧ StoryFits env S K s') {w : World σ γ}
    (hw : Fits env S w) : ∃ w', World.onStory i f w = .ok () w' ∧ Fits env S w' := by
  obtain ⟨s, h1, h2⟩ := hw.story hi
  obtain ⟨s', h3, h4⟩ := hf s h2
  exact ⟨_, onStory_eq_ok.2 ⟨s, s', h1, h3, rfl⟩, hw.setStory hi h4⟩

theorem resetTimers_safe {i : Nat} (hi : S.stories[i]? = some K) {ids : Option (List Val)}
    (hl : ∀ l, ids = some l → ∀ x ∈ l, K.members x) {w : World σ γ} (hw : Fits env S w) :
    ∃ w', World.resetTimers env i ids w = .ok () w' ∧ Fits env S w' := by
  obtain ⟨s, h1, h2⟩ := hw.story hi
  obtain ⟨s', w1, h3, h4, h5⟩ := h2.resetStory hw hl
  exact ⟨_, resetTimers_eq_ok.2 ⟨s, s', w1, h1, h3, rfl⟩, h5.setStory hi h4⟩

end Trumania
