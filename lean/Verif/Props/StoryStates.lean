import Verif.Proofs.NewStory
import Verif.Spec.ExampleWorld

/-!
# Properties C39, C40, C41 and C90 (states of the members of a story)
-/

namespace Trumania
open Spec Story World
variable {σ γ : Type}

/-! ### C39 -/

/-- conditions of `_MaybeBackToDefault`, member by member -/
theorem backConds_get (R : Rng σ) (j : σ) (probs : List Rat) (k : Nat) (p : Rat)
    (hk : probs[k]? = some p) :
    ∃ b, (backConds R j probs).1[k]? = some b ∧ (p = 0 → b = false) ∧ (p = 1 → b = true) := by
  rw [backConds]
  split
  · rename_i h
    rw [List.all_eq_true] at h
    have := h p (List.mem_of_getElem? hk)
    refine ⟨false, by rw [List.getElem?_map, hk]; rfl, fun _ => rfl, fun h1 => ?_⟩
    simp [h1] at this
  split
  · rename_i h
    rw [List.all_eq_true] at h
    have := h p (List.mem_of_getElem? hk)
    refine ⟨true, by rw [List.getElem?_map, hk]; rfl, fun h0 => ?_, fun _ => rfl⟩
    simp [h0] at this
  · have hkl := (List.getElem?_eq_some_iff.1 hk).1
    have hul : k < (R.uniform j probs.length).1.length := by rw [R.uniform_length]; exact hkl
    have hu := R.uniform_range j probs.length _ (List.getElem_mem hul)
    refine ⟨decide (p > (R.uniform j probs.length).1[k]), ?_, fun h0 => ?_, fun h1 => ?_⟩
    · simp only [List.getElem?_zipWith, hk, List.getElem?_eq_getElem hul]
    · rw [decide_eq_false_iff_not, h0]; exact not_lt.2 hu.1
    · rw [decide_eq_true_iff, h1]; exact hu.2

/-- the possible returns to the default state of the members `present`, from the story `s` to `s'` -/
def BackToDefault (s s' : Story σ) (present : List Val) : Prop :=
  s'.ids = s.ids ∧ (∀ id, timerOf s' id = timerOf s id) ∧ s'.forced = s.forced ∧
  ∀ id st, stateOf s id = some st →
    (stateOf s' id = some st ∨ stateOf s' id = some (.str "default")) ∧
    (id ∉ present → stateOf s' id = some st) ∧
    ∀ p, paramsOf s id = some p →
      (p.back = 0 → stateOf s' id = some st) ∧
      (id ∈ present → p.back = 1 → stateOf s' id = some (.str "default"))

/-- **C39** The return to the default state is certain for the members of the story data with
probability 1, impossible with probability 0 and for the members that are not in the story data;
only the state or `default` result; nothing else changes. For all draws in `[0, 1)` and all mixes of
probabilities. -/
theorem C39_back_to_default (R : Rng σ) (s s' : Story σ) (present : List Val)
    (h : s.maybeBackToDefault R present = .ok s') : BackToDefault s s' present := by
  obtain ⟨h1, h2, h3, h4⟩ := maybeBackToDefault_ok h
  rcases h4 with ⟨h4, rfl⟩ | ⟨ps, -, hps, -, hrow⟩
  · refine ⟨rfl, fun _ => rfl, rfl, fun id st hst => ⟨.inl hst, fun _ => hst, fun p _ =>
      ⟨fun _ => hst, fun hm _ => ?_⟩⟩⟩
    by_contra hne
    rw [stateOf_eq] at hst
    obtain ⟨r, hr, rfl⟩ := Option.map_eq_some_iff.1 hst
    have : id ∈ s'.nonDefault present := by
      rw [nonDefault, List.mem_filter]
      refine ⟨hm, ?_⟩
      simp only [hr, decide_eq_true_eq]
      intro he
      rw [stateOf_eq, hr, Option.map_some, he] at hne
      exact hne rfl
    rw [h4] at this
    simp at this
  · refine ⟨h2, fun id => ?_, by rw [h1], fun id st hst => ?_⟩
    · rw [timerOf_eq, timerOf_eq, hrow]
      split
      · cases s.row? id <;> rfl
      · rfl
    rw [stateOf_eq] at hst
    obtain ⟨r, hr, rfl⟩ := Option.map_eq_some_iff.1 hst
    -- the chosen members
    have hch : ∀ {q : Prop}, (id ∈ (((s.nonDefault present).zip
        (backConds R s.judge (ps.map (·.back))).1).filter (·.2)).map Prod.fst → q) →
        (∀ (k : Nat) p b, (s.nonDefault present)[k]? = some id → paramsOf s id = some p →
          (backConds R s.judge (ps.map (·.back))).1[k]? = some b →
          (p.back = 0 → b = false) → (p.back = 1 → b = true) → b = true → q) := by
      intro q hq k p b k1 _ k2 _ _ hb
      apply hq
      rw [List.mem_map]
      refine ⟨(id, b), ?_, rfl⟩
      rw [List.mem_filter]
      exact ⟨List.mem_iff_getElem?.2 ⟨k, by rw [List.getElem?_zip_eq_some]; exact ⟨k1, k2⟩⟩, hb⟩
    have hback : ∀ (k : Nat), (s.nonDefault present)[k]? = some id → ∃ p b,
        paramsOf s id = some p ∧ (backConds R s.judge (ps.map (·.back))).1[k]? = some b ∧
        (p.back = 0 → b = false) ∧ (p.back = 1 → b = true) := by
      intro k k1
      have hkp : k < ps.length := by
        rw [← hps.length_eq]; exact (List.getElem?_eq_some_iff.1 k1).1
      have k2 := List.getElem?_eq_getElem hkp
      obtain ⟨b, hb⟩ := backConds_get R s.judge (ps.map (·.back)) k ps[k].back (by simp [k2])
      exact ⟨ps[k], b, Forall₂_get hps k1 k2, hb⟩
    have hmem : id ∈ (((s.nonDefault present).zip
        (backConds R s.judge (ps.map (·.back))).1).filter (·.2)).map Prod.fst →
        id ∈ present ∧ ∃ p, paramsOf s id = some p ∧ p.back ≠ 0 := by
      intro hm
      rw [List.mem_map] at hm
      obtain ⟨⟨id', b⟩, hx, rfl⟩ := hm
      rw [List.mem_filter] at hx
      obtain ⟨k, hk⟩ := List.mem_iff_getElem?.1 hx.1
      rw [List.getElem?_zip_eq_some] at hk
      refine ⟨List.mem_of_mem_filter (List.mem_of_getElem? hk.1), ?_⟩
      obtain ⟨p, b', e1, e2, e3, -⟩ := hback k hk.1
      rw [hk.2] at e2
      cases e2
      refine ⟨p, e1, fun h0 => ?_⟩
      rw [show b = false from e3 h0] at hx
      exact absurd hx.2 (by simp)
    refine ⟨?_, fun hn => ?_, fun p hp => ⟨fun h0 => ?_, fun hm h1 => ?_⟩⟩
    · rw [stateOf_eq, hrow, hr]
      split
      · exact .inr rfl
      · exact .inl rfl
    · rw [stateOf_eq, hrow, if_neg (fun hm => hn (hmem hm).1), hr]; rfl
    · rw [stateOf_eq, hrow, if_neg, hr]; rfl
      intro hm
      obtain ⟨-, p', hp', hne⟩ := hmem hm
      rw [hp] at hp'; cases hp'
      exact hne h0
    · rw [stateOf_eq, hrow, hr]
      by_cases hd : r.state = defaultState
      · split
        · rfl
        · rw [Option.map_some, hd]; rfl
      · have hin : id ∈ s.nonDefault present := by
          rw [nonDefault, List.mem_filter]
          exact ⟨hm, by simp [hr, hd]⟩
        obtain ⟨k, hk⟩ := List.mem_iff_getElem?.1 hin
        obtain ⟨p', b, e1, e2, e3, e4⟩ := hback k hk
        rw [hp] at e1; cases e1
        rw [if_pos (hch (fun h => h) k p b hk hp e2 e3 e4 (e4 h1))]
        rfl

/-- **C39** This happens once, at the end of the operations given to `set_operations`, for the
members that are in the story data at that point. -/
theorem C39_at_the_end_of_the_operations (env : Env σ γ) (i : Nat) (ops : List (Op (World σ γ)))
    (data out : Frame) (logs : Logs) (w w' : World σ γ)
    (h : chain env.logSet (Ops.setOperations env i ops) data w = .ok (out, logs) w') :
    ∃ logs1 w1 s s', chain env.logSet ops data w = .ok (out, logs1) w1 ∧
      w1.stories[i]? = some s ∧ w' = { w1 with stories := w1.stories.set i s' } ∧
      BackToDefault s s' out.index := by
  rw [chain, Ops.setOperations, runOps_append] at h
  obtain ⟨⟨d1, l1⟩, w1, h1, h2⟩ := Act.bind_eq_ok.1 h
  rw [runOps] at h2
  obtain ⟨⟨d2, l2⟩, w2, h2, h3⟩ := Act.bind_eq_ok.1 h2
  rw [runOps, Act.pure_eq_ok] at h3
  obtain ⟨h3, rfl⟩ := h3
  cases h3
  obtain ⟨supp, h4, -⟩ := executeOperation_eq_ok h2
  rw [Ops.maybeBackToDefault, Ops.sideEffect] at h4
  obtain ⟨_, w3, h6, h5⟩ := Act.bind_eq_ok.1 h4
  rw [Act.pure_eq_ok] at h5
  obtain ⟨h5, rfl⟩ := h5
  cases h5
  obtain ⟨s, s', e1, e2, e3⟩ := onStory_eq_ok.1 h6
  exact ⟨l1, w1, s, s', h1, e1, e3, C39_back_to_default env.R s s' _ e2⟩

/-- "a" has probability 0 and "b" 1/2 in state busy, "c" has 1: the draws 0 and 1/10 and 2/10 of the
concrete generator send "b" and "c" back, and "a" stays -/
example : ((({ exStory with timer := [⟨.str "a", .str "busy", some 0⟩, ⟨.str "b", .str "busy", some 0⟩,
      ⟨.str "c", .str "busy", some 0⟩] } : Story Nat).maybeBackToDefault Rng.counter
      [.str "a", .str "b", .str "c"]).toOption.map fun s => s.timer.map (·.state)) =
    some [.str "busy", defaultState, defaultState] := by decide +kernel

/-! ### C40 -/

/-- **C40** `get_param` answers, for the requested members in the order of the request, the parameter
declared for the state each is currently in; with no declared state but `default`, the one of
`default`. -/
theorem C40_get_param (which : StateParams → Rat) (s : Story σ) (ids : List Val) (vals : List Rat)
    (hm : ∀ id ∈ ids, id ∈ s.ids) (h : s.getParam which ids = .ok vals) :
    vals.length = ids.length ∧ ∀ (k : Nat) (id : Val), ids[k]? = some id →
      ∃ st byState p, stateOf s id = some st ∧ s.params.get? id = some byState ∧
        vals[k]? = some (which p) ∧
        (s.states.length ≠ 1 → byState.get? st = some p) ∧
        (s.states.length = 1 → byState.get? (.str "default") = some p) := by
  obtain ⟨ps, h1, rfl⟩ := (getParam_eq_ok hm).1 h
  refine ⟨by rw [List.length_map, h1.length_eq], fun k id hk => ?_⟩
  have hkp : k < ps.length := by rw [← h1.length_eq]; exact (List.getElem?_eq_some_iff.1 hk).1
  have k2 := List.getElem?_eq_getElem hkp
  have hp := Forall₂_get h1 hk k2
  rw [paramsOf] at hp
  simp only [bind, Option.bind_eq_some_iff] at hp
  obtain ⟨d, hd, st, hst, hp⟩ := hp
  refine ⟨st, d, ps[k], hst, hd, by simp [k2], fun hn => ?_, fun h1 => ?_⟩
  · rw [if_neg hn] at hp; exact hp
  · rw [if_pos h1] at hp; exact hp

/-- **C40** and it answers whenever all the requested members are in a state declared for them. -/
theorem C40_get_param_total (which : StateParams → Rat) (s : Story σ) (ids : List Val)
    (h : ∀ id ∈ ids, ∃ p, paramsOf s id = some p) :
    ∃ vals, s.getParam which ids = .ok vals := by
  have hm : ∀ id ∈ ids, id ∈ s.ids := by
    intro id hid
    obtain ⟨p, hp⟩ := h id hid
    by_contra hn
    rw [paramsOf, stateOf_eq, row?_eq_none.2 hn] at hp
    simp [bind] at hp
  have : ∃ ps, List.Forall₂ (fun id p => paramsOf s id = some p) ids ps := by
    clear hm
    induction ids with
    | nil => exact ⟨[], .nil⟩
    | cons a l ih =>
      obtain ⟨p, hp⟩ := h a (by simp)
      obtain ⟨ps, hps⟩ := ih fun id hid => h id (List.mem_cons_of_mem _ hid)
      exact ⟨p :: ps, .cons hp hps⟩
  obtain ⟨ps, hps⟩ := this
  exact ⟨_, (getParam_eq_ok hm).2 ⟨ps, hps, rfl⟩⟩

/-- **C40** `transit_to_state` changes the states of the listed members and nothing else; each gets the
state of the same position, the last of its positions if it is listed several times. -/
theorem C40_transit_to_state (s s' : Story σ) (ids states : List Val)
    (h : s.transitToState ids states = .ok s') :
    s' = { s with timer := s'.timer } ∧ s'.ids = s.ids ∧
    (∀ id, timerOf s' id = timerOf s id) ∧
    (∀ id, id ∉ ids → stateOf s' id = stateOf s id) ∧
    (∀ (k : Nat) (id st : Val), ids[k]? = some id → states[k]? = some st →
      (∀ j, k < j → ids[j]? ≠ some id) → stateOf s' id = some st) := by
  obtain ⟨h1, h2, h3, h4, h5, h6, h7⟩ := transitToState_ok h
  have hst : ∀ {id st}, id ∈ ids → s'.row? id = (s.row? id).map ({ · with state := st }) →
      stateOf s' id = some st := by
    intro id st hid hr
    obtain ⟨r, hr'⟩ := exists_row? (h1 id hid)
    rw [stateOf_eq, hr, hr']; rfl
  refine ⟨h3, h4, fun id => ?_, fun id hn => ?_,
    fun k id st k1 k2 hlast => ?_⟩
  · by_cases hid : id ∈ ids
    · obtain ⟨k, v, -, -, hr⟩ := h6 id hid
      rw [timerOf_eq, timerOf_eq, hr]
      cases s.row? id <;> rfl
    · rw [timerOf_eq, timerOf_eq, h5 id hid]
  · rw [stateOf_eq, stateOf_eq, h5 id hn]
  · exact hst (List.mem_of_getElem? k1) (h7 k id st k1 k2 hlast)

/-- **C40** it succeeds exactly when the members are known and there are as many states. -/
theorem C40_transit_to_state_total (s : Story σ) (ids states : List Val) :
    (∃ s', s.transitToState ids states = .ok s') ↔
      (∀ id ∈ ids, id ∈ s.ids) ∧ states.length = ids.length := by
  constructor
  · rintro ⟨s', h⟩
    obtain ⟨h1, h2, -⟩ := transitToState_ok h
    exact ⟨h1, h2⟩
  · rintro ⟨h1, h2⟩
    exact transitToState_total h1 h2

example : exStory.getParam (·.activity) [.str "b", .str "a", .str "c"] = .ok [0, 1, 0] ∧
    ((exStory.transitToState [.str "c", .str "a"] [.str "busy", .str "busy"]).toOption.map
      fun s => s.getParam (·.back) [.str "a", .str "c"]) = some (.ok [0, 1]) := by decide +kernel

/-! ### C41 -/

/-- **C41** Declaring a state `default` raises `ValueError`, and creates nothing. -/
theorem C41_default_not_redefinable (env : Env σ γ) (cfg : StoryConfig) (w : World σ γ)
    (p : Population) (states : Dict Val StateGens) (hp : w.pops[cfg.population]? = some p)
    (hst : cfg.states = some states) (hd : .str "default" ∈ states.keys) :
    createStory env cfg w = .error .valueError w := by
  have hm := merge2_noMerge env.orders.set [(defaultState, (⟨cfg.activity, .constant (.num 1)⟩ :
    StateGens))] states ⟨defaultState, by simp [Dict.keys], hd⟩
  rw [createStory]
  cases hf : w.findStory cfg.name with
  | some n =>
    simp [bind, EStateM.bind, get, getThe, MonadStateOf.get, EStateM.get, hf, throw, throwThe,
      MonadExceptOf.throw, EStateM.throw]
  | none =>
    have hnew : newStory env cfg p w = .error .valueError w := by
      rw [newStory, hst, merge_2_dicts, hm]
      exact Act.bind_err (Act.ofPy_error rfl w)
    have hg : getPop cfg.population w = .ok p w := getPop_eq_ok.2 ⟨hp, rfl⟩
    simp only [bind, EStateM.bind, get, getThe, MonadStateOf.get, EStateM.get, hf, hg, hnew]

/-- **C41** A story that is created has exactly the state `default` and the declared ones, none of
which is `default`; all its members start in `default`. -/
theorem C41_states_of_a_new_story (env : Env σ γ) (cfg : StoryConfig) (w w' : World σ γ) (n : Nat)
    (h : createStory env cfg w = .ok n w') :
    ∃ p s, w.pops[cfg.population]? = some p ∧ w'.stories[n]? = some s ∧
      .str "default" ∉ (cfg.states.getD []).keys ∧
      (∀ st, st ∈ s.states ↔ st = .str "default" ∨ st ∈ (cfg.states.getD []).keys) ∧
      s.ids = p.ids ∧ ∀ id ∈ p.ids, stateOf s id = some (.str "default") := by
  obtain ⟨-, p, s, w1, hp, hnew, rfl, rfl⟩ := createStory_ok h
  obtain ⟨states, s0, w0, hmerge, -, -, -, -, -, -, -, -, -, e1, -, e2, -, e3⟩ := newStory_ok hnew
  have hstates : .str "default" ∉ (cfg.states.getD []).keys ∧
      ∀ st, st ∈ s0.states ↔ st = .str "default" ∨ st ∈ (cfg.states.getD []).keys := by
    rw [e1]
    cases hc : cfg.states with
    | none =>
      rw [hc, merge_2_dicts] at hmerge
      cases hmerge
      simp [Dict.keys, defaultState]
    | some d =>
      rw [hc, merge_2_dicts] at hmerge
      have hn : defaultState ∉ d.keys := by
        intro hd
        rw [merge2_noMerge _ _ _ ⟨defaultState, by simp [Dict.keys], hd⟩] at hmerge
        cases hmerge
      refine ⟨hn, fun st => ?_⟩
      rw [merge2_disjoint _ _ _ none (fun a _ => a) (by
        intro k hk
        simp only [Dict.keys, List.map_cons, List.map_nil, List.mem_singleton] at hk
        subst hk; exact hn)] at hmerge
      obtain ⟨r, hr, hk, -⟩ := merge2_total env.orders.set [(defaultState,
        (⟨cfg.activity, .constant (.num 1)⟩ : StateGens))] d (fun a _ => a)
      rw [hr] at hmerge
      cases hmerge
      rw [hk, env.orders.set.mem]
      simp [Dict.keys, defaultState]
  have hids : s0.ids = p.ids := by simp [Story.ids, e2, Function.comp_def]
  rcases e3 with ⟨-, rfl, -⟩ | ⟨-, e3⟩
  · exact ⟨p, s, hp, by simp, hstates.1, hstates.2, hids, fun id hid => by
      rw [stateOf_eq, initial_row hid s e2]; rfl⟩
  · obtain ⟨-, -, r3, r4, -, r6, -⟩ := resetStory_ok e3
    refine ⟨p, s, hp, by simp, hstates.1, ?_, ?_, fun id hid => ?_⟩
    · rw [show s.states = s0.states by rw [r3]]; exact hstates.2
    · rw [r4, hids]
    · rw [r6 id, stateOf_eq, initial_row hid s0 e2]; rfl

/-- **C90** The states of a new story are treated one after the other, the activities of the members
being drawn from the activity generator of the state, then their probabilities of returning to
`default` from its other generator (the constant 1 for `default`); the `k`-th member gets the `k`-th
activity and the `k`-th probability. -/
theorem C90_parameters_of_a_new_story (env : Env σ γ) (cfg : StoryConfig) (w w' : World σ γ)
    (n : Nat) (p : Population) (hp : w.pops[cfg.population]? = some p) (hids : p.ids.Nodup)
    (h : createStory env cfg w = .ok n w') :
    ∃ s order drawn w1, w'.stories[n]? = some s ∧ (order.map Prod.fst).Nodup ∧
      (∀ st g, (st, g) ∈ order ↔ (st = .str "default" ∧ g = ⟨cfg.activity, .constant (.num 1)⟩) ∨
        (cfg.states.getD []).get? st = some g) ∧
      StateDraws env p.size w order drawn w1 ∧ drawn.map Prod.fst = order.map Prod.fst ∧
      ∀ st acts backs, (st, acts, backs) ∈ drawn →
        acts.length = p.ids.length ∧ backs.length = p.ids.length ∧
        ∀ (k : Nat) (id : Val) (x y : Rat), p.ids[k]? = some id → acts[k]? = some x →
          backs[k]? = some y → ∃ byState, s.params.get? id = some byState ∧
            byState.get? st = some ⟨x, y⟩ := by
  obtain ⟨-, p', s, w2, hp', hnew, rfl, rfl⟩ := createStory_ok h
  rw [hp] at hp'
  cases hp'
  rw [newStory] at hnew
  simp only [Act.bind_eq_ok, Act.ofPy_eq_ok] at hnew
  obtain ⟨order, _, ⟨hmerge, rfl⟩, params, w1, hpar, hreset⟩ := hnew
  have hord : (order.map Prod.fst).Nodup ∧
      ∀ st g, (st, g) ∈ order ↔ (st = .str "default" ∧ g = ⟨cfg.activity, .constant (.num 1)⟩) ∨
        (cfg.states.getD []).get? st = some g := by
    cases hc : cfg.states with
    | none =>
      rw [hc, merge_2_dicts] at hmerge
      cases hmerge
      refine ⟨by simp, fun st g => ?_⟩
      simp [Dict.get?, defaultState]
    | some d =>
      rw [hc, merge_2_dicts] at hmerge
      have hn : defaultState ∉ d.keys := by
        intro hd
        rw [merge2_noMerge _ _ _ ⟨defaultState, by simp [Dict.keys], hd⟩] at hmerge
        cases hmerge
      rw [merge2_disjoint _ _ _ none (fun a _ => a) (by
        intro k hk
        simp only [Dict.keys, List.map_cons, List.map_nil, List.mem_singleton] at hk
        subst hk; exact hn)] at hmerge
      obtain ⟨r, hr, hk, hget⟩ := merge2_total env.orders.set [(defaultState,
        (⟨cfg.activity, .constant (.num 1)⟩ : StateGens))] d (fun a _ => a)
      rw [hr] at hmerge
      cases hmerge
      have hwf : order.keys.Nodup := by rw [hk]; exact env.orders.set.nodup _
      refine ⟨hwf, fun st g => ?_⟩
      have hiff : (st, g) ∈ order ↔ Dict.get? order st = some g :=
        ⟨fun hm => Dict.get?_of_mem hwf hm, fun hg => Dict.get?_mem hg⟩
      rw [hiff, hget]
      show _ ↔ (st = defaultState ∧ _) ∨ Dict.get? d st = some g
      by_cases hst : st = defaultState
      · subst hst
        rw [Dict.get?_eq_none_iff.2 hn]
        simp [Dict.get?_cons, unionAt, eq_comm]
      · have hst' : ¬ defaultState = st := fun h => hst h.symm
        rw [Dict.get?_cons, if_neg hst']
        cases Dict.get? d st <;> simp [Dict.get?, unionAt, hst]
  obtain ⟨drawn, d1, d2, -, d4⟩ := storyParams_draws hids (by simp [Function.comp_def]) hord.1 hpar
  have hsp : s.params = params := by
    rw [initialReset] at hreset
    split at hreset
    · obtain ⟨-, -, r3, -⟩ := resetStory_ok hreset
      rw [r3]
    · rw [Act.pure_eq_ok] at hreset
      rw [← hreset.1]
  refine ⟨s, order, drawn, w1, by simp, hord.1, hord.2, d1, d2, fun st acts backs hm => ?_⟩
  obtain ⟨k1, k2, k3⟩ := d4 st acts backs hm
  refine ⟨k1, k2, fun k id x y e1 e2 e3 => ?_⟩
  have := k3 k id x y e1 e2 e3
  rw [paramAt, Option.bind_eq_some_iff] at this
  rw [hsp]
  exact this

example :
    let cfg : StoryConfig := { name := "new", population := 0, idField := "X" }
    let off : Val × StateGens := (.str "off", ⟨.constant (.num 0), .constant (.num 1)⟩)
    let dflt : Val × StateGens := (.str "default", ⟨.constant (.num 0), .constant (.num 1)⟩)
    ((createStory exEnv { cfg with states := some [off] }).world? exWorld).map
      (fun w => w.stories.map (·.states)) =
    some [[defaultState, .str "busy"], [defaultState, .str "busy"], [defaultState, .str "off"]] ∧
    (createStory exEnv { cfg with states := some [off, dflt] }).raised? exWorld =
      some .valueError ∧
    ((createStory exEnv { cfg with states := some [off], activity := .constant (.num 3) }).world?
      exWorld).map (fun w => w.stories[2]?.map fun s => s.params.map fun x => x.2.map fun y =>
        (y.1, y.2.activity, y.2.back)) =
      some (exWorld.pops[0]?.map fun p => p.ids.map fun _ =>
        [(Val.str "default", (3 : Rat), (1 : Rat)), (.str "off", 0, 1)]) := by decide +kernel

end Trumania
