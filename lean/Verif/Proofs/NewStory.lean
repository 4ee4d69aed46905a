import Verif.Proofs.Api
import Verif.Proofs.Merge

/-! Helper lemmas on the creation of stories. -/

namespace Trumania
namespace World
open Spec Story
variable {σ γ : Type} {env : Env σ γ}

theorem generate_rest {g : GenRef} {n : Rat} {w w' : World σ γ} {cells : List Cell}
    (h : generate env g n w = .ok cells w') : w'.stories = w.stories ∧ SameRest w w' :=
  call_sameRest h

theorem addState_keys {ids : List Val} {params params' : Dict Val (Dict Val StateParams)}
    {st : Val} {a b : List Rat} (hk : params.map Prod.fst = ids)
    (h : Story.addState ids params st a b = .ok params') : params'.map Prod.fst = ids := by
  rw [Story.addState] at h
  split at h
  · cases h
  rename_i hl
  push Not at hl
  cases h
  have hlen : params.length = ids.length := by rw [← hk, List.length_map]
  apply List.ext_getElem
  · simp; omega
  · intro n h1 h2
    simp only [List.getElem_map, List.getElem_zipWith]
    simp only [← hk, List.getElem_map]

theorem storyParams_ok {ids : List Val} {size : Nat} {states : List (Val × StateGens)}
    {params params' : Dict Val (Dict Val StateParams)} {w w' : World σ γ}
    (h : storyParams env ids size states params w = .ok params' w') :
    w'.stories = w.stories ∧ SameRest w w' ∧
      (params.map Prod.fst = ids → params'.map Prod.fst = ids) := by
  induction states generalizing params w with
  | nil =>
    rw [storyParams, Act.pure_eq_ok] at h
    obtain ⟨rfl, rfl⟩ := h
    exact ⟨rfl, .refl _, fun h => h⟩
  | cons st rest ih =>
    obtain ⟨st, g⟩ := st
    rw [storyParams] at h
    simp only [Act.bind_eq_ok, Act.ofPy_eq_ok] at h
    obtain ⟨c1, w1, h1, c2, w2, h2, a, _, ⟨h3, rfl⟩, b, _, ⟨h4, rfl⟩, ps, _, ⟨h5, rfl⟩, h6⟩ := h
    obtain ⟨r1, r2⟩ := generate_rest h1
    obtain ⟨r3, r4⟩ := generate_rest h2
    obtain ⟨r5, r6, r7⟩ := ih h6
    exact ⟨r5.trans (r3.trans r1), (r2.trans r4).trans r6, fun hk => r7 (addState_keys hk h5)⟩

theorem numbers_eq_ok {cells : List Cell} {l : List Rat} :
    numbers cells = .ok l ↔ cells = l.map fun q => .scalar (.num q) := by
  rw [numbers, mapM_ok_iff]
  constructor
  · intro h
    induction h with
    | nil => rfl
    | cons h1 _ ih =>
      rw [List.map_cons, ← ih]
      congr 1
      rw [Cell.asNum.eq_def] at h1
      split at h1
      · cases h1; rfl
      · cases h1
  · rintro rfl
    induction l with
    | nil => exact .nil
    | cons a l ih => exact .cons rfl ih

/-- the parameters of a member for a state -/
def paramAt (params : Dict Val (Dict Val StateParams)) (id st : Val) : Option StateParams :=
  (params.get? id).bind (Dict.get? · st)

theorem addState_get {ids : List Val} {params params' : Dict Val (Dict Val StateParams)}
    {st : Val} {a b : List Rat} (hn : ids.Nodup) (hk : params.map Prod.fst = ids)
    (h : Story.addState ids params st a b = .ok params') :
    a.length = ids.length ∧ b.length = ids.length ∧ ∀ (k : Nat) (id : Val) (x y : Rat),
      ids[k]? = some id → a[k]? = some x → b[k]? = some y →
      ∀ st', paramAt params' id st' = if st' = st then some ⟨x, y⟩ else paramAt params id st' := by
  rw [Story.addState] at h
  split at h
  · cases h
  rename_i hl
  push Not at hl
  cases h
  refine ⟨hl.1, hl.2, ?_⟩
  clear hl
  induction params generalizing ids a b with
  | nil => intro k id x y h1; simp at hk; subst hk; simp at h1
  | cons kv params ih =>
    subst hk
    obtain ⟨i, d⟩ := kv
    intro k id x y h1 h2 h3 st'
    cases a with
    | nil => simp at h2
    | cons x0 a =>
    cases b with
    | nil => simp at h3
    | cons y0 b =>
    rw [List.map_cons, List.nodup_cons] at hn
    cases k with
    | zero =>
      simp at h1 h2 h3
      subst h1 h2 h3
      simp only [List.zip_cons_cons, List.zipWith_cons_cons, paramAt, Dict.get?_cons, if_true,
        Option.bind_some, Dict.get?_set]
      by_cases hst : st' = st
      · simp [hst]
      · have : ¬ st = st' := fun h => hst h.symm
        simp [hst, this]
    | succ k =>
      simp at h1 h2 h3
      have hne : i ≠ id := by
        rintro rfl
        obtain ⟨v, hv⟩ := h1
        exact hn.1 (List.mem_map.2 ⟨_, List.mem_of_getElem? hv, rfl⟩)
      have hthis := ih hn.2 rfl k id x y (by simpa using h1) h2 h3 st'
      simp only [List.zip_cons_cons, List.zipWith_cons_cons, paramAt, Dict.get?_cons, hne, if_false]
        at hthis ⊢
      exact hthis

theorem storyParams_draws {ids : List Val} {size : Nat} {states : List (Val × StateGens)}
    {params params' : Dict Val (Dict Val StateParams)} {w w' : World σ γ} (hn : ids.Nodup)
    (hk : params.map Prod.fst = ids) (hs : (states.map Prod.fst).Nodup)
    (h : storyParams env ids size states params w = .ok params' w') :
    ∃ drawn, StateDraws env size w states drawn w' ∧ drawn.map Prod.fst = states.map Prod.fst ∧
      (∀ id ∈ ids, ∀ st, st ∉ states.map Prod.fst → paramAt params' id st = paramAt params id st) ∧
      ∀ st acts backs, (st, acts, backs) ∈ drawn →
        acts.length = ids.length ∧ backs.length = ids.length ∧
        ∀ (k : Nat) (id : Val) (x y : Rat), ids[k]? = some id → acts[k]? = some x →
          backs[k]? = some y → paramAt params' id st = some ⟨x, y⟩ := by
  induction states generalizing params w with
  | nil =>
    rw [storyParams, Act.pure_eq_ok] at h
    obtain ⟨rfl, rfl⟩ := h
    exact ⟨[], .nil _, rfl, fun _ _ _ _ => rfl, by simp⟩
  | cons sg rest ih =>
    obtain ⟨st, g⟩ := sg
    rw [storyParams] at h
    simp only [Act.bind_eq_ok, Act.ofPy_eq_ok] at h
    obtain ⟨c1, w1, h1, c2, w2, h2, a, _, ⟨h3, rfl⟩, b, _, ⟨h4, rfl⟩, ps, _, ⟨h5, rfl⟩, h6⟩ := h
    rw [numbers_eq_ok] at h3 h4
    subst h3 h4
    rw [List.map_cons, List.nodup_cons] at hs
    obtain ⟨l1, l2, hget⟩ := addState_get hn hk h5
    obtain ⟨drawn, d1, d2, d3, d4⟩ := ih (addState_keys hk h5) hs.2 h6
    refine ⟨(st, a, b) :: drawn, .cons h1 h2 d1, by simp [d2], ?_, ?_⟩
    · intro id hid st' hst'
      rw [List.map_cons, List.mem_cons, not_or] at hst'
      rw [d3 id hid st' hst'.2]
      obtain ⟨k, hkk⟩ := List.mem_iff_getElem?.1 hid
      have hlt := (List.getElem?_eq_some_iff.1 hkk).1
      rw [hget k id _ _ hkk (List.getElem?_eq_getElem (by omega))
        (List.getElem?_eq_getElem (by omega)), if_neg hst'.1]
    · intro st' acts backs hm
      rw [List.mem_cons] at hm
      rcases hm with hm | hm
      · obtain ⟨rfl, rfl, rfl⟩ : st' = st ∧ acts = a ∧ backs = b := by simpa using hm
        refine ⟨l1, l2, fun k id x y k1 k2 k3 => ?_⟩
        rw [d3 id (List.mem_of_getElem? k1) _ hs.1, hget k id x y k1 k2 k3, if_pos rfl]
      · exact d4 st' acts backs hm

theorem initial_row {ids : List Val} {id : Val} (h : id ∈ ids) (s : Story σ)
    (hs : s.timer = ids.map fun i => ⟨i, defaultState, some (-1)⟩) :
    s.row? id = some ⟨id, defaultState, some (-1)⟩ := by
  obtain ⟨r, hr⟩ := exists_row? (s := s) (id := id) (by simp [Story.ids, hs, Function.comp_def, h])
  have h1 := row?_id hr
  have h2 := row?_mem hr
  rw [hs, List.mem_map] at h2
  obtain ⟨a, -, rfl⟩ := h2
  simp only at h1
  rw [hr, h1]

theorem newStory_ok {cfg : StoryConfig} {p : Population} {w w' : World σ γ} {s : Story σ}
    (h : newStory env cfg p w = .ok s w') :
    ∃ states s0 w1, merge_2_dicts env.orders.set
        (some [(defaultState, ⟨cfg.activity, .constant (.num 1)⟩)]) cfg.states = .ok states ∧
      w1.stories = w.stories ∧ SameRest w w1 ∧ w'.stories = w.stories ∧ SameRest w w' ∧
      s0.name = cfg.name ∧ s0.population = cfg.population ∧ s0.idField = cfg.idField ∧
      s0.timerGen = cfg.timerGen ∧ s0.autoReset = cfg.autoReset ∧ s0.states = states.keys ∧
      s0.forced = [] ∧ s0.timer = p.ids.map (fun i => ⟨i, defaultState, some (-1)⟩) ∧
      s0.params.map Prod.fst = p.ids ∧
      ((cfg.autoReset = false ∧ s = s0 ∧ w' = w1) ∨
       (cfg.autoReset = true ∧ resetStory env s0 none w1 = .ok s w')) := by
  rw [newStory] at h
  simp only [Act.bind_eq_ok, Act.ofPy_eq_ok] at h
  obtain ⟨states, _, ⟨h1, rfl⟩, params, w1, h2, h3⟩ := h
  obtain ⟨r1, r2, r3⟩ := storyParams_ok h2
  have r3 := r3 (by simp [Function.comp_def])
  rw [initialReset] at h3
  split at h3
  · rename_i ha
    obtain ⟨q1, q2, -⟩ := resetStory_ok h3
    exact ⟨states, _, w1, h1, r1, r2, q1.trans r1, r2.trans q2, rfl, rfl, rfl, rfl, rfl, rfl, rfl,
      rfl, r3, .inr ⟨ha, h3⟩⟩
  · rename_i ha
    rw [Act.pure_eq_ok] at h3
    obtain ⟨rfl, rfl⟩ := h3
    exact ⟨states, _, w1, h1, r1, r2, r1, r2, rfl, rfl, rfl, rfl, rfl, rfl, rfl, rfl, r3,
      .inl ⟨by simpa using ha, rfl, rfl⟩⟩

theorem createStory_ok {cfg : StoryConfig} {w w' : World σ γ} {n : Nat}
    (h : createStory env cfg w = .ok n w') :
    w.findStory cfg.name = none ∧ ∃ p s w1, w.pops[cfg.population]? = some p ∧
      newStory env cfg p w = .ok s w1 ∧ n = w1.stories.length ∧
      w' = { w1 with stories := w1.stories ++ [s] } := by
  rw [createStory] at h
  simp only [Act.bind_eq_ok] at h
  obtain ⟨w0, w1, h1, h2⟩ := h
  simp only [get, getThe, MonadStateOf.get, EStateM.get] at h1
  cases h1
  cases hf : w.findStory cfg.name with
  | some _ =>
    rw [hf] at h2
    simp [throw, throwThe, MonadExceptOf.throw, EStateM.throw] at h2
  | none =>
    rw [hf] at h2
    simp only [Act.bind_eq_ok, getPop_eq_ok] at h2
    obtain ⟨p, _, ⟨h3, rfl⟩, s, w2, h4, h5⟩ := h2
    simp only [appendStory] at h5
    cases h5
    exact ⟨rfl, p, s, w2, h3, h4, rfl, rfl⟩

end World
end Trumania
