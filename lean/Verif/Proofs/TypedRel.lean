import Verif.Proofs.Typed
import Verif.Props.Relationship

/-! Helper lemmas: the methods of well-formed relationships never raise. -/

namespace Trumania
open Spec World Relationship
variable {σ γ : Type} {env : Env σ γ} {K : RelKind}

theorem sum_pos_of_pos {ws : List Rat} (h : ∀ x ∈ ws, 0 < x) (hne : ws ≠ []) : 0 < ws.sum := by
  obtain ⟨a, l, rfl⟩ := List.exists_cons_of_ne_nil hne
  rw [List.sum_cons]
  exact add_pos_of_pos_of_nonneg (h a (by simp))
    (List.sum_nonneg fun x hx => (h x (by simp [hx])).le)

namespace Spec.RelFits
variable {r r' : Relationship σ}

theorem pair (h : RelFits env K r) {f t : Val} {x : Rat} (hm : (t, x) ∈ pairsAt r.grouped f) :
    0 ≤ x ∧ K.items t := h.content (f, t, x) ((mem_get_relations env.orders r).2 hm)

theorem to_ (h : RelFits env K r) {f : Val} {rs : Relations} (hf : r.grouped.get? f = some rs) {t : Val}
    (ht : t ∈ rs.tos) : K.items t := by
  obtain ⟨i, hi, rfl⟩ := List.getElem_of_mem ht
  obtain ⟨w, hw, -⟩ := pairsAt_getElem? h.reachable.gwf hf (List.getElem?_eq_getElem hi)
  exact (h.pair (List.mem_of_getElem? hw)).2

theorem weight (h : RelFits env K r) {f : Val} {rs : Relations} (hf : r.grouped.get? f = some rs)
    {x : Rat} (hx : x ∈ rs.weights) : 0 ≤ x := by
  have hlen := h.reachable.gwf.len _ _ hf
  obtain ⟨i, hi, rfl⟩ := List.getElem_of_mem hx
  obtain ⟨w, hw, hw2⟩ := pairsAt_getElem? h.reachable.gwf hf
    (show rs.tos[i]? = some (rs.tos[i]'(by omega)) from List.getElem?_eq_getElem _)
  rw [List.getElem?_eq_getElem hi] at hw2
  cases hw2
  exact (h.pair (List.mem_of_getElem? hw)).1

theorem pairsAt_of {g : Dict Val Relations} {f : Val} {rs : Relations} (hf : g.get? f = some rs) :
    pairsAt g f = rs.tos.zip rs.weights := by
  rw [pairsAt, hf]

/-- the total of the weights of whoever has items is positive -/
theorem sum_weights (h : RelFits env K r) {f : Val} {rs : Relations} (hf : r.grouped.get? f = some rs)
    (hne : rs.weights ≠ []) : 0 < rs.weights.sum := by
  have hlen := h.reachable.gwf.len _ _ hf
  obtain ⟨a, l, hw⟩ := List.exists_cons_of_ne_nil hne
  obtain ⟨t, l', ht⟩ : ∃ t l', rs.tos = t :: l' := by
    cases e : rs.tos with
    | nil => rw [e, hw] at hlen; simp at hlen
    | cons t l' => exact ⟨t, l', rfl⟩
  have hm : (f, t, a) ∈ r.get_relations env.orders := by
    rw [mem_get_relations, pairsAt_of hf, ht, hw]
    exact List.mem_cons_self
  obtain ⟨⟨f', t', x⟩, hy, e, hx⟩ := h.enough _ hm
  cases e
  rw [mem_get_relations, pairsAt_of hf] at hy
  have hx' := (List.of_mem_zip hy).2
  exact lt_of_lt_of_le hx (List.single_le_sum (fun y hy => h.weight hf hy) x hx')

/-- whoever always has items has some -/
theorem owned (h : RelFits env K r) {f : Val} (hf : K.owners f)
    (hno : ∀ rs, r.grouped.get? f = some rs → rs.tos = []) : False := by
  obtain ⟨⟨f', t, x⟩, hm, rfl⟩ := h.owners f hf
  change ∀ rs, r.grouped.get? f' = some rs → rs.tos = [] at hno
  rw [mem_get_relations] at hm
  cases hg : r.grouped.get? f' with
  | none => rw [pairsAt, hg] at hm; cases hm
  | some rs =>
    rw [pairsAt_of hg, hno rs hg] at hm
    cases hm

/-- some items are removed -/
theorem of_sub (h : RelFits env K r) (hr : Reachable env.R r') (hk : K.Takes)
    (hs : ∀ f x, x ∈ pairsAt r'.grouped f → x ∈ pairsAt r.grouped f) : RelFits env K r' := by
  have hs' : ∀ x ∈ r'.get_relations env.orders, x ∈ r.get_relations env.orders := by
    rintro ⟨f, t, x⟩ hm
    rw [mem_get_relations] at hm ⊢
    exact hs f _ hm
  have hp := h.positive hk.1
  exact ⟨hr, fun x hx => h.content x (hs' x hx), fun x hx => ⟨x, hx, rfl, hp x (hs' x hx)⟩,
    fun _ x hx => hp x (hs' x hx), fun v hv => absurd hv (hk.2 v)⟩

/-- no item changes -/
theorem of_same (h : RelFits env K r) (hr : Reachable env.R r')
    (hs : ∀ f, pairsAt r'.grouped f = pairsAt r.grouped f) : RelFits env K r' := by
  have hs' : ∀ x, x ∈ r'.get_relations env.orders ↔ x ∈ r.get_relations env.orders := by
    rintro ⟨f, t, x⟩
    rw [mem_get_relations, mem_get_relations, hs f]
  refine ⟨hr, fun x hx => h.content x ((hs' x).1 hx), fun x hx => ?_, fun hk x hx => h.positive hk x ((hs' x).1 hx),
    fun v hv => ?_⟩
  · obtain ⟨y, hy, e⟩ := h.enough x ((hs' x).1 hx)
    exact ⟨y, (hs' y).2 hy, e⟩
  · obtain ⟨x, hx, e⟩ := h.owners v hv
    exact ⟨x, (hs' x).2 hx, e⟩

theorem addCall (h : RelFits env K r) {c : AddCall} (hc : WellSized c)
    (hK : ∀ x ∈ added c, 0 < x.2.2 ∧ K.items x.2.1) :
    ∃ r', AddCall.exec r (c, env.orders) = .ok r' ∧ RelFits env K r' := by
  obtain ⟨r', hr'⟩ := (C16_additions_total env.R h.reachable c env.orders).2 hc
  have hm : ∀ x, x ∈ r'.get_relations env.orders ↔ x ∈ r.get_relations env.orders ∨ x ∈ added c := fun x =>
    (C16_step env.R h.reachable hr' env.orders env.orders).mem_iff.trans List.mem_append
  refine ⟨r', hr', reachable_addCall env.R h.reachable hr', fun x hx => ?_, fun x hx => ?_, fun hk x hx => ?_,
    fun v hv => ?_⟩
  · rcases (hm x).1 hx with h1 | h1
    · exact h.content x h1
    · exact ⟨(hK x h1).1.le, (hK x h1).2⟩
  · rcases (hm x).1 hx with h1 | h1
    · obtain ⟨y, hy, e⟩ := h.enough x h1
      exact ⟨y, (hm y).2 (.inl hy), e⟩
    · exact ⟨x, hx, rfl, (hK x h1).1⟩
  · rcases (hm x).1 hx with h1 | h1
    · exact h.positive hk x h1
    · exact (hK x h1).1
  · obtain ⟨x, hx, e⟩ := h.owners v hv
    exact ⟨x, (hm x).2 (.inl hx), e⟩

theorem add (h : RelFits env K r) {froms tos : List Val} (hl : froms.length ≤ tos.length)
    (ht : ∀ t ∈ tos, K.items t) :
    ∃ r', r.add_relations env.orders froms tos = .ok r' ∧ RelFits env K r' := by
  refine h.addCall (c := .relations froms tos (.scalar 1)) ⟨hl, by simp⟩ ?_
  rintro ⟨f, t, x⟩ hx
  rw [added_relations, addedRows] at hx
  have h1 := List.of_mem_zip hx
  have h2 := List.of_mem_zip h1.2
  have h3 : x = 1 := by
    have := h2.2
    simp only [Weights.expand] at this
    exact List.eq_of_mem_replicate this
  subst h3
  exact ⟨by norm_num, ht t h2.1⟩

theorem addGrouped (h : RelFits env K r) {froms : List Val} {tos : List (List Val)}
    (ht : ∀ l ∈ tos, ∀ t ∈ l, K.items t) :
    ∃ r', r.add_grouped_relations env.orders froms tos = .ok r' ∧ RelFits env K r' := by
  refine h.addCall (c := .grouped froms tos) trivial ?_
  rintro ⟨f, t, x⟩ hx
  rw [Spec.added, List.mem_flatMap] at hx
  obtain ⟨y, hy, hx⟩ := hx
  obtain ⟨u, hu, he⟩ := List.mem_map.1 hx
  cases he
  exact ⟨by norm_num, ht y.2 (List.of_mem_zip hy).2 t hu⟩

theorem selectOne (h : RelFits env K r) {weight : Option (Dict Val Rat)}
    (hw : ∀ D, weight = some D → ∀ v, K.items v → ∃ x, D.get? v = some x ∧ 0 < x)
    (reqs : List (Val × Val)) (pop discard o2o : Bool) (hp : pop = true → K.Takes) :
    ∃ rows r', r.select_one env.R (some reqs) pop discard o2o weight = .ok (rows, r') ∧ RelFits env K r' ∧
      ∀ row ∈ rows, (row.to_ = none ∧ discard = false ∧ ∃ q ∈ reqs, ¬ K.owners q.2) ∨
        ∃ t, row.to_ = some t ∧ K.items t := by
  have hg := h.reachable.gwf
  obtain ⟨⟨rows, r'⟩, hr'⟩ := select_one_isOk env.R (reqs := some reqs) (remove := pop)
    (discard := discard) (o2o := o2o) (ow := weight) hg (by
      cases weight with
      | none => rfl
      | some D =>
        rw [missingKeys, List.filter_eq_nil_iff]
        intro t ht
        obtain ⟨f, x, hm⟩ := (C17_unique_tos env.R h.reachable env.orders t).1 ht
        obtain ⟨y, hy, -⟩ := hw D rfl t (h.content _ hm).2
        simp [Dict.mem_keys_of_get? hy]) (by
      intro q _ rs hrs s
      have hlen := hg.len _ _ hrs
      cases weight with
      | none =>
        exact pick_one_isOk env.R hlen (ws := rs.weights) rfl (fun x hx => h.weight hrs hx)
          fun hne => h.sum_weights hrs hne
      | some D =>
        obtain ⟨ws, hws⟩ := mapM_get_isOk (d := D) (tos := rs.tos) fun t ht => by
          obtain ⟨y, hy, -⟩ := hw D rfl t (h.to_ hrs ht)
          exact Dict.mem_keys_of_get? hy
        have hpos : ∀ x ∈ ws, 0 < x := by
          intro x hx
          obtain ⟨t, ht, hD⟩ := forall₂_exists_left (mapM_ok_iff.1 hws) hx
          obtain ⟨y, hy, hy0⟩ := hw D rfl t (h.to_ hrs ht)
          rw [Dict.get, hy] at hD
          cases hD
          exact hy0
        exact pick_one_isOk env.R hlen (ws := ws) hws (fun x hx => (hpos x hx).le)
          fun hne => sum_pos_of_pos hpos hne)
  obtain ⟨-, outs, hs⟩ := select_one_ok env.R hg hr'
  refine ⟨rows, r', hr', ?_, ?_⟩
  · cases pop with
    | true =>
      refine h.of_sub (.selectOne h.reachable hr') (hp rfl) fun f x hx => ?_
      rw [hs.pairs] at hx
      split at hx
      · exact (kept_sublist _ _).subset hx
      · exact hx
    | false =>
      refine h.of_same (.selectOne h.reachable hr') fun f => ?_
      rw [hs.pairs]
      simp
  · intro row hrow
    have hm : row ∈ outs.filterMap id := by
      rcases hs.rows_eq with ⟨-, e⟩ | ⟨-, s, e⟩
      · rw [← e]; exact hrow
      · rw [e] at hrow; exact mem_of_mem_oneToOne env.R hrow
    rw [List.mem_filterMap] at hm
    obtain ⟨o, ho, he⟩ := hm
    simp only [id] at he
    subst he
    obtain ⟨q, hm, hq⟩ := forall₂_exists_left hs.outs_ok ho
    cases hq with
    | hit hg ht hw => exact Or.inr ⟨_, rfl, h.to_ hg (List.mem_of_getElem? ht)⟩
    | blank hd hf => exact Or.inl ⟨rfl, hd, _, hm, fun ho => h.owned ho hf⟩

theorem selectMany (h : RelFits env K r) {reqs : List (Val × Val × Int)}
    (hn : (reqs.map (·.1)).Nodup) (hq : ∀ x ∈ reqs, 0 ≤ x.2.2) (pop discard : Bool)
    (hp : pop = true → K.Takes) :
    ∃ rows r', r.select_many env.R reqs pop discard = .ok (rows, r') ∧ RelFits env K r' ∧
      ∀ x ∈ rows, ∀ t ∈ x.2, K.items t := by
  have hg := h.reachable.gwf
  obtain ⟨res, r', out, hr', hs⟩ := select_many_spec env.R hg hn hq pop discard
  refine ⟨res, r', hr', ?_, ?_⟩
  · cases pop with
    | true =>
      refine h.of_sub (.selectMany hn hq h.reachable hr') (hp rfl) fun f x hx => ?_
      rw [hs.pairs] at hx
      split at hx
      · exact (kept_sublist _ _).subset hx
      · exact hx
    | false =>
      refine h.of_same (.selectMany hn hq h.reachable hr') fun f => ?_
      rw [hs.pairs]
      simp
  · intro x hx t ht
    rw [hs.res_eq] at hx
    rcases List.mem_append.1 hx with hx | hx
    · obtain ⟨row, hrow, rfl⟩ := List.mem_map.1 hx
      obtain ⟨rq, -, hp'⟩ := hs.picks row.from_
      have := hp'.tos_eq row (List.mem_filter.2 ⟨hrow, by simp⟩)
      simp only at ht
      rw [this] at ht
      obtain ⟨y, hy, rfl⟩ := List.mem_map.1 ht
      rw [picked, List.mem_filterMap] at hy
      obtain ⟨i, -, hi⟩ := hy
      exact (h.pair (f := row.from_) (x := y.2) (List.mem_of_getElem? hi)).2
    · obtain ⟨l, -, rfl⟩ := List.mem_map.1 hx
      simp at ht

theorem selectAll (h : RelFits env K r) (froms : List Val) :
    ∀ x ∈ r.select_all_horizontal env.orders froms, ∀ t ∈ x.2, K.items t := by
  intro x hx t ht
  rw [select_all_horizontal, List.mem_map] at hx
  obtain ⟨f, -, rfl⟩ := hx
  simp only [List.mem_map, List.mem_filter] at ht
  obtain ⟨y, ⟨hy, -⟩, rfl⟩ := ht
  have := (C17_get_relations_some r env.orders env.orders froms).mem_iff.1 hy
  exact (h.content y (List.mem_filter.1 this).1).2

end Spec.RelFits

end Trumania
