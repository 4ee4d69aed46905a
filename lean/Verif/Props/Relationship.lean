import Verif.Proofs.Removal

/-!
# Properties C16 to C23, C27, C28 (relationships: content, reading, `select_one`)

The content of a relationship is what `get_relations()` returns. `Reachable` covers every sequence
of public calls, each with its own set order and its own tie-breaking of `argsort`.
-/

namespace Trumania

open Relationship

variable {σ : Type} (R : Rng σ)

/-! ### C16 -/

/-- one addition appends the added triples to the content -/
theorem C16_step {r r' : Relationship σ} (hr : Reachable R r) {c : AddCall} {env : Orders}
    (h : AddCall.exec r (c, env) = .ok r') (env₀ env' : Orders) :
    (r'.get_relations env').Perm (r.get_relations env₀ ++ Spec.added c) := by
  obtain ⟨r1, h1, -, -, -, h5⟩ := addCall_spec hr.gwf c env (addCall_wellSized h)
  rw [h1] at h; cases h
  rw [get_relations_perm_iff]
  intro f
  rw [rowsOf_append, get_relations_none_rowsOf]
  exact h5 f

theorem reachable_addCall {r r' : Relationship σ} (hr : Reachable R r) {c : AddCall} {env : Orders}
    (h : AddCall.exec r (c, env) = .ok r') : Reachable R r' := by
  cases c with
  | relations f t w => exact hr.add env h
  | grouped f t => exact hr.addGrouped env h

/-- **C16** after any sequence of `add_relations` / `add_grouped_relations` calls on a new
relationship, the content is exactly the multiset of the added triples. -/
theorem C16_content_of_additions (seed : Int) (calls : List (AddCall × Orders))
    {r : Relationship σ} (h : calls.foldlM AddCall.exec (Relationship.new R seed) = .ok r)
    (env : Orders) :
    (r.get_relations env).Perm (calls.flatMap fun c => Spec.added c.1) := by
  have key : ∀ (calls : List (AddCall × Orders)) (r0 : Relationship σ), Reachable R r0 →
      calls.foldlM AddCall.exec r0 = .ok r →
      (r.get_relations env).Perm (r0.get_relations env ++ calls.flatMap fun c => Spec.added c.1) := by
    intro calls
    induction calls with
    | nil => intro r0 _ h; cases h; simp
    | cons c calls ih =>
      intro r0 hr h
      rw [List.foldlM_cons] at h
      obtain ⟨r1, h1, h2⟩ := bind_eq_ok.1 h
      refine (ih r1 (reachable_addCall R hr h1) h2).trans ?_
      rw [List.flatMap_cons, ← List.append_assoc]
      exact (C16_step R hr h1 env env).append_right _
  have := key calls _ (Reachable.new seed) h
  have h0 : (Relationship.new R seed).get_relations env = [] := by
    have he : env.set.order ([] : List Val) = [] := by
      rw [List.eq_nil_iff_forall_not_mem]; intro x hx; simp [env.set.mem] at hx
    simp [get_relations, Relationship.new, he]
  rwa [h0, List.nil_append] at this

/-- **C16** additions never fail when the arrays are long enough; otherwise they raise. -/
theorem C16_additions_total {r : Relationship σ} (hr : Reachable R r) (c : AddCall) (env : Orders) :
    (∃ r', AddCall.exec r (c, env) = .ok r') ↔ Spec.WellSized c :=
  ⟨fun ⟨_, h⟩ => addCall_wellSized h, fun h => by
    obtain ⟨r', h1, -⟩ := addCall_spec hr.gwf c env h; exact ⟨r', h1⟩⟩

/-! ### C17 -/

/-- **C17** `get_relations(from_ids)` is the part of the content whose from is requested. -/
theorem C17_get_relations_some (r : Relationship σ) (env env' : Orders) (l : List Val) :
    (r.get_relations env (some l)).Perm
      ((r.get_relations env').filter fun x => decide (x.1 ∈ l)) := by
  apply perm_of_rowsOf
  intro f
  have : rowsOf f ((r.get_relations env').filter fun x => decide (x.1 ∈ l)) =
      (rowsOf f (r.get_relations env')).filter fun x => decide (x.1 ∈ l) := by
    rw [rowsOf, rowsOf, List.filter_filter, List.filter_filter]
    congr 1; funext x; exact Bool.and_comm _ _
  rw [this, get_relations_some_rowsOf, get_relations_none_rowsOf]
  split
  · rename_i hf
    rw [List.filter_eq_self.2]
    intro x hx
    obtain ⟨y, -, rfl⟩ := List.mem_map.1 hx
    simpa using hf
  · rename_i hf
    rw [List.filter_eq_nil_iff.2]
    intro x hx
    obtain ⟨y, -, rfl⟩ := List.mem_map.1 hx
    simpa using hf

/-- **C17** `get_neighbourhood_size` has an entry exactly for the requested froms, which is the
number of their relations. -/
theorem C17_neighbourhood_size {r : Relationship σ} (hr : Reachable R r) (env : Orders)
    (l : List Val) (f : Val) :
    (r.get_neighbourhood_size l).get? f =
      if f ∈ l then some ((r.get_relations env).countP fun x => decide (x.1 = f)) else none := by
  have hcount : (r.get_relations env).countP (fun x => decide (x.1 = f)) =
      match r.grouped.get? f with
      | some rels => rels.size
      | none => 0 := by
    rw [List.countP_eq_length_filter]
    have := congrArg List.length (get_relations_none_rowsOf env r f)
    rw [rowsOf, List.length_map] at this
    rw [this]
    cases hf : r.grouped.get? f with
    | none => rw [pairsAt_of_none hf]; rfl
    | some rs => exact pairsAt_length hr.gwf hf
  rw [hcount, get_neighbourhood_size]
  have key : ∀ (l : List Val) (d : Dict Val Nat),
      (l.foldl (fun d f => d.set f (match r.grouped.get? f with
        | some rels => rels.size
        | none => 0)) d).get? f =
      if f ∈ l then some (match r.grouped.get? f with
        | some rels => rels.size
        | none => 0) else d.get? f := by
    intro l
    induction l with
    | nil => intro d; simp
    | cons a l ih =>
      intro d
      rw [List.foldl_cons, ih, Dict.get?_set]
      by_cases h1 : f ∈ l
      · simp [h1]
      · by_cases h2 : a = f
        · subst h2; simp [h1]
        · have h2' : ¬ f = a := fun h => h2 h.symm
          simp [h1, h2, h2']
  exact key l []

/-- **C17** `unique_tos` is the set of the tos of the content. -/
theorem C17_unique_tos {r : Relationship σ} (hr : Reachable R r) (env : Orders) (t : Val) :
    t ∈ r.unique_tos ↔ ∃ f w, (f, t, w) ∈ r.get_relations env := by
  have hg := hr.gwf
  rw [unique_tos, List.mem_flatMap]
  constructor
  · rintro ⟨⟨f, rs⟩, hm, ht⟩
    have hf := Dict.get?_of_mem hg.wf hm
    obtain ⟨i, hi, rfl⟩ := List.getElem_of_mem ht
    obtain ⟨w, hw, -⟩ := pairsAt_getElem? hg hf (List.getElem?_eq_getElem hi)
    exact ⟨f, w, (mem_get_relations env r).2 (List.mem_of_getElem? hw)⟩
  · rintro ⟨f, w, h⟩
    rw [mem_get_relations] at h
    cases hf : r.grouped.get? f with
    | none => rw [pairsAt_of_none hf] at h; simp at h
    | some rs =>
      rw [pairsAt_of_get? hf] at h
      exact ⟨(f, rs), Dict.get?_mem hf, (List.of_mem_zip h).1⟩

/-! ### C18 -/

/-- **C18** (what the code does) `remove_relations` removes every copy of the listed pairs, keeps
the other relations with their weights, and, for a from unknown to the relationship, *adds* the
listed pairs with weight 0. `known` are the froms that are keys of the internal dictionary; it
contains every from that has a relation. -/
theorem C18_remove_relations_effect {r : Relationship σ} (hr : Reachable R r) (env env₀ env' : Orders)
    (froms tos : List Val) (hl : froms.length ≤ tos.length) :
    ∃ (r' : Relationship σ) (known : List Val), r.remove_relations env froms tos = .ok r' ∧
      (∀ f, Spec.Has (r.get_relations env₀) f → f ∈ known) ∧
      (r'.get_relations env').Perm
        (((r.get_relations env₀).filter fun x => decide ((x.1, x.2.1) ∉ froms.zip tos)) ++
          ((Spec.added (.relations froms tos (.scalar 0))).filter fun x => decide (x.1 ∉ known))) := by
  obtain ⟨r', h1, -, -, h4, h5, -⟩ := remove_relations_spec env hr.gwf hl
  refine ⟨r', r.grouped.keys, h1, ?_, ?_⟩
  · intro f hf
    rw [has_iff env₀ hr.gwf] at hf
    obtain ⟨rs, h, -⟩ := hf
    exact Dict.mem_keys_of_get? h
  rw [get_relations_perm_iff]
  intro f
  refine (h5 f).trans ?_
  have e1 : rowsOf f ((r.get_relations env₀).filter
      fun x => decide ((x.1, x.2.1) ∉ froms.zip tos)) =
      ((pairsAt r.grouped f).filter (fun x => decide ((f, x.1) ∉ froms.zip tos))).map
        (fun x => (f, x)) := by
    have := get_relations_none_rowsOf env₀ r f
    rw [rowsOf] at this ⊢
    rw [List.filter_filter]
    have hc : ∀ x : Val × Val × Rat, (decide (x.1 = f) && decide ((x.1, x.2.1) ∉ froms.zip tos)) =
        (decide ((f, x.2.1) ∉ froms.zip tos) && decide (x.1 = f)) := by
      intro x
      by_cases hx : x.1 = f
      · rw [hx]; simp
      · simp [hx]
    simp only [hc]
    rw [← List.filter_filter, this, List.filter_map]
    rfl
  have e2 : rowsOf f ((Spec.added (.relations froms tos (.scalar 0))).filter
      fun x => decide (x.1 ∉ r.grouped.keys)) =
      if f ∈ r.grouped.keys then [] else rowsOf f (addedRows froms tos (.scalar 0)) := by
    rw [added_relations, rowsOf, List.filter_filter]
    split
    · rename_i hk
      rw [List.filter_eq_nil_iff]
      intro x _
      by_cases hx : x.1 = f
      · rw [hx]; simp [hk]
      · simp [hx]
    · rename_i hk
      rw [rowsOf]
      apply List.filter_congr
      intro x _
      by_cases hx : x.1 = f
      · rw [hx]; simp [hk]
      · simp [hx]
  rw [rowsOf_append, e1, e2]
  split
  · rw [List.append_nil]
  · rename_i hk
    rw [pairsAt_of_none (Dict.get?_eq_none_iff.2 hk)]
    simp

/-- **C18** when every listed from has at least one relation, `remove_relations` removes exactly
the listed pairs (all copies) and nothing else changes. Missing for the full claim: froms without
any relation, for which the claim is false (`C18_unknown_from_counterexample`). -/
theorem C18_remove_relations_partial {r : Relationship σ} (hr : Reachable R r)
    (env env₀ env' : Orders) (froms tos : List Val) (hl : froms.length ≤ tos.length)
    (hf : ∀ f ∈ froms, Spec.Has (r.get_relations env₀) f) :
    ∃ r', r.remove_relations env froms tos = .ok r' ∧
      (r'.get_relations env').Perm
        ((r.get_relations env₀).filter fun x => decide ((x.1, x.2.1) ∉ froms.zip tos)) := by
  obtain ⟨r', known, h1, h2, h3⟩ := C18_remove_relations_effect R hr env env₀ env' froms tos hl
  refine ⟨r', h1, h3.trans ?_⟩
  rw [List.filter_eq_nil_iff (l := Spec.added _) |>.2, List.append_nil]
  rintro ⟨f, t, w⟩ hx
  rw [added_relations, mem_addedRows_scalar hl] at hx
  have := h2 f (hf f (List.of_mem_zip hx.1).1)
  simpa using this

/-- **C18** counterexample to the full claim: removing a pair whose from is unknown adds it, with
weight 0. -/
theorem C18_unknown_from_counterexample :
    ∃ (r : Relationship Nat) (froms tos : List Val) (r' : Relationship Nat),
      Reachable Rng.counter r ∧ r.remove_relations Orders.a froms tos = .ok r' ∧
      r.get_relations Orders.a = [] ∧ (froms, tos) = ([.str "a"], [.str "x"]) ∧
      r'.get_relations Orders.a = [(.str "a", .str "x", 0)] := by
  refine ⟨Relationship.new Rng.counter 1, [.str "a"], [.str "x"],
    ⟨1, 1, [(.str "a", ⟨[.str "x"], [0]⟩)]⟩, Reachable.new 1, ?_, ?_, rfl, ?_⟩ <;> decide +kernel

/-! ### C19 -/

/-- **C19** without one_to_one, `select_one` gives to each request, in order, the row it should get;
the content only changes with `remove_selected`. -/
theorem C19_select_one_rows {r r' : Relationship σ} (hr : Reachable R r) (env : Orders)
    {reqs : List (Val × Val)} {pop discard : Bool} {ow : Option (Dict Val Rat)} {rows : List OneRow}
    (h : r.select_one R (some reqs) pop discard false ow = .ok (rows, r')) :
    (∃ outs, rows = outs.filterMap id ∧
      List.Forall₂ (Spec.Answers (r.get_relations env) discard) reqs outs) ∧
    (pop = false → ∀ env', (r'.get_relations env').Perm (r.get_relations env)) := by
  obtain ⟨-, outs, hs⟩ := select_one_ok R hr.gwf h
  refine ⟨⟨outs, ?_, ?_⟩, ?_⟩
  · rcases hs.rows_eq with h | h
    · exact h.2
    · exact absurd h.1 (by simp)
  · exact hs.outs_ok.imp fun _ _ => outcome_answers env hr.gwf
  · intro hp env'
    rw [get_relations_perm_iff, hs.keep hp]
    intro f
    rw [get_relations_none_rowsOf]

/-- **C19** with `from_ids=None`, the requests are the froms of the relationship, each once, the
ones that have relations included. -/
theorem C19_select_one_none {r r' : Relationship σ} (hr : Reachable R r) (env : Orders)
    {pop discard : Bool} {ow : Option (Dict Val Rat)} {rows : List OneRow}
    (h : r.select_one R none pop discard false ow = .ok (rows, r')) :
    ∃ reqs : List (Val × Val), (reqs.map Prod.snd).Nodup ∧ (reqs.map Prod.fst).Nodup ∧
      (∀ f, Spec.Has (r.get_relations env) f → f ∈ reqs.map Prod.snd) ∧
      ∃ outs, rows = outs.filterMap id ∧
        List.Forall₂ (Spec.Answers (r.get_relations env) discard) reqs outs := by
  obtain ⟨-, outs, hs⟩ := select_one_ok R hr.gwf h
  have e : (r.requests none).map Prod.snd = r.grouped.keys := by
    rw [requests, List.map_map]
    conv_rhs => rw [← List.zipIdx_map_fst 0 r.grouped.keys]
    rfl
  have e1 : (r.requests none).map Prod.fst =
      (List.range r.grouped.keys.length).map fun (i : Nat) => Val.num (i : Rat) := by
    rw [requests, List.map_map, List.range_eq_range', ← List.zipIdx_map_snd 0 r.grouped.keys,
      List.map_map]
    rfl
  refine ⟨r.requests none, ?_, ?_, ?_, outs, ?_, ?_⟩
  · rw [e]; exact hr.gwf.wf
  · rw [e1]
    apply List.Nodup.map _ List.nodup_range
    intro a b hab
    simpa using hab
  · intro f hf
    rw [e]
    rw [has_iff env hr.gwf] at hf
    obtain ⟨rs, h, -⟩ := hf
    exact Dict.mem_keys_of_get? h
  · rcases hs.rows_eq with h | h
    · exact h.2
    · exact absurd h.1 (by simp)
  · exact hs.outs_ok.imp fun _ _ => outcome_answers env hr.gwf

/-- **C19** `select_one` never fails when all weights are positive. -/
theorem C19_select_one_total {r : Relationship σ} (hr : Reachable R r) (env : Orders)
    (hw : ∀ x ∈ r.get_relations env, 0 < x.2.2) (reqs : Option (List (Val × Val)))
    (pop discard o2o : Bool) :
    ∃ rows r', r.select_one R reqs pop discard o2o none = .ok (rows, r') := by
  obtain ⟨⟨rows, r'⟩, h⟩ := select_one_isOk R (reqs := reqs) (remove := pop) (discard := discard)
    (o2o := o2o) (ow := none) hr.gwf rfl (by
      intro q _ rs hrs s
      have hlen := hr.gwf.len _ _ hrs
      have hpos : ∀ x ∈ rs.weights, 0 < x := by
        intro x hx
        obtain ⟨i, hi, rfl⟩ := List.getElem_of_mem hx
        obtain ⟨w, hw', hw2⟩ := pairsAt_getElem? hr.gwf hrs
          (show rs.tos[i]? = some (rs.tos[i]'(by omega)) from List.getElem?_eq_getElem _)
        rw [List.getElem?_eq_getElem hi] at hw2
        cases hw2
        exact hw _ ((mem_get_relations env r).2 (List.mem_of_getElem? hw'))
      refine pick_one_isOk R hlen (ws := rs.weights) rfl (fun x hx => (hpos x hx).le) ?_
      intro hne
      obtain ⟨a, l, hal⟩ := List.exists_cons_of_ne_nil hne
      rw [hal, List.sum_cons]
      have h1 := hpos a (by simp [hal])
      have h2 : 0 ≤ l.sum := List.sum_nonneg (fun x hx => (hpos x (by simp [hal, hx])).le)
      exact add_pos_of_pos_of_nonneg h1 h2)
  exact ⟨rows, r', h⟩

/-- a reachable relationship used in the examples: two froms, a duplicated pair -/
def exRel : Relationship Nat := ⟨1, 1, [(.str "a", ⟨[.str "x", .str "y", .str "x"], [1, 2, 3]⟩),
  (.str "b", ⟨[.str "x"], [0]⟩)]⟩

theorem exRel_reachable : Reachable Rng.counter exRel :=
  (Reachable.new (R := Rng.counter) 1).add Orders.a
    (f := [.str "a", .str "a", .str "b", .str "a"])
    (t := [.str "x", .str "y", .str "x", .str "x"]) (w := .list [1, 2, 0, 3]) (by decide +kernel)

/-- the second addition of C16's statement, checked on a concrete history -/
example : (List.foldlM AddCall.exec exRel
    [(.grouped [.str "b", .str "c"] [[.str "x", .str "z"], []], Orders.a)]).toOption.map
      (fun r => r.get_relations Orders.a) = some
    [(.str "a", .str "x", 1), (.str "a", .str "y", 2), (.str "a", .str "x", 3),
     (.str "b", .str "x", 0), (.str "b", .str "x", 1), (.str "b", .str "z", 1)] := by decide +kernel

example : Spec.WellSized (.relations [.str "a", .str "b"] [.str "x", .str "y", .str "z"] (.list [1, 2])) :=
  ⟨by decide, by rintro ws ⟨⟩; decide⟩

/-- the hypotheses of `C18_remove_relations_partial` hold on a relationship with a duplicated pair -/
example : ∃ r', exRel.remove_relations Orders.a [.str "a"] [.str "x"] = .ok r' ∧
    (r'.get_relations Orders.a).Perm [(.str "a", .str "y", 2), (.str "b", .str "x", 0)] := by
  obtain ⟨r', h1, h2⟩ := C18_remove_relations_partial Rng.counter exRel_reachable Orders.a Orders.a
    Orders.a [.str "a"] [.str "x"] (by decide) (by
      intro f hf
      simp only [List.mem_singleton] at hf; subst hf
      exact ⟨.str "y", 2, by decide +kernel⟩)
  refine ⟨r', h1, h2.trans ?_⟩
  decide +kernel

/-- a selection with a served request, a duplicated one and an unserved one -/
example : exRel.select_one Rng.counter (some [(.num 7, .str "a"), (.num 8, .str "z"),
    (.num 9, .str "a")]) false false false none =
    .ok ([⟨.num 7, .str "a", some 0, some (.str "x")⟩, ⟨.num 8, .str "z", none, none⟩,
      ⟨.num 9, .str "a", some 1, some (.str "y")⟩], { exRel with state := 3 }) := by decide +kernel

end Trumania
