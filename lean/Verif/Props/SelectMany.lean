import Verif.Proofs.ManyLabels
import Verif.Props.Relationship

/-!
# Properties C24, C25, C26 (`select_many`)

Requests are (label, from, quantity) with distinct labels and non-negative quantities.
-/

namespace Trumania

open Relationship

variable {σ : Type} (R : Rng σ)

theorem tosOf_perm_pairs (r : Relationship σ) (env : Orders) (f : Val) :
    Spec.tosOf (r.get_relations env) f = (pairsAt r.grouped f).map Prod.fst := by
  have := get_relations_none_rowsOf env r f
  rw [rowsOf] at this
  rw [Spec.tosOf, this, List.map_map]
  rfl

/-- total quantity requested on a from -/
def Spec.asked (reqs : List (Val × Val × Int)) (f : Val) : Int :=
  ((reqs.filter fun q => decide (q.2.1 = f)).map fun q => q.2.2).sum

/-- **C24** `select_many` never fails; what it hands out for a from is a sub-multiset of its
relations, as large as possible; no request gets more than it asked and, when a from can serve
everything, each of its requests gets exactly what it asked. -/
theorem C24_select_many_quantities {r : Relationship σ} (hr : Reachable R r) (env : Orders)
    (reqs : List (Val × Val × Int)) (hn : (reqs.map (·.1)).Nodup) (hq : ∀ q ∈ reqs, 0 ≤ q.2.2)
    (pop discard : Bool) :
    ∃ res r', r.select_many R reqs pop discard = .ok (res, r') ∧
      (∀ f, (Spec.handedFrom reqs res f).Subperm (Spec.tosOf (r.get_relations env) f)) ∧
      (∀ f, ((Spec.handedFrom reqs res f).length : Int) =
        min (Spec.asked reqs f) (Spec.tosOf (r.get_relations env) f).length) ∧
      (∀ q ∈ reqs, ((Spec.handed res q.1).length : Int) ≤ q.2.2) ∧
      (∀ q ∈ reqs, Spec.asked reqs q.2.1 ≤ (Spec.tosOf (r.get_relations env) q.2.1).length →
        ((Spec.handed res q.1).length : Int) = q.2.2) := by
  obtain ⟨res, r', out, h1, hs⟩ := select_many_spec R hr.gwf hn hq pop discard
  have hasked : ∀ (f : Val) (rq : List (Val × Int)), rq.Perm (reqsOf reqs f) → (rq.map Prod.snd).sum = Spec.asked reqs f := by
    intro f rq hp
    rw [(hp.map _).sum_eq, reqsOf, List.map_map]
    rfl
  have hnn : ∀ (f : Val) (rq : List (Val × Int)), rq.Perm (reqsOf reqs f) → ∀ x ∈ rq, 0 ≤ x.2 := by
    intro f rq hp x hx
    have := hp.mem_iff.1 hx
    rw [reqsOf, List.mem_map] at this
    obtain ⟨q, hq', rfl⟩ := this
    exact hq q (List.mem_filter.1 hq').1
  -- what a request gets
  have hgiven : ∀ q ∈ reqs, ∃ rq : List (Val × Int), rq.Perm (reqsOf reqs q.2.1) ∧ ∃ i : Nat, ∃ hi : i < rq.length,
      rq[i] = (q.1, q.2.2) ∧ ((Spec.handed res q.1).length : Int) =
        (Spec.greedy (rq.map Prod.snd) (pairsAt r.grouped q.2.1).length)[i]'(by
          rw [greedy_length, List.length_map]; exact hi) := by
    intro q hq'
    obtain ⟨rq, hp, hps⟩ := hs.picks q.2.1
    refine ⟨rq, hp, ?_⟩
    have hm : (q.1, q.2.2) ∈ rq := hp.mem_iff.2
      (List.mem_map.2 ⟨q, List.mem_filter.2 ⟨hq', by simp⟩, rfl⟩)
    obtain ⟨i, hi, he⟩ := List.getElem_of_mem hm
    refine ⟨i, hi, he, ?_⟩
    rw [hs.handed_eq, hs.filter_label hn hq']
    refine hps.given ((hp.map _).nodup_iff.2 (reqsOf_nodup hn _)) ?_
    rw [List.mem_iff_getElem]
    refine ⟨i, ?_, ?_⟩
    · rw [List.length_zip, greedy_length]; simpa using hi
    · rw [List.getElem_zip]
      simp [he]
  refine ⟨res, r', h1, ?_, ?_, ?_, ?_⟩
  · intro f
    obtain ⟨rq, hp, hps⟩ := hs.picks f
    rw [tosOf_perm_pairs]
    exact (hs.handedFrom_perm hn f).subperm.trans hps.tos_subperm
  · intro f
    obtain ⟨rq, hp, hps⟩ := hs.picks f
    rw [(hs.handedFrom_perm hn f).length_eq, hps.total (hnn f rq hp), hasked f rq hp,
      tosOf_perm_pairs, List.length_map]
  · intro q hq'
    obtain ⟨rq, hp, i, hi, he, hg⟩ := hgiven q hq'
    rw [hg]
    have := greedy_le (l := rq.map Prod.snd) (t := (pairsAt r.grouped q.2.1).length) i (by simpa using hi)
    refine this.trans (le_of_eq ?_)
    simp [he]
  · intro q hq' hcap
    obtain ⟨rq, hp, i, hi, he, hg⟩ := hgiven q hq'
    rw [hg]
    have hsum : (rq.map Prod.snd).sum ≤ (pairsAt r.grouped q.2.1).length := by
      rw [hasked _ _ hp]
      rw [tosOf_perm_pairs, List.length_map] at hcap
      exact hcap
    have hgr := greedy_of_sum_le (l := rq.map Prod.snd) (by
      intro v hv
      obtain ⟨x, hx, rfl⟩ := List.mem_map.1 hv
      exact hnn _ rq hp x hx) hsum
    simp only [hgr, List.getElem_map, he]

/-! ### C25 -/

/-- **C25** with `discard_empty=False` the result has exactly one row per request label; with
`discard_empty=True` it has exactly one row per request that is served something, and these rows
are not empty. -/
theorem C25_select_many_labels {r r' : Relationship σ} (hr : Reachable R r)
    {reqs : List (Val × Val × Int)} (hn : (reqs.map (·.1)).Nodup) (hq : ∀ q ∈ reqs, 0 ≤ q.2.2)
    {pop discard : Bool} {res : List (Val × List Val)}
    (h : r.select_many R reqs pop discard = .ok (res, r')) :
    (discard = false → (res.map Prod.fst).Perm (reqs.map (·.1))) ∧
    (discard = true → (res.map Prod.fst).Nodup ∧ (∀ x ∈ res, x.2 ≠ []) ∧
      (∀ l, l ∈ res.map Prod.fst ↔ l ∈ reqs.map (·.1) ∧ Spec.handed res l ≠ [])) := by
  obtain ⟨res', r1, out, h1, hs⟩ := select_many_spec R hr.gwf hn hq pop discard
  rw [h1] at h
  cases h
  have hnl := hs.labels_nodup hn
  have hsub := hs.labels_subset
  have hser : (out.map fun x => (x.label, x.tos)).map Prod.fst = out.map (·.label) := by
    rw [List.map_map]; rfl
  constructor
  · intro hd
    subst hd
    rw [hs.res_eq, List.map_append, hser]
    by_cases hlen : out.length = reqs.length
    · have : ((if (!false && decide (out.length ≠ reqs.length)) = true then
          sortBy Val.le ((uniq (reqs.map (·.1))).filter (fun l => decide (l ∉ out.map (·.label))))
          else []).map fun l => (l, ([] : List Val))) = [] := by simp [hlen]
      rw [this, List.map_nil, List.append_nil]
      refine (List.subperm_of_subset hnl hsub).perm_of_length_le ?_
      simp [hlen]
    · rw [if_pos (by simpa using hlen), List.map_map]
      have e : ∀ l : List Val, l.map (Prod.fst ∘ fun l => (l, ([] : List Val))) = l := by
        intro l; simp [Function.comp_def]
      rw [e]
      refine (List.Perm.append_left _ (sortBy_perm _ _)).trans ?_
      rw [List.perm_ext_iff_of_nodup _ hn]
      · intro a
        rw [List.mem_append, List.mem_filter, mem_uniq]
        constructor
        · rintro (h | h)
          · exact hsub h
          · exact h.1
        · intro h
          by_cases ha : a ∈ out.map (·.label)
          · exact Or.inl ha
          · exact Or.inr ⟨h, by simpa using ha⟩
      · rw [List.nodup_append]
        refine ⟨hnl, (uniq_nodup _).filter _, ?_⟩
        intro a ha b hb hab
        subst hab
        have := (List.mem_filter.1 hb).2
        simp only [decide_eq_true_eq] at this
        exact this ha
  · intro hd
    subst hd
    have hres : res = out.map fun x => (x.label, x.tos) := by
      rw [hs.res_eq]; simp
    refine ⟨?_, ?_, ?_⟩
    · rw [hres, hser]; exact hnl
    · intro x hx
      rw [hres] at hx
      obtain ⟨row, hrow, rfl⟩ := List.mem_map.1 hx
      exact hs.row_tos_ne hrow
    · intro l
      rw [hs.handed_eq, hres, hser]
      constructor
      · intro hl
        refine ⟨hsub hl, ?_⟩
        obtain ⟨row, hrow, rfl⟩ := List.mem_map.1 hl
        intro h0
        rw [List.flatMap_eq_nil_iff] at h0
        exact hs.row_tos_ne hrow (h0 row (List.mem_filter.2 ⟨hrow, by simp⟩))
      · rintro ⟨-, hne⟩
        by_contra hl
        apply hne
        rw [List.filter_eq_nil_iff.2]
        · rfl
        · intro row hrow he
          simp only [decide_eq_true_eq] at he
          exact hl (List.mem_map.2 ⟨row, hrow, he⟩)

/-! ### C26 -/

/-- **C26** (what the code does) a pop of `select_many` removes, for each from, exactly the
relations handed to *one* of the served requests on that from (the first one of the shuffled
requests), and nothing else. -/
theorem C26_pop_effect {r r' : Relationship σ} (hr : Reachable R r) (env env' : Orders)
    {reqs : List (Val × Val × Int)} (hn : (reqs.map (·.1)).Nodup) (hq : ∀ q ∈ reqs, 0 ≤ q.2.2)
    {discard : Bool} {res : List (Val × List Val)}
    (h : r.select_many R reqs true discard = .ok (res, r')) :
    ∃ removed, (r.get_relations env).Perm (r'.get_relations env' ++ removed) ∧
      ∀ f, (Spec.handedFrom reqs res f = [] ∧ Spec.tosOf removed f = []) ∨
        ∃ q ∈ reqs, q.2.1 = f ∧ Spec.handed res q.1 ≠ [] ∧
          Spec.tosOf removed f = Spec.handed res q.1 := by
  obtain ⟨res', r1, out, h1, hs⟩ := select_many_spec R hr.gwf hn hq true discard
  rw [h1] at h
  cases h
  set L : List (Val × Nat) := (uniq (out.map (·.from_))).flatMap fun f =>
    (firstIdxs out f).map fun i => (f, i) with hL
  have hfi : ∀ f, f ∉ uniq (out.map (·.from_)) → firstIdxs out f = [] := by
    intro f hf
    have : manyOf out f = [] := by
      rw [manyOf, List.filter_eq_nil_iff]
      intro row hrow he
      simp only [decide_eq_true_eq] at he
      exact hf (mem_uniq.2 (List.mem_map.2 ⟨row, hrow, he⟩))
    rw [firstIdxs, this]
  have hrows : ∀ f, rowsOf f L = (firstIdxs out f).map fun i => (f, i) := by
    intro f
    rw [hL, rowsOf_flatMap (uniq_nodup _)]
    split
    · rfl
    · rename_i hf; rw [hfi f hf]; rfl
  have hidx : ∀ f, (rowsOf f L).map Prod.snd = firstIdxs out f := by
    intro f
    rw [hrows, List.map_map]
    simp [Function.comp_def]
  have hnodup : ∀ f, (firstIdxs out f).Nodup := by
    intro f
    obtain ⟨rq, hp, hps⟩ := hs.picks f
    rw [firstIdxs]
    cases hm : manyOf out f with
    | nil => simp
    | cons row rows =>
      have := hps.nodup
      rw [hm, List.flatMap_cons] at this
      exact (List.nodup_append.1 this).1
  have hLn : L.Nodup := by
    apply List.Nodup.of_map (fun x => x)
    rw [List.map_id']
    rw [List.nodup_iff_count_le_one]
    rintro ⟨f, i⟩
    have : List.count (f, i) L = List.count (f, i) (rowsOf f L) := by
      rw [rowsOf, List.count_filter]; simp
    rw [this, hrows]
    apply List.nodup_iff_count_le_one.1
    exact (hnodup f).map (by intro a b hab; simpa using hab)
  refine ⟨storedAt r.grouped L.dedup, removed_perm (r := r) (r' := r') env env' (L := L) ?_, ?_⟩
  · intro f
    rw [hs.pairs f, hidx]
    rfl
  · intro f
    rw [List.dedup_eq_self.2 hLn]
    have htos : Spec.tosOf (storedAt r.grouped L) f =
        (picked (pairsAt r.grouped f) (firstIdxs out f)).map Prod.fst := by
      have := rowsOf_storedAt r.grouped L f
      rw [hidx, rowsOf] at this
      rw [Spec.tosOf, this, List.map_map]
      rfl
    rw [htos]
    obtain ⟨rq, hp, hps⟩ := hs.picks f
    cases hm : manyOf out f with
    | nil =>
      left
      have := hs.handedFrom_perm hn f
      rw [hm] at this
      refine ⟨List.perm_nil.1 this, ?_⟩
      rw [firstIdxs, hm]; rfl
    | cons row rows =>
      right
      have hrow : row ∈ manyOf out f := by rw [hm]; simp
      have hrow' := List.mem_filter.1 hrow
      have hf : row.from_ = f := by simpa using hrow'.2
      have := hs.row_req hrow'.1
      rw [hf, reqsOf, List.map_map, List.mem_map] at this
      obtain ⟨q, hq', he⟩ := this
      rw [List.mem_filter] at hq'
      simp only [Function.comp_apply] at he
      have hqf : q.2.1 = f := by simpa using hq'.2
      have hfl : (manyOf out f).filter (fun x => decide (x.label = q.1)) = [row] := by
        have hnl : ((manyOf out f).map (·.label)).Nodup :=
          ((hp.map _).nodup_iff.2 (reqsOf_nodup hn _)).sublist hps.labels_sublist
        rw [hm, List.map_cons, List.nodup_cons] at hnl
        rw [hm, List.filter_cons, if_pos (by simp [he])]
        congr 1
        rw [List.filter_eq_nil_iff]
        intro x hx hxe
        simp only [decide_eq_true_eq] at hxe
        exact hnl.1 (List.mem_map.2 ⟨x, hx, by rw [hxe, he]⟩)
      have hh : Spec.handed res q.1 = row.tos := by
        rw [hs.handed_eq, hs.filter_label hn hq'.1, hqf, hfl]
        simp
      refine ⟨q, hq'.1, hqf, ?_, ?_⟩
      · rw [hh]; exact hs.row_tos_ne hrow'.1
      · rw [hh, hps.tos_eq row hrow, firstIdxs, hm]

/-- **C26** when no from is requested twice in the call, a pop of `select_many` removes exactly
what it hands out. Missing for the full claim: several requests on the same from, for which the
claim is false (`C26_two_requests_counterexample`). -/
theorem C26_select_many_pop_partial {r r' : Relationship σ} (hr : Reachable R r) (env env' : Orders)
    {reqs : List (Val × Val × Int)} (hn : (reqs.map (·.1)).Nodup) (hq : ∀ q ∈ reqs, 0 ≤ q.2.2)
    (hf : (reqs.map (·.2.1)).Nodup) {discard : Bool} {res : List (Val × List Val)}
    (h : r.select_many R reqs true discard = .ok (res, r')) :
    ∃ removed, (r.get_relations env).Perm (r'.get_relations env' ++ removed) ∧
      (removed.map fun x => (x.1, x.2.1)).Perm
        (reqs.flatMap fun q => (Spec.handed res q.1).map fun t => (q.2.1, t)) := by
  obtain ⟨removed, h1, h2⟩ := C26_pop_effect R hr env env' hn hq h
  refine ⟨removed, h1, ?_⟩
  apply perm_of_rowsOf
  intro f
  have e1 : rowsOf f (removed.map fun x => (x.1, x.2.1)) =
      (Spec.tosOf removed f).map fun t => (f, t) := by
    rw [rowsOf, List.filter_map, Spec.tosOf, List.map_map]
    apply List.map_congr_left
    intro x hx
    have := (List.mem_filter.1 hx).2
    simp only [Function.comp_apply, decide_eq_true_eq] at this
    simp [this]
  have e2 : rowsOf f (reqs.flatMap fun q => (Spec.handed res q.1).map fun t => (q.2.1, t)) =
      (Spec.handedFrom reqs res f).map fun t => (f, t) := by
    rw [Spec.handedFrom]
    clear hn hq hf h h1 h2 e1
    induction reqs with
    | nil => rfl
    | cons q reqs ih =>
      rw [List.flatMap_cons, rowsOf_append, ih, List.filter_cons]
      by_cases hqf : q.2.1 = f
      · rw [hqf, rowsOf_map_same, if_pos (by simp), List.flatMap_cons, List.map_append]
      · rw [rowsOf_map_ne hqf, if_neg (by simpa using hqf), List.nil_append]
  rw [e1, e2]
  apply List.Perm.map
  rcases h2 f with ⟨h3, h4⟩ | ⟨q, hq', hqf, -, h4⟩
  · rw [h3, h4]
  · rw [h4, Spec.handedFrom]
    have : (reqs.filter fun x => decide (x.2.1 = f)) = [q] := by
      clear hn hq h h1 h2 h4 e1 e2
      induction reqs with
      | nil => simp at hq'
      | cons a reqs ih =>
        rw [List.map_cons, List.nodup_cons] at hf
        rw [List.mem_cons] at hq'
        rw [List.filter_cons]
        rcases hq' with rfl | hq'
        · rw [if_pos (by simpa using hqf), List.filter_eq_nil_iff.2]
          intro x hx hxe
          simp only [decide_eq_true_eq] at hxe
          exact hf.1 (List.mem_map.2 ⟨x, hx, hxe.trans hqf.symm⟩)
        · rw [if_neg, ih hf.2 hq']
          simp only [decide_eq_true_eq]
          intro hae
          exact hf.1 (List.mem_map.2 ⟨q, hq', hqf.trans hae.symm⟩)
    rw [this]
    simp

/-- **C26** counterexample to the full claim: two requests on the same from, everything is handed
out, but one item stays in the relationship and the same call hands it out again. -/
theorem C26_two_requests_counterexample :
    ∃ (r r' : Relationship Nat) (reqs : List (Val × Val × Int)) (res : List (Val × List Val)),
      Reachable Rng.counter r ∧ (reqs.map (·.1)).Nodup ∧
      r.select_many Rng.counter reqs true true = .ok (res, r') ∧
      r.get_relations Orders.a = [(.str "a", .str "x", 1), (.str "a", .str "y", 1)] ∧
      Spec.handedFrom reqs res (.str "a") = [.str "y", .str "x"] ∧
      r'.get_relations Orders.a = [(.str "a", .str "y", 1)] := by
  refine ⟨⟨1, 1, [(.str "a", ⟨[.str "x", .str "y"], [1, 1]⟩)]⟩,
    ⟨1, 3, [(.str "a", ⟨[.str "y"], [1]⟩)]⟩,
    [(.num 1, .str "a", 1), (.num 2, .str "a", 1)],
    [(.num 2, [.str "x"]), (.num 1, [.str "y"])], ?_, ?_, ?_, ?_, ?_, ?_⟩
  · exact (Reachable.new (R := Rng.counter) 1).add Orders.a (f := [.str "a", .str "a"])
      (t := [.str "x", .str "y"]) (w := .scalar 1) (by decide +kernel)
  all_goals decide +kernel

/-- a call meeting the hypotheses of C24 and C25: one from is short, one is unknown, one quantity
is 0 -/
example : exRel.select_many Rng.counter [(.num 1, .str "a", 2), (.num 2, .str "a", 2),
    (.num 3, .str "z", 1), (.num 4, .str "b", 0)] true false =
    .ok ([(.num 2, [.str "x", .str "y"]), (.num 1, [.str "x"]), (.num 3, []), (.num 4, [])],
      ⟨1, 6, [(.str "a", ⟨[.str "x"], [3]⟩), (.str "b", ⟨[.str "x"], [0]⟩)]⟩) := by decide +kernel

end Trumania
