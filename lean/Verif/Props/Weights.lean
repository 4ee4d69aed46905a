import Verif.Spec.Weights
import Verif.Model.AnyGen
import Verif.Proofs.Choice
import Verif.Proofs.Execute
import Verif.Props.Population

/-!
# Property C57 (weighted selection of members)
-/

namespace Trumania
open Spec World
variable {σ : Type} {R : Rng σ}

theorem searchRight_between {p : List Rat} {acc v : Rat} (hv : acc ≤ v) (hv' : v < acc + p.sum) :
    ∃ pre x post, p = pre ++ x :: post ∧ pre.length = searchRight (cumsum acc p) v ∧
      acc + pre.sum ≤ v ∧ v < acc + pre.sum + x := by
  induction p generalizing acc with
  | nil => simp at hv'; linarith
  | cons x xs ih =>
    rw [List.sum_cons] at hv'
    by_cases h : acc + x ≤ v
    · obtain ⟨pre, y, post, e1, e2, e3, e4⟩ := ih h (by linarith)
      refine ⟨x :: pre, y, post, by rw [e1]; rfl, ?_, ?_, ?_⟩
      · rw [List.length_cons, e2]
        simp only [searchRight, cumsum, List.takeWhile_cons, h, decide_true, if_true,
          List.length_cons]
      · rw [List.sum_cons]; linarith
      · rw [List.sum_cons]; linarith
    · refine ⟨[], x, xs, rfl, ?_, by simpa using hv, by simpa using not_le.1 h⟩
      simp only [searchRight, cumsum, List.takeWhile_cons, h, decide_false, Bool.false_eq_true,
        if_false, List.length_nil]

theorem weights_ok {a : Attribute} {ps : List Rat} (h : Population.weights a = .ok ps) :
    (∀ x ∈ a.table, IsNum x.2 ∧ 0 ≤ numIn x.2) ∧ totalOf a.table ≠ 0 ∧
    ps = a.table.map fun x => numIn x.2 / totalOf a.table := by
  rw [Population.weights] at h
  obtain ⟨ws, h1, h⟩ := bind_eq_ok.1 h
  rw [Attribute.values, mapM_ok_iff, List.forall₂_map_left_iff] at h1
  have hw : ws = a.table.map fun x => numIn x.2 := by
    clear h
    generalize a.table = t at h1
    induction h1 with
    | nil => rfl
    | @cons x w l l' h _ ih =>
      obtain ⟨i, c⟩ := x
      rw [List.map_cons, ← ih]
      congr 1
      cases c with
      | list _ => cases h
      | scalar v => cases v <;> cases h; rfl
  have hnum : ∀ x ∈ a.table, IsNum x.2 := by
    intro x hx
    obtain ⟨w, -, hw⟩ := forall₂_exists_right h1 hx
    obtain ⟨i, c⟩ := x
    cases c with
    | list _ => cases hw
    | scalar v =>
      cases v <;> cases hw
      exact ⟨_, rfl⟩
  split at h
  · cases h
  next hneg =>
  split at h
  · cases h
  next hz =>
  cases h
  subst hw
  refine ⟨fun x hx => ⟨hnum x hx, ?_⟩, hz, ?_⟩
  · simp only [List.any_map, List.any_eq_true, Function.comp_apply, decide_eq_true_eq] at hneg
    by_contra hc
    exact hneg ⟨x, hx, not_le.1 hc⟩
  · rw [List.map_map]
    rfl

theorem totalOf_nonneg {t : List (Val × Cell)} (h : ∀ x ∈ t, 0 ≤ numIn x.2) : 0 ≤ totalOf t := by
  apply List.sum_nonneg
  intro q hq
  obtain ⟨x, hx, rfl⟩ := List.mem_map.1 hq
  exact h x hx

theorem map_div_sum (l : List Rat) (c : Rat) : (l.map (· / c)).sum = l.sum / c := by
  induction l with
  | nil => simp
  | cons x l ih => rw [List.map_cons, List.sum_cons, ih, List.sum_cons, add_div]

theorem totalOf_append (l r : List (Val × Cell)) : totalOf (l ++ r) = totalOf l + totalOf r := by
  simp [totalOf]

/-- a draw falls in the share of at most one member -/
theorem inShare_unique {a : Attribute} (hnn : ∀ x ∈ a.table, 0 ≤ numIn x.2) {u : Rat} {i j : Val}
    (hi : InShare a u i) (hj : InShare a u j) : i = j := by
  obtain ⟨pre, w, post, e1, e2, e3⟩ := hi
  obtain ⟨pre', w', post', f1, f2, f3⟩ := hj
  have hlen : pre.length = pre'.length := by
    have key : ∀ (pre pre' post post' : List (Val × Cell)) (i j : Val) (w w' : Rat),
        a.table = pre ++ (i, Cell.num w) :: post → a.table = pre' ++ (j, Cell.num w') :: post' →
        u * totalOf a.table < totalOf pre + w → totalOf pre' ≤ u * totalOf a.table →
        ¬ pre.length < pre'.length := by
      intro pre pre' post post' i j w w' e f g h hl
      obtain ⟨mid, hmid⟩ : ∃ mid, pre' = pre ++ (i, Cell.num w) :: mid := by
        rw [e] at f
        obtain ⟨m, hm⟩ | ⟨m, hm, hm'⟩ := List.append_eq_append_iff.1 f
        · obtain ⟨rfl, hm⟩ := hm
          cases m with
          | nil => simp at hl
          | cons y m =>
            rw [List.cons_append, List.cons.injEq] at hm
            exact ⟨m, by rw [hm.1]⟩
        · rw [hm, List.length_append] at hl
          omega
      have hnn' : 0 ≤ totalOf mid := totalOf_nonneg fun x hx => hnn x (by
        rw [f, hmid]
        simp [hx])
      have : totalOf pre' = totalOf pre + (w + totalOf mid) := by
        rw [hmid, totalOf_append]
        congr 1
      linarith
    have k1 := key pre pre' post post' i j w w' e1 f1 e3 f2
    have k2 := key pre' pre post' post j i w' w f1 e1 f3 e2
    omega
  rw [e1] at f1
  obtain ⟨-, h⟩ := List.append_inj f1 hlen
  rw [List.cons.injEq, Prod.mk.injEq] at h
  exact h.1.1

/-- **C57** (for an attribute listing the members in the order of the population) each member is
selected by the draws of an interval of length its own weight over the total weight, and members of
weight 0 are never selected. -/
theorem C57_own_weight_partial {p : Population} {name : String} {a : Attribute}
    (hp : Population.WF p) (ha : attributeOf p name a) (hal : a.ids = p.ids)
    {ids : List Val} {ps : Option (List Rat)}
    (h : p.selectOneParams (some name) = .ok (ids, ps)) {s s' : σ} {n : Nat} {vs : List Val}
    (hg : choiceGenerate R s ids ps n = .ok (vs, s')) :
    vs.length = n ∧ ∀ (j : Nat) v u, vs[j]? = some v → (R.uniform s n).1[j]? = some u →
      v ∈ p.ids ∧ (∀ i, InShare a u i ↔ i = v) ∧ ∀ c, Holds a v c → c ≠ .num 0 := by
  rw [Population.selectOneParams, Population.getAttribute,
    Population.get_eq_ok.2 ((Dict.get?_eq_some_iff hp.names).2 ha), bind_ok] at h
  obtain ⟨ps', hw, h⟩ := bind_eq_ok.1 h
  cases h
  obtain ⟨w1, w2, w3⟩ := weights_ok hw
  have hnn : ∀ x ∈ a.table, 0 ≤ numIn x.2 := fun x hx => (w1 x hx).2
  have hT : 0 < totalOf a.table := lt_of_le_of_ne (totalOf_nonneg hnn) (Ne.symm w2)
  have hps : ps' = (a.table.map fun x => numIn x.2).map (· / totalOf a.table) := by
    rw [w3, List.map_map]
    rfl
  have hsum : ps'.sum = 1 := by
    rw [hps, map_div_sum]
    exact div_self w2
  rw [choiceGenerate] at hg
  obtain ⟨⟨idx, s1⟩, hc, hg⟩ := bind_eq_ok.1 hg
  obtain ⟨vs', hf, hg⟩ := bind_eq_ok.1 hg
  cases hg
  rw [Rng.choiceP] at hc
  split at hc
  · cases hc
  split at hc
  · cases hc
  split at hc
  · cases hc
  split at hc
  · cases hc
  cases hc
  rw [fancy, mapM_ok_iff, List.forall₂_map_left_iff] at hf
  refine ⟨by rw [← hf.length_eq, R.uniform_length], ?_⟩
  intro j v u hv hu
  have hrow := Forall₂_get hf hu hv
  have hur := R.uniform_range s n u (List.mem_of_getElem? hu)
  rw [hsum, searchRight_div one_pos, mul_one] at hrow
  obtain ⟨pre, x, post, e1, e2, e3, e4⟩ := searchRight_between (p := ps') (acc := 0) (v := u)
    hur.1 (by rw [hsum, zero_add]; exact hur.2)
  rw [← e2] at hrow
  -- the element of the table at that position
  have hlen : pre.length < a.table.length := by
    have : ps'.length = a.table.length := by rw [w3, List.length_map]
    rw [← this, e1]
    simp
  have hsplit : a.table = a.table.take pre.length ++ a.table[pre.length] ::
      a.table.drop (pre.length + 1) := by
    rw [List.getElem_cons_drop, List.take_append_drop]
  have hvid : a.table[pre.length].1 = v := by
    rw [← hal, Attribute.ids, List.getElem?_map, List.getElem?_eq_getElem hlen] at hrow
    exact Except.ok.inj hrow
  have hpre : (a.table.take pre.length).map (fun x => numIn x.2 / totalOf a.table) = pre := by
    rw [List.map_take, ← w3, e1, List.take_left']
    rfl
  have hx : x = numIn a.table[pre.length].2 / totalOf a.table := by
    have h1 : ps'[pre.length]? = some x := by rw [e1]; simp
    rw [w3, List.getElem?_map, List.getElem?_eq_getElem hlen] at h1
    exact (Option.some.inj h1).symm
  have hpresum : pre.sum = totalOf (a.table.take pre.length) / totalOf a.table := by
    rw [show ((a.table.take pre.length).map fun x => numIn x.2 / totalOf a.table) =
      ((a.table.take pre.length).map fun x => numIn x.2).map (· / totalOf a.table) by
        rw [List.map_map]; rfl] at hpre
    conv_lhs => rw [← hpre]
    rw [map_div_sum]
    rfl
  obtain ⟨q, hq⟩ := (w1 _ (List.getElem_mem hlen)).1
  have hshare : InShare a u v := by
    refine ⟨a.table.take pre.length, q, a.table.drop (pre.length + 1), ?_, ?_, ?_⟩
    · conv_lhs => rw [hsplit]
      rw [← hvid, ← hq]
    · rw [zero_add, hpresum, div_le_iff₀ hT] at e3
      exact e3
    · rw [zero_add, hpresum, hx, hq, ← add_div, lt_div_iff₀ hT] at e4
      exact e4
  refine ⟨?_, fun i => ⟨fun hi => inShare_unique hnn hi hshare, fun hi => hi ▸ hshare⟩, ?_⟩
  · rw [← hal, ← hvid]
    exact List.mem_map.2 ⟨_, List.getElem_mem hlen, rfl⟩
  · rintro c hc rfl
    have h1 := hp.values _ ha
    obtain ⟨pre', w, post', g1, g2, g3⟩ := hshare
    have hw : Holds a v (.num w) := by rw [Holds, g1]; simp
    have := (Attribute.get?_iff h1).2 hc
    rw [(Attribute.get?_iff h1).2 hw] at this
    injection this with this
    injection this with this
    injection this with this
    subst this
    linarith

/-- **C57** the selection does not fail when the weights are numbers, none negative, not all zero. -/
theorem C57_selects {p : Population} {name : String} {a : Attribute} (hp : Population.WF p)
    (ha : attributeOf p name a) (hal : a.ids = p.ids)
    (hnum : ∀ x ∈ a.table, ∃ w : Rat, x.2 = .num w ∧ 0 ≤ w) (hpos : ∃ x ∈ a.table, x.2 ≠ .num 0)
    (s : σ) (n : Nat) :
    ∃ ids ps vs s', p.selectOneParams (some name) = .ok (ids, ps) ∧
      choiceGenerate R s ids ps n = .ok (vs, s') := by
  have hws : a.values.mapM Cell.asNum = .ok (a.table.map fun x => numIn x.2) := by
    rw [Attribute.values, mapM_ok_iff, List.forall₂_map_left_iff, List.forall₂_map_right_iff,
      List.forall₂_same]
    intro x hx
    obtain ⟨w, h, -⟩ := hnum x hx
    rw [h]
    rfl
  have hnn : ∀ x ∈ a.table, 0 ≤ numIn x.2 := by
    intro x hx
    obtain ⟨w, h, h0⟩ := hnum x hx
    rw [h]
    exact h0
  have hT : 0 < totalOf a.table := by
    refine lt_of_le_of_ne (totalOf_nonneg hnn) ?_
    intro h0
    obtain ⟨x, hx, hx0⟩ := hpos
    obtain ⟨pre, post, e⟩ := List.append_of_mem hx
    obtain ⟨w, hw, hw0⟩ := hnum x hx
    have h1 : totalOf a.table = totalOf pre + (numIn x.2 + totalOf post) := by
      rw [e, totalOf_append]
      congr 1
    have h2 : 0 ≤ totalOf pre := totalOf_nonneg fun y hy => hnn y (by rw [e]; simp [hy])
    have h3 : 0 ≤ totalOf post := totalOf_nonneg fun y hy => hnn y (by rw [e]; simp [hy])
    have h4 : w ≠ 0 := by
      rintro rfl
      exact hx0 hw
    rw [hw] at h1
    have h5 : numIn (Cell.num w) = w := rfl
    have := lt_of_le_of_ne hw0 (Ne.symm h4)
    linarith
  have hany : (a.table.map fun x => numIn x.2).any (fun w => decide (w < 0)) = false := by
    rw [List.any_eq_false]
    intro w hw
    obtain ⟨x, hx, rfl⟩ := List.mem_map.1 hw
    simpa using hnn x hx
  have hwt : Population.weights a = .ok (a.table.map fun x => numIn x.2 / totalOf a.table) := by
    rw [Population.weights, hws, bind_ok, hany]
    simp only [Bool.false_eq_true, if_false]
    rw [if_neg (by exact hT.ne'), List.map_map]
    rfl
  have hlen : a.table.length = p.ids.length := by
    rw [← hal, Attribute.ids, List.length_map]
  obtain ⟨⟨idx, s'⟩, hc⟩ := R.choiceP_isOk (s := s) (n := p.ids.length) (size := n)
    (p := a.table.map fun x => numIn x.2 / totalOf a.table) (by
      rw [← hlen]
      obtain ⟨x, hx, -⟩ := hpos
      exact (List.length_pos_of_mem hx).ne') (by rw [List.length_map, hlen]) (by
      intro q hq
      obtain ⟨x, hx, rfl⟩ := List.mem_map.1 hq
      exact div_nonneg (hnn x hx) hT.le) (by
      rw [show (a.table.map fun x => numIn x.2 / totalOf a.table) =
        (a.table.map fun x => numIn x.2).map (· / totalOf a.table) by rw [List.map_map]; rfl,
        map_div_sum]
      exact div_self hT.ne')
  obtain ⟨-, -, -, hr⟩ := R.choiceP_ok hc
  refine ⟨p.ids, some (a.table.map fun x => numIn x.2 / totalOf a.table), picked p.ids idx, s',
    ?_, ?_⟩
  · rw [Population.selectOneParams, Population.getAttribute,
      Population.get_eq_ok.2 ((Dict.get?_eq_some_iff hp.names).2 ha), bind_ok, hwt, bind_ok]
  · rw [choiceGenerate]
    simp only [hc, bind_ok]
    rw [fancy_ok (xs := p.ids) (is := idx), bind_ok]
    intro i hi
    obtain ⟨x, hx, -⟩ := hr i hi
    have := (List.getElem?_eq_some_iff.1 hx).1
    rwa [List.length_map, hlen] at this

/-- what the histories of weights keep -/
structure WeightInv (name : String) (p : Population) : Prop where
  wf : Population.WF p
  sorted : SortedIds p.ids
  members : p.ids ≠ []
  size : p.size ≠ 0
  aligned : ∀ a, attributeOf p name a → a.ids = p.ids

theorem attributeOf_set {p : Population} (hp : Population.WF p) {name : String} {a b : Attribute}
    (h : attributeOf { p with attributes := p.attributes.set name a } name b) : b = a := by
  have hn : ((p.attributes.set name a).map Prod.fst).Nodup := Dict.WF.set hp.names _ _
  have := (Dict.get?_eq_some_iff hn).2 h
  rw [Dict.get?_set, if_pos rfl] at this
  exact (Option.some.inj this).symm

theorem indexUnion_of_subset {l r : List Val} (hs : SortedIds l) (hn : l.Nodup) (hl : l ≠ [])
    (hr : r.Nodup) (h : ∀ i ∈ r, i ∈ l) : indexUnion l r = l := by
  refine sortedIds_eq (indexUnion_sorted hs hl) hs (indexUnion_nodup hn hr) hn ?_
  intro i
  rw [mem_indexUnion]
  exact ⟨fun h' => h'.elim id (h i), .inl⟩

theorem weightCall_inv {name : String} {p p' : Population} (h : WeightCall R name p p')
    (hi : WeightInv name p) : WeightInv name p' := by
  cases h with
  | elsewhere h hids hs ha =>
    refine ⟨Population.popCall_wf h hi.wf, hids ▸ hi.sorted, hids ▸ hi.members, hs ▸ hi.size, ?_⟩
    intro a hat
    rw [hids]
    exact hi.aligned a ((ha a).1 hat)
  | create values h =>
    have hwf := Population.popCall_wf (R := R) (.createAttribute name values h) hi.wf
    rw [Population.createAttribute] at h
    obtain ⟨a, h1, h2⟩ := bind_eq_ok.1 h
    cases h2
    refine ⟨hwf, hi.sorted, hi.members, hi.size, ?_⟩
    intro b hb
    obtain rfl := attributeOf_set hi.wf hb
    rw [Attribute.new, if_neg hi.size] at h1
    split at h1
    · cases h1
    next hlen =>
    cases h1
    rw [Attribute.ids, List.map_fst_zip]
    rw [not_not] at hlen
    exact hlen.ge
  | @set a a' series ha h hk =>
    refine ⟨Population.popCall_wf (R := R) (.updateAttribute ha h) hi.wf, hi.sorted, hi.members,
      hi.size, ?_⟩
    intro b hb
    obtain rfl := attributeOf_set hi.wf hb
    rw [Attribute.update_ids h, hi.aligned a ha]
    refine indexUnion_of_subset hi.sorted hi.wf.ids hi.members (Attribute.update_ok h) ?_
    intro i hix
    obtain ⟨x, hx, rfl⟩ := List.mem_map.1 hix
    exact hk x hx
  | @add a a' ids added ha h =>
    refine ⟨Population.popCall_wf (R := R) (.addAttribute ha h) hi.wf, hi.sorted, hi.members,
      hi.size, ?_⟩
    intro b hb
    obtain rfl := attributeOf_set hi.wf hb
    rw [Attribute.add_ids h]
    exact hi.aligned a ha
  | @transform a f ha =>
    refine ⟨Population.popCall_wf (R := R) (.transformAttribute f ha) hi.wf, hi.sorted, hi.members,
      hi.size, ?_⟩
    intro b hb
    obtain rfl := attributeOf_set hi.wf hb
    rw [Attribute.transform, Attribute.ids, List.map_map]
    exact hi.aligned a ha
  | update f hc h =>
    have hwf := Population.popCall_wf (R := R) (.update f h) hi.wf
    obtain ⟨h1, h2, h3, h4, -⟩ := Population.update_eq_ok h
    have hids : ∀ i, i ∈ p'.ids ↔ i ∈ p.ids ∨ i ∈ (Population.keepLast f.rows).map (·.idx) := by
      intro i
      rw [h3, mem_indexUnion, mem_indexDifference]
      by_cases hm : i ∈ p.ids
      · simp [hm]
      · simp [hm]
    have hsorted : SortedIds p'.ids := by
      rw [h3]
      exact indexUnion_sorted hi.sorted hi.members
    have hne : p'.ids ≠ [] := by
      obtain ⟨i, hi'⟩ := List.exists_mem_of_ne_nil _ hi.members
      exact List.ne_nil_of_mem ((hids i).2 (.inl hi'))
    refine ⟨hwf, hsorted, hne, h4 ▸ hi.size, ?_⟩
    intro b hb
    have hget := (Dict.get?_eq_some_iff hwf.names).2 hb
    obtain ⟨g1, g2⟩ := Population.updateAttributes_get h2 (by
      rw [List.zipIdx_map_fst]
      exact hc) name
    have hcol : name ∈ f.cols := by
      rw [h1]
      have := (Population.updateAttributes_inv h2).1
      rw [← this]
      exact Dict.mem_keys_of_get? hget
    obtain ⟨k, hk, hk'⟩ := List.getElem_of_mem hcol
    obtain ⟨a, a', cells, q1, q2, q3, q4⟩ := g2 k (by
      rw [List.mem_zipIdx_iff_getElem?, List.getElem?_eq_getElem hk, hk'])
    obtain rfl : a' = b := Option.some.inj (q2.symm.trans hget)
    have hal := hi.aligned a (Dict.get?_mem q1)
    have hkeys : (((Population.keepLast f.rows).map (·.idx)).zip cells).map Prod.fst =
        (Population.keepLast f.rows).map (·.idx) := by
      rw [List.map_fst_zip]
      rw [mapM_ok_iff] at q3
      rw [List.length_map, q3.length_eq]
    have hun := Attribute.update_ids q4
    rw [hkeys, hal] at hun
    rw [hun]
    refine sortedIds_eq (indexUnion_sorted hi.sorted hi.members) hsorted
      (indexUnion_nodup hi.wf.ids (Population.keepLast_nodup _)) hwf.ids ?_
    intro i
    rw [mem_indexUnion, hids]

/-- **C57** on a population listed in increasing order of ids, after any history of calls that leave the
attribute a weight per member, the weighted selection gives each member the share of its own current
weight. -/
theorem C57_history_partial {p p' : Population} {name : String} (hp : Population.WF p)
    (hs : SortedIds p.ids) (hne : p.ids ≠ []) (hz : p.size ≠ 0)
    (hal : ∀ a, attributeOf p name a → a.ids = p.ids) (hh : WeightCalls R name p p')
    {a : Attribute} (ha : attributeOf p' name a) {ids : List Val} {ps : Option (List Rat)}
    (h : p'.selectOneParams (some name) = .ok (ids, ps)) {s s' : σ} {n : Nat} {vs : List Val}
    (hg : choiceGenerate R s ids ps n = .ok (vs, s')) (j : Nat) (v : Val) (u : Rat)
    (hv : vs[j]? = some v) (hu : (R.uniform s n).1[j]? = some u) :
    v ∈ p'.ids ∧ (∀ i, InShare a u i ↔ i = v) ∧ ∀ c, Holds a v c → c ≠ .num 0 := by
  have hinv : WeightInv name p' := by
    clear * - hh hp hs hne hz hal
    induction hh with
    | refl => exact ⟨hp, hs, hne, hz, hal⟩
    | tail _ h ih => exact weightCall_inv h ih
  exact (C57_own_weight_partial hinv.wf ha (hinv.aligned a ha) h hg).2 j v u hv hu

/-! ### Examples and counterexample -/

/-- a population listed as b, a: "b" has weight 1 and "a" weight 0 -/
def exUnsorted : Population where
  ids := [.str "b", .str "a"]
  size := 2
  attributes := [("W", ⟨[(.str "b", .num 1), (.str "a", .num 0)]⟩)]
  relationships := []

/-- the same after `get_attribute("W").update` of the weight of "b" to 2 -/
def exUnsorted' : Population where
  ids := [.str "b", .str "a"]
  size := 2
  attributes := [("W", ⟨[(.str "a", .num 0), (.str "b", .num 2)]⟩)]
  relationships := []

/-- **C57** counterexample to the full claim: after an attribute update on a population that is not
listed in increasing order, the weights are given to the wrong members: "a", of weight 0, is the only
one selected. -/
theorem C57_counterexample :
    (⟨[(.str "b", .num 1), (.str "a", .num 0)]⟩ : Attribute).update [(.str "b", .num 2)] =
      .ok ⟨[(.str "a", .num 0), (.str "b", .num 2)]⟩ ∧
    PopCall R exUnsorted exUnsorted' ∧
    ∀ s n vs s' ids ps, exUnsorted'.selectOneParams (some "W") = .ok (ids, ps) →
      choiceGenerate R s ids ps n = .ok (vs, s') → ∀ v ∈ vs, v = .str "a" := by
  refine ⟨by decide +kernel, ?_, ?_⟩
  · have : exUnsorted' = { exUnsorted with
        attributes := exUnsorted.attributes.set "W" ⟨[(.str "a", .num 0), (.str "b", .num 2)]⟩ } := by
      decide +kernel
    rw [this]
    exact .updateAttribute (a := ⟨[(.str "b", .num 1), (.str "a", .num 0)]⟩)
      (series := [(.str "b", .num 2)]) (by simp [attributeOf, exUnsorted]) (by decide +kernel)
  · intro s n vs s' ids ps h hg v hv
    have hp : exUnsorted'.selectOneParams (some "W") =
        .ok ([.str "b", .str "a"], some [0, 1]) := by decide +kernel
    rw [hp] at h
    cases h
    rw [choiceGenerate] at hg
    obtain ⟨⟨idx, s1⟩, hc, hg⟩ := bind_eq_ok.1 hg
    obtain ⟨vs', hf, hg⟩ := bind_eq_ok.1 hg
    cases hg
    obtain ⟨-, -, -, hr⟩ := R.choiceP_ok hc
    rw [fancy, mapM_ok_iff] at hf
    obtain ⟨i, hi, hb⟩ := forall₂_exists_left hf hv
    obtain ⟨x, hx, hx0⟩ := hr i hi
    match i with
    | 0 =>
      simp at hx
      subst hx
      exact absurd hx0 (lt_irrefl _)
    | 1 => exact (Except.ok.inj hb).symm
    | i + 2 => simp at hx

/-- the hypotheses of `C57_own_weight_partial`: the weights 30, 40, 50 of `exPop` -/
example : exPop.selectOneParams (some "AGE") =
    .ok ([.str "a", .str "b", .str "c"], some [1 / 4, 1 / 3, 5 / 12]) := by decide +kernel

example : attributeOf exPop "AGE" exAge ∧ exAge.ids = exPop.ids := by
  constructor
  · simp [attributeOf, exPop, exAge]
  · decide +kernel

/-- `exPop` with the weight of "b" set to 7 -/
def exPop3 : Population :=
  { exPop with
    attributes := exPop.attributes.set "AGE"
      ⟨[(.str "a", .num 30), (.str "b", .num 7), (.str "c", .num 50)]⟩ }

/-- the hypotheses of `C57_history_partial`: `exPop` is listed in increasing order, the weight of "b"
is updated, then a member "d" is added -/
example : SortedIds exPop.ids ∧ exPop.ids ≠ [] ∧ exPop.size ≠ 0 := by
  refine ⟨by simp only [SortedIds, exPop]; decide +kernel, by decide +kernel, by decide +kernel⟩

example : WeightCall R "AGE" exPop exPop3 :=
  .set (a := exAge) (series := [(.str "b", .num 7)]) (by simp [attributeOf, exPop, exAge])
      (a' := ⟨[(.str "a", .num 30), (.str "b", .num 7), (.str "c", .num 50)]⟩)
      (by decide +kernel) (by simp [exPop])

example : WeightCall R "AGE" exPop3 exPop2 :=
  .update exInserted (by decide +kernel) (by decide +kernel)

/-- the share of "b" is from 1/4 to 7/12 -/
example : InShare exAge (1 / 2) (.str "b") := by
  refine ⟨[(.str "a", .num 30)], 40, [(.str "c", .num 50)], rfl, ?_, ?_⟩ <;>
    simp [totalOf, exAge, numIn] <;> norm_num

end Trumania
