import Verif.Proofs.Select

/-! Helper lemmas: `pick_many` and `select_many`. -/

namespace Trumania

open Relationship

variable {σ : Type} (R : Rng σ)

theorem picked_drop {α : Type} {xs : List α} {is : List Nat} (h : ∀ i ∈ is, i < xs.length)
    (n : Nat) : (picked xs is).drop n = picked xs (is.drop n) := by
  induction is generalizing n with
  | nil => simp [picked]
  | cons i is ih =>
    cases n with
    | zero => rfl
    | succ n =>
      have hi := h i (by simp)
      have := ih (fun j hj => h j (by simp [hj])) n
      simp only [picked, List.filterMap_cons, List.getElem?_eq_getElem hi, List.drop_succ_cons]
        at this ⊢
      exact this

theorem picked_take {α : Type} {xs : List α} {is : List Nat} (h : ∀ i ∈ is, i < xs.length)
    (n : Nat) : (picked xs is).take n = picked xs (is.take n) := by
  induction is generalizing n with
  | nil => simp [picked]
  | cons i is ih =>
    cases n with
    | zero => rfl
    | succ n =>
      have hi := h i (by simp)
      have := ih (fun j hj => h j (by simp [hj])) n
      simp only [picked, List.filterMap_cons, List.getElem?_eq_getElem hi, List.take_succ_cons]
        at this ⊢
      rw [this]

/-! ### the shuffled requests -/

theorem rowsOf_eq_map {β : Type} (f : Val) (l : List (Val × β)) :
    rowsOf f l = ((rowsOf f l).map Prod.snd).map fun x => (f, x) := by
  rw [List.map_map]
  conv_lhs => rw [← List.map_id (rowsOf f l)]
  apply List.map_congr_left
  rintro ⟨a, b⟩ hx
  have := (mem_rowsOf.1 hx).2
  simp only at this
  simp [this]

theorem loc_perm {β : Type} [DecidableEq β] {l : List (Val × β)} (hn : (l.map Prod.fst).Nodup)
    {labels : List Val} (hp : labels.Perm (l.map Prod.fst)) :
    (labels.flatMap fun k => l.filter (fun x => decide (x.1 = k))).Perm l := by
  apply perm_of_rowsOf
  intro f
  have h := rowsOf_flatMap (hp.nodup_iff.2 hn) (fun k => (rowsOf k l).map Prod.snd) f
  have e : (labels.flatMap fun k => l.filter (fun x => decide (x.1 = k))) =
      labels.flatMap fun k => (((rowsOf k l).map Prod.snd).map fun x => (k, x)) := by
    congr 1; funext k; rw [← rowsOf_eq_map]; rfl
  rw [e, h]
  split
  · rw [← rowsOf_eq_map]
  · rename_i hf
    rw [hp.mem_iff] at hf
    have : rowsOf f l = [] := by
      rw [rowsOf, List.filter_eq_nil_iff]
      intro x hx
      simp only [decide_eq_true_eq]
      rintro rfl
      exact hf (List.mem_map.2 ⟨x, hx, rfl⟩)
    rw [this]

/-- the requests made to a from -/
def reqsOf (reqs : List (Val × Val × Int)) (f : Val) : List (Val × Int) :=
  (reqs.filter (fun x => decide (x.2.1 = f))).map fun x => (x.1, x.2.2)

theorem reqsOf_nodup {reqs : List (Val × Val × Int)} (hn : (reqs.map (·.1)).Nodup) (f : Val) :
    ((reqsOf reqs f).map Prod.fst).Nodup := by
  rw [reqsOf, List.map_map]
  exact hn.sublist (List.filter_sublist.map _)

theorem gatherAll_spec {reqs : List (Val × Val × Int)} (hn : (reqs.map (·.1)).Nodup)
    (s : σ) (froms : List Val) :
    List.Forall₂ (fun f x => x.1 = f ∧ x.2.Perm (reqsOf reqs f)) froms
      (gatherAll R reqs s froms).1 := by
  induction froms generalizing s with
  | nil => exact List.Forall₂.nil
  | cons f froms ih =>
    rw [gatherAll]
    refine List.Forall₂.cons ⟨rfl, ?_⟩ (ih _)
    exact loc_perm (reqsOf_nodup hn f) (permutation_perm R s _)

/-! ### slicing -/

theorem slicePicks_spec {f : Val} {xs : List Val} {idxs : List Nat}
    (hi : ∀ i ∈ idxs, i < xs.length) {reqs : List (Val × Int)} (hq : ∀ x ∈ reqs, 0 ≤ x.2)
    {lb : Nat} (hs : (lb : Int) + (reqs.map Prod.snd).sum = idxs.length) :
    ((slicePicks f (picked xs idxs) idxs lb reqs).flatMap (·.idxs) = idxs.drop lb) ∧
    ((slicePicks f (picked xs idxs) idxs lb reqs).map (fun r => (r.label, (r.idxs.length : Int))) =
      reqs.filter (fun x => decide (x.2 ≠ 0))) ∧
    (∀ r ∈ slicePicks f (picked xs idxs) idxs lb reqs,
      r.from_ = f ∧ r.tos = picked xs r.idxs) := by
  induction reqs generalizing lb with
  | nil =>
    simp only [List.map_nil, List.sum_nil] at hs
    have : lb = idxs.length := by omega
    simp [slicePicks, this]
  | cons x reqs ih =>
    obtain ⟨l, q⟩ := x
    have hq0 := hq (l, q) (by simp)
    have hq' : ∀ x ∈ reqs, 0 ≤ x.2 := fun x hx => hq x (by simp [hx])
    have hsum : 0 ≤ (reqs.map Prod.snd).sum := by
      apply List.sum_nonneg
      intro y hy
      obtain ⟨x, hx, rfl⟩ := List.mem_map.1 hy
      exact hq' x hx
    simp only at hq0
    rw [List.map_cons, List.sum_cons] at hs
    simp only [slicePicks]
    by_cases h0 : q = 0
    · subst h0
      obtain ⟨h1, h2, h3⟩ := ih hq' (lb := lb) (by simpa using hs)
      simp only [if_true]
      refine ⟨h1, ?_, h3⟩
      rw [h2]; simp
    · rw [if_neg h0]
      have hn : (q.toNat : Int) = q := Int.toNat_of_nonneg hq0
      obtain ⟨h1, h2, h3⟩ := ih hq' (lb := lb + q.toNat) (by push_cast; rw [hn]; linarith)
      refine ⟨?_, ?_, ?_⟩
      · rw [List.flatMap_cons, h1]
        simp only
        rw [← List.drop_drop]
        exact List.take_append_drop _ _
      · rw [List.map_cons, h2, List.filter_cons]
        have hlen : ((idxs.drop lb).take q.toNat).length = q.toNat := by
          rw [List.length_take, List.length_drop]; omega
        simp only [hlen, hn, h0, ne_eq, not_false_eq_true, decide_true, if_true]
      · intro r hr
        rcases List.mem_cons.1 hr with rfl | hr
        · refine ⟨rfl, ?_⟩
          simp only
          rw [picked_drop hi, picked_take]
          intro i hi'
          exact hi i (List.mem_of_mem_drop hi')
        · exact h3 r hr

/-! ### picks of one from -/

/-- what is picked for the (shuffled) requests to one from -/
structure PicksSpec (g : Dict Val Relations) (f : Val) (reqs : List (Val × Int))
    (rows : List ManyRow) : Prop where
  from_eq : ∀ r ∈ rows, r.from_ = f
  labels : rows.map (fun r => (r.label, (r.idxs.length : Int))) =
    ((reqs.map Prod.fst).zip (Spec.greedy (reqs.map Prod.snd) (pairsAt g f).length)).filter
      (fun x => decide (x.2 ≠ 0))
  nodup : (rows.flatMap (·.idxs)).Nodup
  lt : ∀ i ∈ rows.flatMap (·.idxs), i < (pairsAt g f).length
  tos_eq : ∀ r ∈ rows, r.tos = (picked (pairsAt g f) r.idxs).map Prod.fst

theorem zip_map_fst_greedy (reqs : List (Val × Int)) (t : Int) :
    ((reqs.map Prod.fst).zip (Spec.greedy (reqs.map Prod.snd) t)).map Prod.snd =
      Spec.greedy (reqs.map Prod.snd) t := by
  apply List.map_snd_zip
  rw [greedy_length]; simp

theorem picksOf_spec {g : Dict Val Relations} (hg : GWF g) (s : σ) (f : Val)
    {reqs : List (Val × Int)} (hq : ∀ x ∈ reqs, 0 ≤ x.2) :
    ∃ rows s', picksOf R g s f reqs = .ok (rows, s') ∧ PicksSpec g f reqs rows ∧
      (rows ≠ [] → f ∈ g.keys) := by
  rw [picksOf.eq_def]
  have hq' : ∀ v ∈ reqs.map Prod.snd, 0 ≤ v := by
    intro v hv
    obtain ⟨x, hx, rfl⟩ := List.mem_map.1 hv
    exact hq x hx
  cases hf : g.get? f with
  | none =>
    refine ⟨[], s, rfl, ⟨by simp, ?_, by simp, by simp, by simp⟩, by simp⟩
    rw [pairsAt_of_none hf, List.map_nil]
    symm
    rw [List.filter_eq_nil_iff]
    intro x hx
    have := (List.of_mem_zip hx).2
    rw [List.length_nil, Nat.cast_zero, greedy_zero hq'] at this
    simp [List.eq_of_mem_replicate this]
  | some rs =>
    have hlen := hg.len f rs hf
    have hsz : (pairsAt g f).length = rs.size := pairsAt_length hg hf
    simp only
    rw [cap_to_total_eq_greedy _ _ hq' (by positivity), bind_ok]
    set q := Spec.greedy (reqs.map Prod.snd) rs.size with hqdef
    have hqs : q.sum = min (reqs.map Prod.snd).sum rs.size := greedy_sum hq' (by positivity)
    have hqn : ∀ x ∈ q, 0 ≤ x := greedy_nonneg hq' (by positivity)
    have hsum0 : 0 ≤ q.sum := List.sum_nonneg hqn
    have hle : q.sum ≤ rs.size := by rw [hqs]; exact min_le_right _ _
    have hmin : min rs.size q.sum.toNat = q.sum.toNat := by omega
    rw [Relations.pick_many, if_neg (by omega), hmin]
    obtain ⟨⟨idxs, s1⟩, hc⟩ := R.choiceNoReplace_isOk (s := s) (n := rs.size)
      (size := q.sum.toNat) (by omega)
    obtain ⟨-, hil, hin, hib⟩ := R.choiceNoReplace_ok hc
    simp only [hc, bind_ok, fancy_ok (xs := rs.tos) hib]
    set zs := (reqs.map Prod.fst).zip q with hzs
    have hz2 : zs.map Prod.snd = q := zip_map_fst_greedy reqs _
    have hz0 : ∀ x ∈ zs, 0 ≤ x.2 := by
      intro x hx
      exact hqn _ (by rw [← hz2]; exact List.mem_map.2 ⟨x, hx, rfl⟩)
    have hsl := slicePicks_spec (f := f) (xs := rs.tos) (idxs := idxs) hib hz0 (lb := 0)
      (by rw [hz2, hil]; simp [Int.toNat_of_nonneg hsum0])
    obtain ⟨h1, h2, h3⟩ := hsl
    rw [List.drop_zero] at h1
    refine ⟨_, s1, rfl, ⟨fun r hr => (h3 r hr).1, ?_, ?_, ?_, ?_⟩, fun _ => Dict.mem_keys_of_get? hf⟩
    · rw [h2, hsz]
    · rw [h1]; exact hin
    · rw [h1, hsz]; exact hib
    · intro r hr
      rw [(h3 r hr).2, picked_map, pairsAt_of_get? hf, List.map_fst_zip (by omega)]

/-! ### all picks -/

theorem allPicks_spec {g : Dict Val Relations} (hg : GWF g) (s : σ)
    {l : List (Val × List (Val × Int))} (hq : ∀ y ∈ l, ∀ x ∈ y.2, 0 ≤ x.2) :
    ∃ chunks s', allPicks R g s l = .ok (chunks.flatten, s') ∧
      List.Forall₂ (fun y rows => PicksSpec g y.1 y.2 rows ∧ (rows ≠ [] → y.1 ∈ g.keys)) l chunks := by
  induction l generalizing s with
  | nil => exact ⟨[], s, rfl, List.Forall₂.nil⟩
  | cons y l ih =>
    obtain ⟨f, reqs⟩ := y
    obtain ⟨rows, s1, h1, h2⟩ := picksOf_spec R hg s f (hq (f, reqs) (by simp))
    obtain ⟨chunks, s2, h3, h4⟩ := ih s1 (fun y hy => hq y (by simp [hy]))
    refine ⟨rows :: chunks, s2, ?_, List.Forall₂.cons h2 h4⟩
    simp only [allPicks, h1, bind_ok, h3]
    rfl

/-- the rows of one from -/
def manyOf (out : List ManyRow) (f : Val) : List ManyRow := out.filter (fun r => decide (r.from_ = f))

theorem PicksSpec.nil (g : Dict Val Relations) (f : Val) : PicksSpec g f [] [] :=
  ⟨by simp, by simp, by simp, by simp, by simp⟩

theorem manyOf_chunks {g : Dict Val Relations} {reqs : List (Val × Val × Int)} {froms : List Val}
    {l : List (Val × List (Val × Int))} {chunks : List (List ManyRow)} (hn : froms.Nodup)
    (h1 : List.Forall₂ (fun f x => x.1 = f ∧ x.2.Perm (reqsOf reqs f)) froms l)
    (h2 : List.Forall₂ (fun y rows => PicksSpec g y.1 y.2 rows ∧ (rows ≠ [] → y.1 ∈ g.keys)) l chunks)
    (f : Val) :
    (f ∈ froms → ∃ rq, rq.Perm (reqsOf reqs f) ∧ PicksSpec g f rq (manyOf chunks.flatten f)) ∧
    (f ∉ froms → manyOf chunks.flatten f = []) ∧
    (∀ r ∈ chunks.flatten, r.from_ ∈ g.keys) := by
  induction h1 generalizing chunks with
  | nil =>
    cases h2
    simp [manyOf]
  | @cons f0 x froms l hx _ ih =>
    cases h2 with
    | @cons _ rows _ chunks hr h2 =>
      obtain ⟨rfl, hxp⟩ := hx
      rw [List.nodup_cons] at hn
      obtain ⟨i1, i2, i3⟩ := ih hn.2 h2
      have hmo : manyOf (rows :: chunks).flatten f = manyOf rows f ++ manyOf chunks.flatten f := by
        rw [List.flatten_cons, manyOf, List.filter_append]; rfl
      have hne : x.1 ≠ f → manyOf rows f = [] := by
        intro h
        rw [manyOf, List.filter_eq_nil_iff]
        intro r hrr
        rw [hr.1.from_eq r hrr]; simpa using h
      have heq : x.1 = f → manyOf rows f = rows := by
        intro h
        rw [manyOf, List.filter_eq_self]
        intro r hrr
        rw [hr.1.from_eq r hrr]; simpa using h
      refine ⟨?_, ?_, ?_⟩
      · intro hf
        rw [hmo]
        by_cases he : x.1 = f
        · rw [heq he, i2 (by rw [← he]; exact hn.1), List.append_nil, ← he]
          exact ⟨x.2, hxp, hr.1⟩
        · rw [hne he, List.nil_append]
          exact i1 ((List.mem_cons.1 hf).resolve_left (fun e => he e.symm))
      · intro hf
        rw [List.mem_cons, not_or] at hf
        rw [hmo, hne (fun e => hf.1 e.symm), i2 hf.2]; rfl
      · intro r hrr
        rw [List.flatten_cons, List.mem_append] at hrr
        rcases hrr with hrr | hrr
        · rw [hr.1.from_eq r hrr]
          exact hr.2 (List.ne_nil_of_mem hrr)
        · exact i3 r hrr

/-- positions removed by `select_many`: those of the first row of the from -/
def firstIdxs (out : List ManyRow) (f : Val) : List Nat :=
  match manyOf out f with
  | [] => []
  | r :: _ => r.idxs

theorem find?_manyOf (out : List ManyRow) (f : Val) :
    out.find? (fun r => decide (r.from_ = f)) = (manyOf out f).head? := by
  rw [manyOf, List.head?_filter]

theorem groupAt_manyGroups (out : List ManyRow) (f : Val) :
    groupAt (manyGroups out) f = firstIdxs out f := by
  have hmap : manyGroups out =
      (uniq ((out.map fun r => (r.from_, r)).map Prod.fst)).map fun f => (f, firstIdxs out f) := by
    rw [manyGroups, List.map_map]
    rw [← List.filterMap_eq_map (f := fun f => (f, firstIdxs out f))]
    apply List.filterMap_congr
    intro k hk
    rw [mem_uniq] at hk
    rw [find?_manyOf, Function.comp_apply, firstIdxs.eq_def]
    cases h : manyOf out k with
    | nil =>
      obtain ⟨r, hr, rfl⟩ := List.mem_map.1 hk
      have : r ∈ manyOf out r.from_ := by rw [manyOf, List.mem_filter]; exact ⟨hr, by simp⟩
      rw [h] at this; simp at this
    | cons r l => rfl
  rw [hmap]
  apply groupAt_groups
  intro k hk
  rw [firstIdxs]
  have : manyOf out k = [] := by
    rw [manyOf, List.filter_eq_nil_iff]
    intro r hr
    simp only [decide_eq_true_eq]
    rintro rfl
    exact hk (by rw [List.map_map]; exact List.mem_map.2 ⟨r, hr, rfl⟩)
  rw [this]

theorem manyGroups_keys_nodup (out : List ManyRow) : ((manyGroups out).map Prod.fst).Nodup := by
  have : ((manyGroups out).map Prod.fst).Sublist (uniq (out.map (·.from_))) := by
    rw [manyGroups, List.map_filterMap]
    generalize uniq (out.map (·.from_)) = l
    induction l with
    | nil => simp
    | cons k l ih =>
      rw [List.filterMap_cons]
      cases h : (out.find? fun r => decide (r.from_ = k)) with
      | none => simpa using ih.cons k
      | some r => simpa using ih.cons_cons k
  exact (uniq_nodup _).sublist this

/-- what `select_many` does -/
structure ManySpec (r r' : Relationship σ) (reqs : List (Val × Val × Int)) (remove discard : Bool)
    (res : List (Val × List Val)) (out : List ManyRow) : Prop where
  picks : ∀ f, ∃ rq, rq.Perm (reqsOf reqs f) ∧ PicksSpec r.grouped f rq (manyOf out f)
  res_eq : res = out.map (fun x => (x.label, x.tos)) ++
    (if !discard && out.length ≠ reqs.length then
      sortBy Val.le ((uniq (reqs.map (·.1))).filter
        (fun l => decide (l ∉ out.map (·.label)))) else []).map (fun l => (l, []))
  seed_eq : r'.seed = r.seed
  gwf : GWF r'.grouped
  pairs : ∀ f, pairsAt r'.grouped f =
    if remove then kept (pairsAt r.grouped f) (firstIdxs out f) else pairsAt r.grouped f
  keep : remove = false → r'.grouped = r.grouped

theorem select_many_spec {r : Relationship σ} (hg : GWF r.grouped)
    {reqs : List (Val × Val × Int)} (hn : (reqs.map (·.1)).Nodup) (hq : ∀ x ∈ reqs, 0 ≤ x.2.2)
    (remove discard : Bool) :
    ∃ res r' out, r.select_many R reqs remove discard = .ok (res, r') ∧
      ManySpec r r' reqs remove discard res out := by
  have hfr := uniq_nodup (reqs.map (·.2.1))
  have hgs := gatherAll_spec R hn r.state (uniq (reqs.map (·.2.1)))
  rw [select_many]
  cases hga : gatherAll R reqs r.state (uniq (reqs.map (·.2.1))) with
  | mk all_reqs s =>
  rw [hga] at hgs
  simp only at hgs ⊢
  have hq' : ∀ y ∈ all_reqs, ∀ x ∈ y.2, 0 ≤ x.2 := by
    intro y hy x hx
    obtain ⟨f, -, -, hp⟩ := forall₂_exists_left hgs hy
    have := hp.mem_iff.1 hx
    rw [reqsOf, List.mem_map] at this
    obtain ⟨z, hz, rfl⟩ := this
    exact hq z (List.mem_filter.1 hz).1
  obtain ⟨chunks, s', hall, hch⟩ := allPicks_spec R hg s hq'
  rw [hall, bind_ok]
  simp only
  have hm := manyOf_chunks hfr hgs hch
  have hpicks : ∀ f, ∃ rq, rq.Perm (reqsOf reqs f) ∧
      PicksSpec r.grouped f rq (manyOf chunks.flatten f) := by
    intro f
    by_cases hf : f ∈ uniq (reqs.map (·.2.1))
    · exact (hm f).1 hf
    · rw [(hm f).2.1 hf]
      refine ⟨[], ?_, PicksSpec.nil _ _⟩
      rw [reqsOf, List.filter_eq_nil_iff.2]
      · exact List.Perm.refl _
      · intro x hx
        simp only [decide_eq_true_eq]
        rintro rfl
        exact hf (mem_uniq.2 (List.mem_map.2 ⟨x, hx, rfl⟩))
  set groups := if remove = true then manyGroups chunks.flatten else [] with hgroups
  have hgn : (groups.map Prod.fst).Nodup := by
    rw [hgroups]; split
    · exact manyGroups_keys_nodup _
    · simp
  have hgk : ∀ x ∈ groups, ∃ rs, r.grouped.get? x.1 = some rs ∧ ∀ i ∈ x.2, i < rs.tos.length := by
    intro x hx
    have hx1 : x ∈ manyGroups chunks.flatten := by
      rw [hgroups] at hx; split at hx
      · exact hx
      · simp at hx
    rw [manyGroups, List.mem_filterMap] at hx1
    obtain ⟨f, -, hx1⟩ := hx1
    rw [find?_manyOf, Option.map_eq_some_iff] at hx1
    obtain ⟨row, hrow, rfl⟩ := hx1
    have hmem := List.mem_of_mem_head? hrow
    have hmem' := List.mem_filter.1 hmem
    have hkey := (hm f).2.2 row hmem'.1
    rw [of_decide_eq_true hmem'.2] at hkey
    obtain ⟨rs, hrs⟩ := Dict.exists_get?_of_mem_keys hkey
    refine ⟨rs, hrs, ?_⟩
    intro i hi
    obtain ⟨rq, -, hp⟩ := hpicks f
    have := hp.lt i (List.mem_flatMap.2 ⟨row, hmem, hi⟩)
    rwa [pairsAt_length hg hrs] at this
  obtain ⟨g', h1, h2, h3, h4, h5, h6⟩ := removeGroups_spec hg hgn hgk
  rw [h1, bind_ok]
  refine ⟨_, _, chunks.flatten, rfl, hpicks, ?_, rfl, h2, ?_, ?_⟩
  · simp only [List.length_map, List.map_map, Function.comp_def]
  · intro f
    simp only
    rw [h3, hgroups]
    split
    · rw [groupAt_manyGroups]
    · rw [groupAt]; simp [kept_nil]
  · intro hr
    rw [hgroups, hr] at h1
    simp only [Bool.false_eq_true, if_false, removeGroups] at h1
    cases h1; rfl

end Trumania
