import Verif.Proofs.Removal

/-! Helper lemmas: what `select_many` gives to each label. -/

namespace Trumania

variable {σ : Type} {r r' : Relationship σ} {reqs : List (Val × Val × Int)} {remove discard : Bool}
  {res : List (Val × List Val)} {out : List ManyRow}

/-- grouping rows by a list of distinct labels that covers them is a permutation -/
theorem flatMap_filter_perm {α : Type} (key : α → Val) {L : List Val} (hn : L.Nodup) (rows : List α)
    (hc : ∀ x ∈ rows, key x ∈ L) :
    (L.flatMap fun l => rows.filter fun x => decide (key x = l)).Perm rows := by
  induction L generalizing rows with
  | nil =>
    cases rows with
    | nil => exact List.Perm.refl _
    | cons x rows => exact absurd (hc x (by simp)) (by simp)
  | cons a L ih =>
    rw [List.nodup_cons] at hn
    rw [List.flatMap_cons]
    have h2 : (L.flatMap fun l => rows.filter fun x => decide (key x = l)) =
        L.flatMap fun l => (rows.filter fun x => !decide (key x = a)).filter
          fun x => decide (key x = l) := by
      rw [List.flatMap_def, List.flatMap_def]
      congr 1
      apply List.map_congr_left
      intro l hl
      rw [List.filter_filter]
      apply List.filter_congr
      intro x _
      by_cases hx : key x = l
      · have : l ≠ a := by rintro rfl; exact hn.1 hl
        simp [hx, this]
      · simp [hx]
    rw [h2]
    refine (List.Perm.append_left _ (ih hn.2 _ ?_)).trans ?_
    · intro x hx
      rw [List.mem_filter] at hx
      have := hc x hx.1
      rw [List.mem_cons] at this
      rcases this with h | h
      · simp [h] at hx
      · exact h
    · exact List.filter_append_perm _ _

namespace PicksSpec
variable {g : Dict Val Relations} {f : Val} {rq : List (Val × Int)} {rows : List ManyRow}

theorem labels_sublist (h : PicksSpec g f rq rows) :
    (rows.map (·.label)).Sublist (rq.map Prod.fst) := by
  have h1 := congrArg (List.map Prod.fst) h.labels
  rw [List.map_map] at h1
  have h2 : (rows.map (·.label)) = (rows.map (Prod.fst ∘ fun r => (r.label, (r.idxs.length : Int)))) := rfl
  rw [h2, h1]
  have h3 : ((rq.map Prod.fst).zip (Spec.greedy (rq.map Prod.snd) (pairsAt g f).length)).map Prod.fst
      = rq.map Prod.fst := by
    apply List.map_fst_zip
    rw [greedy_length]; simp
  conv_rhs => rw [← h3]
  exact List.filter_sublist.map _

theorem tos_length (h : PicksSpec g f rq rows) {row : ManyRow} (hr : row ∈ rows) :
    row.tos.length = row.idxs.length := by
  rw [h.tos_eq row hr, List.length_map, picked_length]
  intro i hi
  exact h.lt i (List.mem_flatMap.2 ⟨row, hr, hi⟩)

/-- the number of tos given to a label is what the greedy distribution gives it -/
theorem given (h : PicksSpec g f rq rows) (hn : (rq.map Prod.fst).Nodup) {l : Val} {v : Int}
    (hm : (l, v) ∈ (rq.map Prod.fst).zip (Spec.greedy (rq.map Prod.snd) (pairsAt g f).length)) :
    (((rows.filter fun x => decide (x.label = l)).flatMap (·.tos)).length : Int) = v := by
  have hzn : (((rq.map Prod.fst).zip
      (Spec.greedy (rq.map Prod.snd) (pairsAt g f).length)).map Prod.fst).Nodup := by
    rw [List.map_fst_zip]
    · exact hn
    · rw [greedy_length]; simp
  have huniq : ∀ v', (l, v') ∈ (rq.map Prod.fst).zip
      (Spec.greedy (rq.map Prod.snd) (pairsAt g f).length) → v' = v := by
    intro v' hv'
    have := List.inj_on_of_nodup_map hzn hv' hm rfl
    simpa using this
  have hrow : ∀ row ∈ rows, row.label = l → (row.idxs.length : Int) = v ∧ v ≠ 0 := by
    intro row hr hl
    have : (row.label, (row.idxs.length : Int)) ∈
        rows.map (fun r => (r.label, (r.idxs.length : Int))) := List.mem_map.2 ⟨row, hr, rfl⟩
    rw [h.labels, List.mem_filter, hl] at this
    have h1 := huniq _ this.1
    refine ⟨h1, ?_⟩
    rw [← h1]
    simpa using this.2
  by_cases hv : v = 0
  · have : (rows.filter fun x => decide (x.label = l)) = [] := by
      rw [List.filter_eq_nil_iff]
      intro row hr hl
      simp only [decide_eq_true_eq] at hl
      exact (hrow row hr hl).2 hv
    rw [this, hv]; rfl
  · have hex : (l, v) ∈ rows.map (fun r => (r.label, (r.idxs.length : Int))) := by
      rw [h.labels, List.mem_filter]
      exact ⟨hm, by simpa using hv⟩
    obtain ⟨row, hr, he⟩ := List.mem_map.1 hex
    simp only [Prod.mk.injEq] at he
    have hnl : (rows.map (·.label)).Nodup := hn.sublist h.labels_sublist
    have hone : (rows.filter fun x => decide (x.label = l)) = [row] := by
      have hlen : (rows.filter fun x => decide (x.label = l)).length ≤ 1 := by
        have := List.nodup_iff_count_le_one.1 hnl l
        rw [List.count, List.countP_map, List.countP_eq_length_filter] at this
        refine le_trans (le_of_eq ?_) this
        congr 1
      have hmem : row ∈ rows.filter fun x => decide (x.label = l) :=
        List.mem_filter.2 ⟨hr, by simpa using he.1⟩
      match hfl : (rows.filter fun x => decide (x.label = l)) with
      | [] => rw [hfl] at hmem; simp at hmem
      | [x] => rw [hfl] at hmem; simp at hmem; rw [hmem, hfl]
      | x :: y :: z => rw [hfl] at hlen; simp at hlen
    rw [hone]
    simp only [List.flatMap_cons, List.flatMap_nil, List.append_nil]
    rw [h.tos_length hr]
    exact he.2

theorem flatMap_tos (h : PicksSpec g f rq rows) :
    rows.flatMap (·.tos) = (picked (pairsAt g f) (rows.flatMap (·.idxs))).map Prod.fst := by
  have : ∀ rows' : List ManyRow, (∀ r ∈ rows', r.tos = (picked (pairsAt g f) r.idxs).map Prod.fst) →
      rows'.flatMap (·.tos) = (picked (pairsAt g f) (rows'.flatMap (·.idxs))).map Prod.fst := by
    intro rows'
    induction rows' with
    | nil => intro _; rfl
    | cons x l ih =>
      intro hx
      rw [List.flatMap_cons, List.flatMap_cons, ih (fun r hr => hx r (by simp [hr])), hx x (by simp),
        picked, picked, picked, List.filterMap_append, List.map_append]
  exact this rows h.tos_eq

theorem total (h : PicksSpec g f rq rows) (hq : ∀ x ∈ rq, 0 ≤ x.2) :
    ((rows.flatMap (·.tos)).length : Int) = min (rq.map Prod.snd).sum (pairsAt g f).length := by
  rw [h.flatMap_tos, List.length_map, picked_length h.lt]
  have h1 : ((rows.flatMap (·.idxs)).length : Int) =
      (rows.map fun r => (r.idxs.length : Int)).sum := by
    clear h
    induction rows with
    | nil => rfl
    | cons x l ih => rw [List.flatMap_cons, List.length_append, Int.natCast_add, ih, List.map_cons, List.sum_cons]
  have h2 : (rows.map fun r => (r.idxs.length : Int)) =
      (rows.map (fun r => (r.label, (r.idxs.length : Int)))).map Prod.snd := by
    rw [List.map_map]; rfl
  have h3 : ∀ l : List (Val × Int), ((l.filter fun x => decide (x.2 ≠ 0)).map Prod.snd).sum =
      (l.map Prod.snd).sum := by
    intro l
    induction l with
    | nil => rfl
    | cons x l ih =>
      rw [List.filter_cons]
      split
      · simp only [List.map_cons, List.sum_cons, ih]
      · rename_i hx
        simp only [decide_eq_true_eq, not_not] at hx
        rw [List.map_cons, List.sum_cons, ih, hx, Int.zero_add]
  rw [h1, h2, h.labels, h3, zip_map_fst_greedy]
  apply greedy_sum
  · intro v hv
    obtain ⟨x, hx, rfl⟩ := List.mem_map.1 hv
    exact hq x hx
  · omega

theorem tos_subperm (h : PicksSpec g f rq rows) :
    (rows.flatMap (·.tos)).Subperm ((pairsAt g f).map Prod.fst) := by
  rw [h.flatMap_tos]
  have := picked_kept_perm (xs := pairsAt g f) h.nodup
  have h2 := (this.map Prod.fst).symm
  rw [List.map_append] at h2
  exact ((List.sublist_append_left _ _).subperm).trans h2.symm.subperm

end PicksSpec

namespace ManySpec

theorem row_req (h : ManySpec r r' reqs remove discard res out) {row : ManyRow} (hr : row ∈ out) :
    row.label ∈ (reqsOf reqs row.from_).map Prod.fst := by
  obtain ⟨rq, hp, hs⟩ := h.picks row.from_
  have hm : row ∈ manyOf out row.from_ := List.mem_filter.2 ⟨hr, by simp⟩
  have := hs.labels_sublist.subset (List.mem_map.2 ⟨row, hm, rfl⟩)
  exact (hp.map _).mem_iff.1 this

/-- rows carrying the label of a request on `f` are rows of `f` -/
theorem filter_label (h : ManySpec r r' reqs remove discard res out) (hn : (reqs.map (·.1)).Nodup)
    {q : Val × Val × Int} (hq : q ∈ reqs) :
    out.filter (fun x => decide (x.label = q.1)) =
      (manyOf out q.2.1).filter (fun x => decide (x.label = q.1)) := by
  rw [manyOf, List.filter_filter]
  apply List.filter_congr
  intro row hrow
  by_cases hl : row.label = q.1
  · have := h.row_req hrow
    rw [reqsOf, List.map_map, List.mem_map] at this
    obtain ⟨q', hq', he⟩ := this
    rw [List.mem_filter] at hq'
    simp only [Function.comp_apply] at he
    have : q' = q := List.inj_on_of_nodup_map hn hq'.1 hq (he.trans hl)
    subst this
    have := hq'.2
    simp only [decide_eq_true_eq] at this
    simp [hl, this]
  · simp [hl]

theorem handed_eq (h : ManySpec r r' reqs remove discard res out) (l : Val) :
    Spec.handed res l = (out.filter (fun x => decide (x.label = l))).flatMap (·.tos) := by
  have e1 : ∀ ls : List Val, ((ls.map fun k => (k, ([] : List Val))).filter
      fun x => decide (x.1 = l)).flatMap Prod.snd = [] := by
    intro ls
    rw [List.flatMap_eq_nil_iff]
    intro x hx
    obtain ⟨k, -, rfl⟩ := List.mem_map.1 (List.mem_filter.1 hx).1
    rfl
  rw [Spec.handed, h.res_eq, List.filter_append, List.flatMap_append, e1, List.append_nil,
    List.filter_map, List.flatMap_map]
  rfl

theorem handedFrom_perm (h : ManySpec r r' reqs remove discard res out)
    (hn : (reqs.map (·.1)).Nodup) (f : Val) :
    (Spec.handedFrom reqs res f).Perm ((manyOf out f).flatMap (·.tos)) := by
  obtain ⟨rq, hp, hs⟩ := h.picks f
  rw [Spec.handedFrom]
  have e : ((reqs.filter fun q => decide (q.2.1 = f)).flatMap fun q => Spec.handed res q.1) =
      (((reqsOf reqs f).map Prod.fst).flatMap fun l =>
        (manyOf out f).filter fun x => decide (x.label = l)).flatMap (·.tos) := by
    rw [List.flatMap_assoc, reqsOf, List.map_map, List.flatMap_map]
    rw [List.flatMap_def, List.flatMap_def]
    congr 1
    apply List.map_congr_left
    intro q hq
    rw [List.mem_filter] at hq
    have hf : q.2.1 = f := by simpa using hq.2
    rw [h.handed_eq, h.filter_label hn hq.1, hf]
    rfl
  rw [e]
  apply List.Perm.flatMap_right
  apply flatMap_filter_perm (fun x : ManyRow => x.label) (reqsOf_nodup hn f)
  intro x hx
  exact (hp.map _).mem_iff.1 (hs.labels_sublist.subset (List.mem_map.2 ⟨x, hx, rfl⟩))

theorem labels_nodup (h : ManySpec r r' reqs remove discard res out)
    (hn : (reqs.map (·.1)).Nodup) : (out.map (·.label)).Nodup := by
  rw [List.nodup_iff_count_le_one]
  intro l
  have hc : List.count l (out.map (·.label)) =
      (out.filter fun x => decide (x.label = l)).length := by
    rw [List.count, List.countP_map, List.countP_eq_length_filter]
    congr 1
  rw [hc]
  by_cases hl : l ∈ reqs.map (·.1)
  · obtain ⟨q, hq, rfl⟩ := List.mem_map.1 hl
    rw [h.filter_label hn hq]
    obtain ⟨rq, hp, hs⟩ := h.picks q.2.1
    have hnr : ((manyOf out q.2.1).map (·.label)).Nodup :=
      ((hp.map _).nodup_iff.2 (reqsOf_nodup hn _)).sublist hs.labels_sublist
    have := List.nodup_iff_count_le_one.1 hnr q.1
    rw [List.count, List.countP_map, List.countP_eq_length_filter] at this
    refine le_trans (le_of_eq ?_) this
    congr 1
  · rw [List.filter_eq_nil_iff.2]
    · simp
    · intro row hrow he
      simp only [decide_eq_true_eq] at he
      have := h.row_req hrow
      rw [reqsOf, List.map_map, List.mem_map] at this
      obtain ⟨q', hq', he'⟩ := this
      apply hl
      rw [← he, ← he']
      exact List.mem_map.2 ⟨q', (List.mem_filter.1 hq').1, rfl⟩

theorem labels_subset (h : ManySpec r r' reqs remove discard res out) :
    out.map (·.label) ⊆ reqs.map (·.1) := by
  intro l hl
  obtain ⟨row, hrow, rfl⟩ := List.mem_map.1 hl
  have := h.row_req hrow
  rw [reqsOf, List.map_map, List.mem_map] at this
  obtain ⟨q', hq', he'⟩ := this
  rw [← he']
  exact List.mem_map.2 ⟨q', (List.mem_filter.1 hq').1, rfl⟩

theorem row_tos_ne (h : ManySpec r r' reqs remove discard res out) {row : ManyRow} (hr : row ∈ out) :
    row.tos ≠ [] := by
  obtain ⟨rq, hp, hs⟩ := h.picks row.from_
  have hm : row ∈ manyOf out row.from_ := List.mem_filter.2 ⟨hr, by simp⟩
  have h1 : (row.label, (row.idxs.length : Int)) ∈
      (manyOf out row.from_).map (fun r => (r.label, (r.idxs.length : Int))) :=
    List.mem_map.2 ⟨row, hm, rfl⟩
  rw [hs.labels, List.mem_filter] at h1
  have h2 := h1.2
  simp only [decide_eq_true_eq] at h2
  intro h0
  have := hs.tos_length hm
  rw [h0] at this
  simp at this
  omega

end ManySpec

end Trumania
