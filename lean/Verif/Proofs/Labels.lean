import Verif.Proofs.SelectMany

/-! The labels of the rows selected in a relationship are labels of requests, without repetition.
No assumption on the relationship. -/

namespace Trumania
open Relationship
variable {σ : Type} {R : Rng σ}

theorem outcome_label {g : Dict Val Relations} {discard : Bool} {ow : Option (Dict Val Rat)}
    {q : Val × Val} {r : OneRow} (h : PickOutcome g discard ow q (some r)) : r.label = q.1 := by
  cases h <;> rfl

theorem selectResults_labels {g : Dict Val Relations} {discard : Bool} {ow : Option (Dict Val Rat)}
    {reqs : List (Val × Val)} {s s' : σ} {rows : List OneRow}
    (h : selectResults R g discard ow s reqs = .ok (rows, s')) :
    (rows.map (·.label)).Sublist (reqs.map Prod.fst) := by
  obtain ⟨outs, h1, rfl⟩ := selectResults_ok R h
  clear h
  induction h1 with
  | nil => simp
  | @cons q o reqs outs ho _ ih =>
    cases o with
    | none => simpa using ih.cons q.1
    | some r =>
      simp only [List.filterMap_cons, id, List.map_cons]
      rw [outcome_label ho]
      exact ih.cons_cons _

theorem oneToOne_labels {s : σ} {rows : List OneRow} (hn : (rows.map (·.label)).Nodup) :
    (((oneToOne R s rows).1).map (·.label)).Nodup ∧
    ∀ l ∈ ((oneToOne R s rows).1).map (·.label), l ∈ rows.map (·.label) := by
  have hsub : ∀ r ∈ (oneToOne R s rows).1, r ∈ rows := by
    intro r hr
    simp only [oneToOne, List.mem_append] at hr
    rcases hr with hr | hr
    · exact ((mem_oneToOne_present R).1 ((dropDups_spec [] _).1.subset hr)).1
    · exact List.mem_of_mem_filter hr
  refine ⟨?_, fun l hl => ?_⟩
  · -- the shuffled rows with a `to`
    set present := rows.filter (fun r => !r.to_.isNone) with hp
    have hpn : (present.map (·.label)).Nodup := hn.sublist (List.filter_sublist.map _)
    set labels := (R.permutation s (present.map (·.label))).1 with hl
    have hlp : labels.Perm (present.map (·.label)) := permutation_perm R s _
    have hflat : ((labels.flatMap fun l => present.filter (fun r => decide (r.label = l))).map
        (·.label)).Nodup := by
      rw [List.map_flatMap]
      have : ∀ l ∈ labels, (present.filter (fun r => decide (r.label = l))).map (·.label) = [l] := by
        intro l hl
        rw [hlp.mem_iff] at hl
        have h1 : ((present.filter (fun r => decide (r.label = l))).map (·.label)).Nodup :=
          hpn.sublist (List.filter_sublist.map _)
        have h2 : ∀ x ∈ (present.filter (fun r => decide (r.label = l))).map (·.label), x = l := by
          intro x hx
          obtain ⟨r, hr, rfl⟩ := List.mem_map.1 hx
          simpa using (List.mem_filter.1 hr).2
        have h3 : l ∈ (present.filter (fun r => decide (r.label = l))).map (·.label) := by
          obtain ⟨r, hr, rfl⟩ := List.mem_map.1 hl
          exact List.mem_map.2 ⟨r, List.mem_filter.2 ⟨hr, by simp⟩, rfl⟩
        generalize (present.filter (fun r => decide (r.label = l))).map (·.label) = xs at h1 h2 h3
        match xs, h1, h2, h3 with
        | [], _, _, h3 => cases h3
        | [x], _, h2, _ => rw [h2 x (by simp)]
        | x :: y :: _, h1, h2, _ =>
          have := h2 x (by simp)
          have := h2 y (by simp)
          simp_all
      rw [List.flatMap_congr this, List.flatMap_singleton']
      exact hlp.nodup_iff.2 hpn
    simp only [oneToOne, List.map_append]
    rw [List.nodup_append]
    refine ⟨hflat.sublist ((dropDups_spec [] _).1.map _), hn.sublist (List.filter_sublist.map _), ?_⟩
    rintro a ha b hb rfl
    obtain ⟨r1, hr1, rfl⟩ := List.mem_map.1 ha
    obtain ⟨r2, hr2, he⟩ := List.mem_map.1 hb
    have m1 := (mem_oneToOne_present R).1 ((dropDups_spec [] _).1.subset hr1)
    have m2 := List.mem_filter.1 hr2
    have := List.inj_on_of_nodup_map hn m2.1 m1.1 he
    subst this
    exact m1.2 (by simpa using m2.2)
  · obtain ⟨r, hr, rfl⟩ := List.mem_map.1 hl
    exact List.mem_map.2 ⟨r, hsub r hr, rfl⟩

theorem select_one_labels {r r' : Relationship σ} {reqs : List (Val × Val)} {rm d o : Bool}
    {ow : Option (Dict Val Rat)} {rows : List OneRow}
    (h : r.select_one R (some reqs) rm d o ow = .ok (rows, r')) (hn : (reqs.map Prod.fst).Nodup) :
    (rows.map (·.label)).Nodup ∧ ∀ l ∈ rows.map (·.label), l ∈ reqs.map Prod.fst := by
  rw [select_one] at h
  split at h
  · cases h
  obtain ⟨⟨out, s⟩, h1, h⟩ := bind_eq_ok.1 h
  have hsub := selectResults_labels h1
  rw [requests] at hsub
  simp only at h
  split at h
  · cases h
    simp
  obtain ⟨g, -, h⟩ := bind_eq_ok.1 h
  cases h
  cases o with
  | false => exact ⟨hn.sublist hsub, fun l hl => hsub.subset hl⟩
  | true =>
    obtain ⟨e1, e2⟩ := oneToOne_labels (R := R) (s := s) (hn.sublist hsub)
    exact ⟨e1, fun l hl => hsub.subset (e2 l hl)⟩

theorem zip_fst_sublist {α β : Type} (l : List α) (m : List β) :
    ((l.zip m).map Prod.fst).Sublist l := by
  induction l generalizing m with
  | nil => simp
  | cons a l ih =>
    cases m with
    | nil => simp
    | cons b m => simpa using ih m

theorem slicePicks_labels {f : Val} {tos : List Val} {idxs : List Nat} {lb : Nat}
    {reqs : List (Val × Int)} :
    ((slicePicks f tos idxs lb reqs).map (·.label)).Sublist (reqs.map Prod.fst) := by
  induction reqs generalizing lb with
  | nil => simp [slicePicks]
  | cons x reqs ih =>
    obtain ⟨l, q⟩ := x
    simp only [slicePicks]
    split
    · exact ih.cons _
    · exact ih.cons_cons _

theorem picksOf_labels {g : Dict Val Relations} {s s' : σ} {f : Val} {reqs : List (Val × Int)}
    {rows : List ManyRow} (h : picksOf R g s f reqs = .ok (rows, s')) :
    (rows.map (·.label)).Sublist (reqs.map Prod.fst) := by
  rw [picksOf.eq_def] at h
  cases hf : g.get? f with
  | none =>
    rw [hf] at h
    cases h
    simp
  | some rs =>
    rw [hf] at h
    obtain ⟨q, -, h⟩ := bind_eq_ok.1 h
    obtain ⟨⟨⟨idxs, tos⟩, s1⟩, -, h⟩ := bind_eq_ok.1 h
    cases h
    exact slicePicks_labels.trans (zip_fst_sublist _ _)

theorem allPicks_labels {g : Dict Val Relations} {s s' : σ} {l : List (Val × List (Val × Int))}
    {rows : List ManyRow} (h : allPicks R g s l = .ok (rows, s')) :
    (rows.map (·.label)).Sublist (l.flatMap fun x => x.2.map Prod.fst) := by
  induction l generalizing s rows with
  | nil =>
    rw [allPicks] at h
    cases h
    simp
  | cons x l ih =>
    obtain ⟨f, reqs⟩ := x
    rw [allPicks] at h
    obtain ⟨⟨r1, s1⟩, h1, h⟩ := bind_eq_ok.1 h
    obtain ⟨⟨r2, s2⟩, h2, h⟩ := bind_eq_ok.1 h
    cases h
    rw [List.map_append, List.flatMap_cons]
    exact (picksOf_labels h1).append (ih h2)

theorem reqsOf_labels_nodup {reqs : List (Val × Val × Int)} (hn : (reqs.map (·.1)).Nodup)
    {froms : List Val} (hf : froms.Nodup) :
    (froms.flatMap fun f => (reqsOf reqs f).map Prod.fst).Nodup := by
  rw [List.nodup_flatMap]
  refine ⟨fun f _ => reqsOf_nodup hn f, hf.imp fun {a b} hab => ?_⟩
  intro x hx hy
  simp only [reqsOf, List.map_map, List.mem_map, List.mem_filter, Function.comp_apply] at hx hy
  obtain ⟨p, ⟨hp, hpa⟩, rfl⟩ := hx
  obtain ⟨q, ⟨hq, hqb⟩, he⟩ := hy
  have := List.inj_on_of_nodup_map hn hq hp he
  subst this
  simp only [decide_eq_true_eq] at hpa hqb
  exact hab (hpa.symm.trans hqb)

theorem select_many_labels {r r' : Relationship σ} {reqs : List (Val × Val × Int)} {rm d : Bool}
    {rows : List (Val × List Val)} (h : r.select_many R reqs rm d = .ok (rows, r'))
    (hn : (reqs.map (·.1)).Nodup) :
    (rows.map Prod.fst).Nodup ∧ ∀ l ∈ rows.map Prod.fst, l ∈ reqs.map (·.1) := by
  rw [select_many] at h
  obtain ⟨⟨out, s⟩, h1, h⟩ := bind_eq_ok.1 h
  obtain ⟨g, -, h⟩ := bind_eq_ok.1 h
  cases h
  have hg := gatherAll_spec R hn r.state (uniq (reqs.map (·.2.1)))
  have hperm : ((gatherAll R reqs r.state (uniq (reqs.map (·.2.1)))).1.flatMap
      fun x => x.2.map Prod.fst).Perm
      ((uniq (reqs.map (·.2.1))).flatMap fun f => (reqsOf reqs f).map Prod.fst) := by
    clear h1
    revert hg
    generalize (gatherAll R reqs r.state (uniq (reqs.map (·.2.1)))).1 = l
    generalize uniq (reqs.map (·.2.1)) = froms
    intro hg
    induction hg with
    | nil => simp
    | cons hx _ ih => exact (hx.2.map _).append ih
  have hsub := allPicks_labels h1
  have hnd : ((out.map (·.label))).Nodup :=
    (hperm.nodup_iff.2 (reqsOf_labels_nodup hn (uniq_nodup _))).sublist hsub
  have hmem : ∀ l ∈ out.map (·.label), l ∈ reqs.map (·.1) := by
    intro l hl
    have := hperm.mem_iff.1 (hsub.subset hl)
    rw [List.mem_flatMap] at this
    obtain ⟨f, -, hx⟩ := this
    simp only [reqsOf, List.map_map, List.mem_map, List.mem_filter, Function.comp_apply] at hx
    obtain ⟨p, ⟨hp, -⟩, rfl⟩ := hx
    exact List.mem_map.2 ⟨p, hp, rfl⟩
  have hserved : (out.map fun x => (x.label, x.tos)).map Prod.fst = out.map (·.label) := by
    simp [Function.comp_def]
  rw [List.map_append, hserved, List.map_map]
  simp only [Function.comp_def, List.map_id']
  split
  · have hp := sortBy_perm Val.le ((uniq (reqs.map (·.1))).filter
        (fun l => decide (l ∉ out.map (·.label))))
    refine ⟨?_, fun l hl => ?_⟩
    · rw [List.nodup_append]
      refine ⟨hnd, hp.nodup_iff.2 ((uniq_nodup _).filter _), ?_⟩
      rintro a ha b hb rfl
      have := hp.mem_iff.1 hb
      rw [List.mem_filter] at this
      exact absurd ha (by simpa using this.2)
    · rw [List.mem_append] at hl
      rcases hl with hl | hl
      · exact hmem l hl
      · have := hp.mem_iff.1 hl
        rw [List.mem_filter] at this
        exact mem_uniq.1 this.1
  · simpa using ⟨hnd, by simpa using hmem⟩

end Trumania
