import Verif.Spec.Population
import Verif.Proofs.Basic
import Verif.Proofs.ValOrder
import Verif.Proofs.Select
import Verif.Proofs.RelationshipHistory
import Verif.Proofs.Frame
import Verif.Proofs.Labels
import Mathlib.Tactic.Ring

/-! # Lemmas on populations and attributes -/

namespace Trumania
open Spec

theorem mem_indexUnion {l r : List Val} {i : Val} : i ∈ indexUnion l r ↔ i ∈ l ∨ i ∈ r := by
  rw [indexUnion]
  split
  · next h => rcases h with rfl | rfl <;> simp
  split
  · next h => subst h; simp
  · rw [(sortBy_perm _ _).mem_iff, List.mem_append, List.mem_filter]
    by_cases h : i ∈ l <;> simp [h]

theorem indexUnion_nodup {l r : List Val} (hl : l.Nodup) (hr : r.Nodup) :
    (indexUnion l r).Nodup := by
  rw [indexUnion]
  split
  · exact hl
  split
  · exact hr
  · rw [(sortBy_perm _ _).nodup_iff, List.nodup_append]
    refine ⟨hl, hr.filter _, ?_⟩
    rintro a ha b hb rfl
    simp only [List.mem_filter, decide_eq_true_eq] at hb
    exact hb.2 ha

theorem indexUnion_sorted {l r : List Val} (hs : SortedIds l) (hl : l ≠ []) :
    SortedIds (indexUnion l r) := by
  rw [indexUnion]
  split
  · exact hs
  · exact sortBy_sorted (le := Val.le) (fun _ _ _ => Val.le_trans') Val.le_total' _

theorem mem_indexDifference {l r : List Val} {i : Val} :
    i ∈ indexDifference l r ↔ i ∈ l ∧ i ∉ r := by
  rw [indexDifference]
  split
  · next h => subst h; simp
  split
  · next h => subst h; simp
  · rw [(sortBy_perm _ _).mem_iff, List.mem_filter, mem_uniq]
    simp

theorem indexDifference_nodup {l r : List Val} (hl : l.Nodup) : (indexDifference l r).Nodup := by
  rw [indexDifference]
  split
  · simp
  split
  · exact hl
  · rw [(sortBy_perm _ _).nodup_iff]
    exact (uniq_nodup _).filter _

/-- sorted lists without duplicates are determined by their elements -/
theorem sortedIds_eq {l r : List Val} (hl : SortedIds l) (hr : SortedIds r) (nl : l.Nodup)
    (nr : r.Nodup) (h : ∀ i, i ∈ l ↔ i ∈ r) : l = r := by
  have hp : l.Perm r := (List.perm_ext_iff_of_nodup nl nr).2 h
  exact hp.eq_of_pairwise (fun a b _ _ h1 h2 => Val.le_antisymm' h1 h2) hl hr

namespace Attribute

theorem get?_iff {a : Attribute} (ha : OneValueEach a) {i : Val} {c : Cell} :
    Dict.get? a.table i = some c ↔ Holds a i c := Dict.get?_eq_some_iff ha

theorem update_ok {a a' : Attribute} {series : List (Val × Cell)}
    (h : a.update series = .ok a') : (series.map Prod.fst).Nodup := by
  rw [update] at h
  split at h
  · cases h
  · next hn => exact not_not.1 hn

theorem update_ids {a a' : Attribute} {series : List (Val × Cell)}
    (h : a.update series = .ok a') : a'.ids = indexUnion a.ids (series.map Prod.fst) := by
  have hn := update_ok h
  rw [update, if_neg (not_not.2 hn)] at h
  cases h
  simp only [ids, List.map_map]
  conv_rhs => rw [← List.map_id (indexUnion _ _)]
  apply List.map_congr_left
  intro i _
  simp only [Function.comp]
  split <;> rfl

theorem update_oneValueEach {a a' : Attribute} {series : List (Val × Cell)} (ha : OneValueEach a)
    (h : a.update series = .ok a') : OneValueEach a' := by
  show a'.ids.Nodup
  rw [update_ids h]
  exact indexUnion_nodup ha (update_ok h)

theorem update_holds {a a' : Attribute} {series : List (Val × Cell)} (ha : OneValueEach a)
    (h : a.update series = .ok a') (i : Val) (c : Cell) :
    Holds a' i c ↔ (i, c) ∈ series ∨ (i ∉ series.map Prod.fst ∧ Holds a i c) := by
  have hn := update_ok h
  rw [update, if_neg (not_not.2 hn)] at h
  cases h
  have hs : ∀ {i c}, Dict.get? series i = some c ↔ (i, c) ∈ series :=
    Dict.get?_eq_some_iff (d := series) hn
  simp only [Holds, List.mem_map, mem_indexUnion]
  constructor
  · rintro ⟨j, hj, he⟩
    cases hg : Dict.get? series j with
    | some v =>
      rw [hg] at he
      obtain ⟨rfl, rfl⟩ := Prod.mk.inj he
      exact .inl (hs.1 hg)
    | none =>
      rw [hg] at he
      obtain ⟨e1, rfl⟩ := Prod.mk.inj he
      rw [← e1]
      have hj' : j ∉ series.map Prod.fst := Dict.get?_eq_none_iff.1 hg
      refine .inr ⟨by simpa using hj', ?_⟩
      have hja : j ∈ a.ids := by
        rcases hj with hj | hj
        · exact hj
        · exact absurd (List.mem_map.2 hj) hj'
      obtain ⟨v, hv⟩ := Dict.exists_get?_of_mem_keys (d := a.table) hja
      rw [hv]
      exact (get?_iff ha).1 hv
  · rintro (hm | ⟨hm, hh⟩)
    · refine ⟨i, .inr ⟨_, hm, rfl⟩, ?_⟩
      rw [hs.2 hm]
    · refine ⟨i, .inl (List.mem_map.2 ⟨_, hh, rfl⟩), ?_⟩
      have : Dict.get? series i = none := Dict.get?_eq_none_iff.2 (by simpa [Dict.keys] using hm)
      rw [this, (get?_iff ha).2 hh]
      rfl

theorem update_total (a : Attribute) {series : List (Val × Cell)}
    (hn : (series.map Prod.fst).Nodup) : ∃ a', a.update series = .ok a' := by
  rw [update, if_neg (not_not.2 hn)]
  exact ⟨_, rfl⟩

theorem getValues_ok_iff {a : Attribute} (ha : OneValueEach a) {l : List Val} {cs : List Cell} :
    a.getValues l = .ok cs ↔ List.Forall₂ (Holds a) l cs := by
  rw [getValues, mapM_ok_iff]
  constructor <;> intro h <;> refine h.imp ?_ <;> intro i c hi
  · rw [Dict.get] at hi
    split at hi
    · next v hv => cases hi; exact (get?_iff ha).1 hv
    · cases hi
  · rw [Dict.get, (get?_iff ha).2 hi]

theorem getValues_unknown {a : Attribute} {l : List Val} {i : Val} (hi : i ∈ l)
    (h : ¬ Knows a i) : a.getValues l = .error .keyError := by
  have hk : ∀ j e, Dict.get a.table j = .error e → e = .keyError := by
    intro j e
    rw [Dict.get]
    split
    · intro hj; cases hj
    · intro hj; cases hj; rfl
  have hn : Dict.get a.table i = .error .keyError := by
    have : Dict.get? a.table i = none := by
      rw [Dict.get?_eq_none_iff]
      intro hm
      obtain ⟨x, hx, rfl⟩ := List.mem_map.1 hm
      exact h ⟨x.2, hx⟩
    rw [Dict.get, this]
  obtain ⟨e, he⟩ := mapM_error_of_mem hi hn
  rw [getValues, he, mapM_error_all (fun j _ => hk j) he]

/-! ### Additions -/

theorem contribution_ok {l : List (Val × Cell)} (hl : ∀ x ∈ l, IsNum x.2) (i : Val) :
    contribution l i = .ok ((givenFor l i).map numIn).sum := by
  induction l with
  | nil => simp [contribution, givenFor]
  | cons x l ih =>
    obtain ⟨j, c⟩ := x
    obtain ⟨q, rfl⟩ := hl (j, c) (by simp)
    have ih := ih fun x hx => hl x (by simp [hx])
    rw [contribution]
    by_cases hj : j = i
    · rw [if_pos hj]
      simp only [ih, bind_ok]
      simp [givenFor, hj, numIn]
    · rw [if_neg hj, ih]
      simp [givenFor, hj]

/-- the ids `add` works on -/
def addKeys (ids : List Val) : List Val := (uniq ids).filter (fun i => decide (i ≠ Val.na))

theorem mem_addKeys {l : List Val} {i : Val} : i ∈ addKeys l ↔ i ∈ l ∧ i ≠ Val.na := by
  simp [addKeys, mem_uniq]

theorem add_eq_ok {a a' : Attribute} {l : List Val} {added : List Cell} :
    a.add l added = .ok a' ↔ l.length = added.length ∧ (∀ i ∈ addKeys l, i ∈ a.ids) ∧
      List.Forall₂ (fun kv kv' => kv'.1 = kv.1 ∧
        if kv.1 ∈ addKeys l then
          ∃ q, contribution (l.zip added) kv.1 = .ok q ∧ plusNum kv.2 q = .ok kv'.2
        else kv' = kv) a.table a'.table := by
  rw [add]
  split
  · next h => constructor
              · intro h'; cases h'
              · intro h'; exact absurd h'.1 h
  next hl =>
  rw [← addKeys]
  simp only
  split
  · next h =>
    constructor
    · intro h'; cases h'
    · intro h'
      simp only [List.any_eq_true, Bool.not_eq_true', List.contains_eq_mem, decide_eq_false_iff_not] at h
      obtain ⟨i, hi, hn⟩ := h
      exact absurd (h'.2.1 i hi) hn
  next hk =>
  have hk' : ∀ i ∈ addKeys l, i ∈ a.ids := by
    intro i hi
    by_contra hn
    exact hk (List.any_eq_true.2 ⟨i, hi, by simpa using hn⟩)
  rw [bind_eq_ok]
  constructor
  · rintro ⟨table, ht, he⟩
    cases he
    refine ⟨not_not.1 hl, hk', ?_⟩
    refine (mapM_ok_iff.1 ht).imp ?_
    intro kv kv' hx
    by_cases hm : kv.1 ∈ addKeys l
    · rw [if_pos (by simpa using hm)] at hx
      rw [if_pos hm]
      obtain ⟨q, hq, hx⟩ := bind_eq_ok.1 hx
      obtain ⟨c, hc, hx⟩ := bind_eq_ok.1 hx
      cases hx
      exact ⟨rfl, q, hq, hc⟩
    · rw [if_neg (by simpa using hm)] at hx
      rw [if_neg hm]
      cases hx
      exact ⟨rfl, rfl⟩
  · rintro ⟨-, -, h2⟩
    refine ⟨a'.table, mapM_ok_iff.2 (h2.imp ?_), rfl⟩
    intro kv kv' ⟨h1, hx⟩
    by_cases hm : kv.1 ∈ addKeys l
    · rw [if_pos (by simpa using hm)]
      rw [if_pos hm] at hx
      obtain ⟨q, hq, hc⟩ := hx
      simp only [hq, hc, bind_ok]
      rw [← h1]
    · rw [if_neg (by simpa using hm)]
      rw [if_neg hm] at hx
      rw [hx]

theorem add_ids {a a' : Attribute} {l : List Val} {added : List Cell}
    (h : a.add l added = .ok a') : a'.ids = a.ids := by
  have h2 := (add_eq_ok.1 h).2.2
  rw [ids, ids]
  clear h
  generalize a.table = t, a'.table = t' at h2
  induction h2 with
  | nil => rfl
  | cons h _ ih => simp [h.1, ih]

theorem contribution_negate {l : List Val} {added added' : List Cell} (i : Val)
    (hn : added.mapM Ops.negate = .ok added') :
    ∀ q, contribution (l.zip added) i = .ok q → contribution (l.zip added') i = .ok (-q) := by
  rw [mapM_ok_iff] at hn
  induction hn generalizing l with
  | nil =>
    intro q hq
    simp only [List.zip_nil_right, contribution] at hq ⊢
    cases hq
    simp
  | @cons c c' cs cs' hc _ ih =>
    cases l with
    | nil =>
      intro q hq
      simp only [List.zip_nil_left, contribution] at hq ⊢
      cases hq
      simp
    | cons j l =>
      intro q hq
      rw [List.zip_cons_cons, contribution.eq_def] at hq ⊢
      simp only at hq ⊢
      by_cases hj : j = i
      · rw [if_pos hj] at hq ⊢
        match c, hc, hq with
        | .scalar (.num x), hc, hq =>
          cases hc
          obtain ⟨q', h1, h2⟩ := bind_eq_ok.1 hq
          cases h2
          simp only [ih q' h1, bind_ok]
          congr 1
          ring
        | .scalar .na, hc, hq =>
          cases hc
          exact ih q hq
      · rw [if_neg hj] at hq ⊢
        exact ih q hq

theorem plusNum_inverse {c c' : Cell} {q : Rat} (h : plusNum c q = .ok c') :
    plusNum c' (-q) = .ok c := by
  match c, h with
  | .scalar (.num x), h =>
    cases h
    simp [plusNum]
  | .scalar .na, h =>
    cases h
    rfl

theorem negate_length {added added' : List Cell} (hn : added.mapM Ops.negate = .ok added') :
    added'.length = added.length := (mapM_ok_iff.1 hn).length_eq.symm

theorem add_inverse {a b : Attribute} {l : List Val} {added added' : List Cell}
    (hn : added.mapM Ops.negate = .ok added') (h : a.add l added = .ok b) :
    b.add l added' = .ok a := by
  have hi := add_ids h
  rw [add_eq_ok] at h ⊢
  obtain ⟨h1, h2, h3⟩ := h
  refine ⟨by rw [h1, negate_length hn], by rw [hi]; exact h2, h3.flip.imp ?_⟩
  intro kv' kv ⟨e1, e2⟩
  refine ⟨e1.symm, ?_⟩
  by_cases hm : kv.1 ∈ addKeys l
  · rw [if_pos hm] at e2
    obtain ⟨q, hq, hc⟩ := e2
    rw [e1, if_pos hm]
    exact ⟨-q, contribution_negate _ hn q hq, plusNum_inverse hc⟩
  · rw [if_neg hm] at e2
    rw [e1, if_neg hm, e2]

/-- one row per from -/
theorem select_one_all_froms {σ : Type} {R : Rng σ} {r r' : Relationship σ} {rows : List OneRow}
    (hr : r.Reachable R) (h : r.select_one R none = .ok (rows, r')) :
    (rows.map (·.from_)).Nodup := by
  rw [Relationship.select_one] at h
  split at h
  · cases h
  obtain ⟨⟨out, s⟩, h1, h⟩ := bind_eq_ok.1 h
  simp only at h
  split at h
  · cases h
    simp
  obtain ⟨g, -, h⟩ := bind_eq_ok.1 h
  cases h
  have hn : ((r.requests none).map Prod.snd).Nodup := by
    have : (r.requests none).map Prod.snd = r.grouped.keys := by
      simp [Relationship.requests, List.map_map, Function.comp_def]
    rw [this]
    exact hr.gwf.wf
  obtain ⟨outs, h2, rfl⟩ := selectResults_ok R h1
  refine hn.sublist ?_
  clear * - h2
  generalize r.requests none = reqs at h2
  induction h2 with
  | nil => simp
  | @cons q o reqs outs ho _ ih =>
    cases o with
    | none => simpa using ih.cons q.2
    | some r =>
      have : r.from_ = q.2 := by cases ho <;> rfl
      simp only [Bool.false_eq_true, if_false] at ih ⊢
      simp only [List.filterMap_cons, id, List.map_cons]
      rw [this]
      exact ih.cons_cons _

end Attribute

namespace Population

theorem mem_keepLast {rows : List Row} {r : Row} :
    r ∈ keepLast rows ↔ ∃ pre post, rows = pre ++ r :: post ∧ ∀ x ∈ post, x.idx ≠ r.idx := by
  induction rows with
  | nil => simp [keepLast]
  | cons a rows ih =>
    rw [keepLast]
    constructor
    · intro h
      have h' : r ∈ keepLast rows ∨ (r = a ∧ a.idx ∉ rows.map (·.idx)) := by
        split at h
        · exact .inl h
        · next hn =>
          rcases List.mem_cons.1 h with rfl | h
          · exact .inr ⟨rfl, hn⟩
          · exact .inl h
      rcases h' with h' | ⟨rfl, hn⟩
      · obtain ⟨pre, post, rfl, hp⟩ := ih.1 h'
        exact ⟨a :: pre, post, rfl, hp⟩
      · refine ⟨[], rows, rfl, ?_⟩
        intro x hx he
        exact hn (List.mem_map.2 ⟨x, hx, he⟩)
    · rintro ⟨pre, post, he, hp⟩
      cases pre with
      | nil =>
        obtain ⟨rfl, rfl⟩ := List.cons.inj he
        rw [if_neg]
        · exact List.mem_cons_self
        · intro hm
          obtain ⟨x, hx, hxi⟩ := List.mem_map.1 hm
          exact hp x hx hxi
      | cons b pre =>
        obtain ⟨rfl, rfl⟩ := List.cons.inj he
        have := ih.2 ⟨pre, post, rfl, hp⟩
        split
        · exact this
        · exact List.mem_cons_of_mem _ this

theorem keepLast_sublist (rows : List Row) : (keepLast rows).Sublist rows := by
  induction rows with
  | nil => exact List.Sublist.refl _
  | cons a rows ih =>
    rw [keepLast]
    split
    · exact ih.cons _
    · exact ih.cons_cons _

theorem keepLast_idx (rows : List Row) (i : Val) :
    i ∈ (keepLast rows).map (·.idx) ↔ i ∈ rows.map (·.idx) := by
  induction rows with
  | nil => simp [keepLast]
  | cons a rows ih =>
    rw [keepLast]
    split
    · next h =>
      rw [ih, List.map_cons, List.mem_cons]
      constructor
      · exact .inr
      · rintro (rfl | h')
        · exact h
        · exact h'
    · rw [List.map_cons, List.mem_cons, ih, List.map_cons, List.mem_cons]

theorem keepLast_nodup (rows : List Row) : ((keepLast rows).map (·.idx)).Nodup := by
  induction rows with
  | nil => simp [keepLast]
  | cons a rows ih =>
    rw [keepLast]
    split
    · exact ih
    · next h =>
      rw [List.map_cons, List.nodup_cons, keepLast_idx]
      exact ⟨h, ih⟩

theorem keys_set_of_mem {κ ν : Type} [DecidableEq κ] {d : Dict κ ν} {k : κ} {v : ν}
    (h : k ∈ d.keys) : (d.set k v).keys = d.keys := by
  rw [Dict.keys_set, if_pos h]

theorem mem_set {κ ν : Type} [DecidableEq κ] {d : Dict κ ν} {k : κ} {v : ν} {x : κ × ν}
    (h : x ∈ d.set k v) : x = (k, v) ∨ x ∈ d := by
  induction d with
  | nil => simpa [Dict.set] using h
  | cons y d ih =>
    obtain ⟨k', v'⟩ := y
    rw [Dict.set] at h
    split at h
    · rcases List.mem_cons.1 h with rfl | h
      · exact .inl rfl
      · exact .inr (List.mem_cons_of_mem _ h)
    · rcases List.mem_cons.1 h with rfl | h
      · exact .inr List.mem_cons_self
      · rcases ih h with h | h
        · exact .inl h
        · exact .inr (List.mem_cons_of_mem _ h)

theorem get_eq_ok {κ ν : Type} [DecidableEq κ] {d : Dict κ ν} {k : κ} {v : ν} :
    d.get k = .ok v ↔ d.get? k = some v := by
  rw [Dict.get]
  cases d.get? k with
  | none => simp
  | some x => simp

theorem updateAttributes_inv {f : Frame} {rows : List Row} {l : List (String × Nat)}
    {atts atts' : Dict String Attribute} (h : updateAttributes f rows l atts = .ok atts') :
    atts'.keys = atts.keys ∧
    ((∀ x ∈ atts, OneValueEach x.2) → ∀ x ∈ atts', OneValueEach x.2) := by
  induction l generalizing atts with
  | nil =>
    cases h
    exact ⟨rfl, id⟩
  | cons x l ih =>
    obtain ⟨name, i⟩ := x
    rw [updateAttributes] at h
    obtain ⟨a, h1, h⟩ := bind_eq_ok.1 h
    obtain ⟨cells, -, h⟩ := bind_eq_ok.1 h
    obtain ⟨a', h3, h⟩ := bind_eq_ok.1 h
    obtain ⟨e1, e2⟩ := ih h
    rw [get_eq_ok] at h1
    rw [keys_set_of_mem (Dict.mem_keys_of_get? h1)] at e1
    refine ⟨e1, fun hv => e2 ?_⟩
    intro y hy
    rcases mem_set hy with rfl | hy
    · exact Attribute.update_oneValueEach (hv _ (Dict.get?_mem h1)) h3
    · exact hv y hy

theorem updateAttributes_get {f : Frame} {rows : List Row} {l : List (String × Nat)}
    {atts atts' : Dict String Attribute} (h : updateAttributes f rows l atts = .ok atts')
    (hn : (l.map Prod.fst).Nodup) (name : String) :
    (name ∉ l.map Prod.fst → atts'.get? name = atts.get? name) ∧
    ∀ i, (name, i) ∈ l → ∃ a a' cells, atts.get? name = some a ∧ atts'.get? name = some a' ∧
      rows.mapM (Frame.cellAt i) = .ok cells ∧ a.update ((rows.map (·.idx)).zip cells) = .ok a' := by
  induction l generalizing atts with
  | nil =>
    cases h
    simp
  | cons x l ih =>
    obtain ⟨name', j⟩ := x
    rw [updateAttributes] at h
    obtain ⟨b, h1, h⟩ := bind_eq_ok.1 h
    obtain ⟨cells, h2, h⟩ := bind_eq_ok.1 h
    obtain ⟨b', h3, h⟩ := bind_eq_ok.1 h
    rw [get_eq_ok] at h1
    rw [List.map_cons, List.nodup_cons] at hn
    obtain ⟨e1, e2⟩ := ih h hn.2
    rw [Dict.get?_set] at e1 e2
    constructor
    · intro hx
      rw [List.map_cons, List.mem_cons, not_or] at hx
      rw [e1 hx.2, if_neg (Ne.symm hx.1)]
    · intro i hi
      rcases List.mem_cons.1 hi with he | hi
      · obtain ⟨rfl, rfl⟩ := Prod.mk.inj he
        refine ⟨b, b', cells, h1, ?_, h2, h3⟩
        rw [e1 hn.1, if_pos rfl]
      · obtain ⟨a, a', cs, g1, g2, g3, g4⟩ := e2 i hi
        have : name' ≠ name := by
          rintro rfl
          exact hn.1 (List.mem_map.2 ⟨_, hi, rfl⟩)
        rw [if_neg this] at g1
        exact ⟨a, a', cs, g1, g2, g3, g4⟩

theorem updateAttributes_total {f : Frame} {rows : List Row} (hn : (rows.map (·.idx)).Nodup)
    {l : List (String × Nat)} {atts : Dict String Attribute}
    (hk : ∀ x ∈ l, x.1 ∈ atts.keys) (hr : ∀ x ∈ l, ∀ r ∈ rows, x.2 < r.cells.length) :
    ∃ atts', updateAttributes f rows l atts = .ok atts' := by
  induction l generalizing atts with
  | nil => exact ⟨atts, rfl⟩
  | cons x l ih =>
    obtain ⟨name, i⟩ := x
    obtain ⟨a, ha⟩ := Dict.exists_get?_of_mem_keys (hk (name, i) (by simp))
    have hc : rows.mapM (Frame.cellAt i) = .ok (rows.map fun r => r.cells.getD i Cell.na) := by
      apply mapM_ok_of_forall
      intro r hr'
      have := hr (name, i) (by simp) r hr'
      simp [Frame.cellAt, this]
    have hz : (((rows.map (·.idx)).zip (rows.map fun r => r.cells.getD i Cell.na)).map
        Prod.fst).Nodup := hn.sublist (zip_fst_sublist _ _)
    obtain ⟨a', ha'⟩ := a.update_total hz
    obtain ⟨atts', h⟩ := ih (atts := atts.set name a') (by
      intro x hx
      rw [keys_set_of_mem (Dict.mem_keys_of_get? ha)]
      exact hk x (by simp [hx])) (fun x hx => hr x (by simp [hx]))
    refine ⟨atts', ?_⟩
    rw [updateAttributes, get_eq_ok.2 ha, bind_ok, hc, bind_ok, ha', bind_ok, h]

theorem update_eq_ok {p p' : Population} {f : Frame} (h : p.update f = .ok p') :
    (∀ c, c ∈ f.cols ↔ c ∈ p.attributes.keys) ∧
    updateAttributes f (keepLast f.rows) f.cols.zipIdx p.attributes = .ok p'.attributes ∧
    p'.ids = indexUnion p.ids (indexDifference ((keepLast f.rows).map (·.idx)) p.ids) ∧
    p'.size = p.size ∧ p'.relationships = p.relationships := by
  rw [update] at h
  split at h
  · cases h
  next hc =>
  rw [not_not] at hc
  obtain ⟨atts, h1, h⟩ := bind_eq_ok.1 h
  cases h
  exact ⟨fun c => ⟨hc.1 c, hc.2 c⟩, h1, rfl, rfl, rfl⟩

theorem wf_set {p : Population} (hp : Population.WF p) {name : String} {a : Attribute}
    (ha : OneValueEach a) : Population.WF { p with attributes := p.attributes.set name a } := by
  refine ⟨hp.ids, Dict.WF.set hp.names _ _, ?_⟩
  intro x hx
  rcases mem_set hx with rfl | hx
  · exact ha
  · exact hp.values x hx

theorem popCall_wf {σ : Type} {R : Rng σ} {p p' : Population} (h : PopCall R p p')
    (hp : Population.WF p) : Population.WF p' := by
  cases h with
  | createAttribute name values h =>
    rw [createAttribute] at h
    obtain ⟨a, h1, h⟩ := bind_eq_ok.1 h
    cases h
    apply wf_set hp
    rw [Attribute.new] at h1
    split at h1
    · cases h1; exact List.nodup_nil
    split at h1
    · cases h1
    · cases h1
      exact hp.ids.sublist (zip_fst_sublist _ _)
  | relationAttribute name hr h =>
    apply wf_set hp
    rw [Attribute.fromRelationship] at h
    split at h
    · cases h; exact List.nodup_nil
    · obtain ⟨⟨rows, r1⟩, h1, h⟩ := bind_eq_ok.1 h
      cases h
      have := Attribute.select_one_all_froms hr h1
      rw [OneValueEach, List.map_map]
      exact this
  | updateAttribute ha h => exact wf_set hp (Attribute.update_oneValueEach (hp.values _ ha) h)
  | addAttribute ha h =>
    apply wf_set hp
    show Attribute.ids _ |>.Nodup
    rw [Attribute.add_ids h]
    exact hp.values _ ha
  | transformAttribute f ha =>
    apply wf_set hp
    have := hp.values _ ha
    rw [OneValueEach] at this ⊢
    rw [Attribute.transform, List.map_map]
    exact this
  | createRelationship name rel => exact ⟨hp.ids, hp.names, hp.values⟩
  | update f h =>
    obtain ⟨_, h2, h3, -, -⟩ := update_eq_ok h
    obtain ⟨e1, e2⟩ := updateAttributes_inv h2
    refine ⟨?_, ?_, e2 hp.values⟩
    · rw [h3]
      exact indexUnion_nodup hp.ids (indexDifference_nodup (keepLast_nodup _))
    · show p'.attributes.keys.Nodup
      rw [e1]
      exact hp.names

end Population
end Trumania
