import Verif.Proofs.RelationshipHistory
import Mathlib.Data.List.Dedup

/-! Helper lemmas: the relations removed by a popping selection. -/

namespace Trumania

variable {σ : Type} (R : Rng σ)

/-- the stored relations at some positions -/
def storedAt (g : Dict Val Relations) (L : List (Val × Nat)) : List (Val × Val × Rat) :=
  L.filterMap fun x => ((pairsAt g x.1)[x.2]?).map fun y => (x.1, y)

theorem rowsOf_storedAt (g : Dict Val Relations) (L : List (Val × Nat)) (f : Val) :
    rowsOf f (storedAt g L) =
      (picked (pairsAt g f) ((rowsOf f L).map Prod.snd)).map fun y => (f, y) := by
  induction L with
  | nil => rfl
  | cons x L ih =>
    obtain ⟨k, i⟩ := x
    have hc : storedAt g ((k, i) :: L) =
        (((pairsAt g k)[i]?).map fun y => (k, y)).toList ++ storedAt g L := by
      simp only [storedAt, List.filterMap_cons]
      cases ((pairsAt g k)[i]?) <;> rfl
    rw [hc, rowsOf_append, ih]
    by_cases h : k = f
    · subst h
      have : rowsOf k ((k, i) :: L) = (k, i) :: rowsOf k L := by simp [rowsOf]
      rw [this, List.map_cons, picked, picked, List.filterMap_cons]
      cases hi : (pairsAt g k)[i]? with
      | none => simp
      | some y => simp [rowsOf]
    · have : rowsOf f ((k, i) :: L) = rowsOf f L := by simp [rowsOf, h]
      rw [this]
      cases hi : (pairsAt g k)[i]? with
      | none => simp
      | some y => simp [rowsOf, h]

theorem rowsOf_snd_nodup {L : List (Val × Nat)} (hn : L.Nodup) (f : Val) :
    ((rowsOf f L).map Prod.snd).Nodup := by
  rw [List.nodup_map_iff_inj_on]
  · rintro ⟨a, i⟩ hx ⟨b, j⟩ hy he
    have h1 := (mem_rowsOf.1 hx).2
    have h2 := (mem_rowsOf.1 hy).2
    simp only at h1 h2 he
    rw [h1, h2, he]
  · exact hn.filter _

/-- removing positions from a relationship takes away exactly the relations at these positions -/
theorem removed_perm {r r' : Relationship σ} (env env' : Orders) {L : List (Val × Nat)}
    (h : ∀ f, pairsAt r'.grouped f = kept (pairsAt r.grouped f) ((rowsOf f L).map Prod.snd)) :
    (r.get_relations env none).Perm
      (r'.get_relations env' none ++ storedAt r.grouped L.dedup) := by
  rw [get_relations_perm_iff]
  intro f
  rw [rowsOf_append, get_relations_none_rowsOf, rowsOf_storedAt, h, ← List.map_append]
  apply List.Perm.map
  have hk : kept (pairsAt r.grouped f) ((rowsOf f L).map Prod.snd) =
      kept (pairsAt r.grouped f) ((rowsOf f L.dedup).map Prod.snd) := by
    apply kept_congr
    intro i
    simp [List.mem_map, mem_rowsOf]
  rw [hk]
  exact ((picked_kept_perm (rowsOf_snd_nodup (List.nodup_dedup L) f)).symm.trans
    List.perm_append_comm)

theorem storedAt_hits {g : Dict Val Relations} (hg : GWF g) {ow : Option (Dict Val Rat)}
    {rows : List OneRow} (h : ∀ r ∈ rows, RowOk g ow r) :
    (storedAt g (hits rows)).map (fun x => (x.1, x.2.1)) = Spec.items rows ∧
    (hits rows).map (fun x => (x.1, ((pairsAt g x.1)[x.2]?).map Prod.fst)) =
      (Spec.items rows).map (fun x => (x.1, some x.2)) := by
  induction rows with
  | nil => exact ⟨rfl, rfl⟩
  | cons row rows ih =>
    obtain ⟨ih1, ih2⟩ := ih (fun r hr => h r (by simp [hr]))
    have hrow := h row (by simp)
    cases hrow with
    | @blank l f hf =>
      have e1 : hits (⟨l, f, none, none⟩ :: rows) = hits rows := rfl
      have e2 : Spec.items (⟨l, f, none, none⟩ :: rows) = Spec.items rows := rfl
      rw [e1, e2]; exact ⟨ih1, ih2⟩
    | @hit l f rs i t hf ht hw =>
      have e1 : hits (⟨l, f, some i, some t⟩ :: rows) = (f, i) :: hits rows := rfl
      have e2 : Spec.items (⟨l, f, some i, some t⟩ :: rows) = (f, t) :: Spec.items rows := rfl
      obtain ⟨w, hw, -⟩ := pairsAt_getElem? hg hf ht
      rw [e1, e2]
      constructor
      · rw [← ih1, storedAt, List.filterMap_cons]
        simp only [hw, Option.map_some, List.map_cons]
        rfl
      · rw [List.map_cons, ih2]
        simp [hw]

theorem storedAt_length {g : Dict Val Relations} {L : List (Val × Nat)}
    (h : ∀ x ∈ L, x.2 < (pairsAt g x.1).length) : (storedAt g L).length = L.length := by
  induction L with
  | nil => rfl
  | cons x L ih =>
    have hx := h x (by simp)
    rw [storedAt, List.filterMap_cons, List.getElem?_eq_getElem hx]
    simp only [Option.map_some, List.length_cons]
    rw [← ih (fun y hy => h y (by simp [hy]))]
    rfl

/-- with one-to-one, no two rows designate the same position -/
theorem hits_nodup_of_items {g : Dict Val Relations} (hg : GWF g) {ow : Option (Dict Val Rat)}
    {rows : List OneRow} (h : ∀ r ∈ rows, RowOk g ow r)
    (hn : ((Spec.items rows).map Prod.snd).Nodup) : (hits rows).Nodup := by
  have h2 := (storedAt_hits hg h).2
  apply List.Nodup.of_map (fun x => (x.1, ((pairsAt g x.1)[x.2]?).map Prod.fst))
  rw [h2]
  have hi : (Spec.items rows).Nodup := hn.of_map
  exact hi.map (by rintro ⟨a, b⟩ ⟨c, d⟩ h; simpa using h)

theorem mem_items_of_storedAt {g : Dict Val Relations} {L : List (Val × Nat)}
    {x : Val × Val × Rat} : x ∈ storedAt g L.dedup ↔ x ∈ storedAt g L := by
  rw [storedAt, storedAt, List.mem_filterMap, List.mem_filterMap]
  simp [List.mem_dedup]

/-! ### one-to-one rows -/

theorem items_append (a b : List OneRow) : Spec.items (a ++ b) = Spec.items a ++ Spec.items b :=
  List.filterMap_append ..

theorem items_blank {rows : List OneRow} (h : ∀ r ∈ rows, r.to_ = none) : Spec.items rows = [] := by
  rw [Spec.items, List.filterMap_eq_nil_iff]
  intro r hr
  rw [h r hr]; rfl

theorem items_snd_nodup {rows : List OneRow} (h : (rows.map (·.to_)).Nodup) :
    ((Spec.items rows).map Prod.snd).Nodup := by
  have : (Spec.items rows).map Prod.snd = (rows.map (·.to_)).filterMap id := by
    rw [Spec.items, List.map_filterMap, List.filterMap_map]
    congr 1
    funext r
    simp only [Function.comp_apply, id]
    cases r.to_ <;> rfl
  rw [this]
  apply List.Nodup.filterMap _ h
  intro a b c h1 h2
  simp only [id, Option.mem_def] at h1 h2
  rw [h1, h2]

theorem oneToOne_items_nodup (s : σ) (rows : List OneRow) :
    ((Spec.items (Relationship.oneToOne R s rows).1).map Prod.snd).Nodup := by
  obtain ⟨present, h1, h2, h3, -⟩ := oneToOne_spec R s rows
  rw [h1, items_append, items_blank (rows := rows.filter _), List.append_nil]
  · exact items_snd_nodup h2
  · intro r hr
    have := (List.mem_filter.1 hr).2
    simpa using this

end Trumania
