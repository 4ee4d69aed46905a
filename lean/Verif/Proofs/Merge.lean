import Verif.Model.Util
import Verif.Spec.Util
import Verif.Proofs.Basic

/-! Helper lemmas for `merge_2_dicts` / `merge_dicts`. -/

namespace Trumania

variable {κ ν : Type} [DecidableEq κ]

theorem get?_map_pair {l : List κ} (f : κ → ν) (k : κ) :
    Dict.get? (l.map fun x => (x, f x)) k = if k ∈ l then some (f k) else none := by
  induction l with
  | nil => simp
  | cons a l ih =>
    rw [List.map_cons, Dict.get?_cons, ih]
    by_cases h : a = k
    · simp [h]
    · have : k ≠ a := fun e => h e.symm
      simp [h, this]

/-- characterisation of `merge2` with a total merge function -/
theorem merge2_total (so : SetOrder κ) (d1 d2 : Dict κ ν) (f : ν → ν → ν) :
    ∃ r, merge2 so d1 d2 (some fun a b => .ok (f a b)) = .ok r ∧
      r.keys = so.order (d1.keys ++ d2.keys) ∧
      ∀ k, r.get? k = Spec.unionAt f (d1.get? k) (d2.get? k) := by
  have hv : ∀ k ∈ so.order (d1.keys ++ d2.keys),
      ∃ v, Spec.unionAt f (d1.get? k) (d2.get? k) = some v := by
    intro k hk
    rw [so.mem, List.mem_append] at hk
    cases h1 : d1.get? k with
    | some a => cases d2.get? k <;> exact ⟨_, rfl⟩
    | none =>
      rw [Dict.get?_eq_none_iff] at h1
      obtain ⟨v, hv⟩ := Dict.exists_get?_of_mem_keys (hk.resolve_left h1)
      rw [hv]; exact ⟨_, rfl⟩
  -- the pairs computed
  refine ⟨(so.order (d1.keys ++ d2.keys)).attach.map
    (fun k => (k.1, Classical.choose (hv k.1 k.2))), ?_, ?_, ?_⟩
  · rw [merge2, mapM_ok_iff, List.forall₂_map_right_iff]
    conv => enter [2]; rw [← List.attach_map_subtype_val (so.order (d1.keys ++ d2.keys))]
    rw [List.forall₂_map_left_iff, List.forall₂_same]
    rintro ⟨k, hk⟩ -
    have hc := Classical.choose_spec (hv k hk)
    revert hc
    generalize Classical.choose (hv k hk) = v
    intro hc
    cases h1 : d1.get? k <;> cases h2 : d2.get? k <;> rw [h1, h2] at hc <;>
      simp only [Spec.unionAt] at hc <;> cases hc <;> rfl
  · simp [Dict.keys, Function.comp_def]
  · intro k
    by_cases hk : k ∈ so.order (d1.keys ++ d2.keys)
    · have hc := Classical.choose_spec (hv k hk)
      rw [hc]
      apply Dict.get?_of_mem
      · rw [Dict.WF]; simpa [Dict.keys, Function.comp_def] using so.nodup _
      · rw [List.mem_map]
        exact ⟨⟨k, hk⟩, List.mem_attach _ _, rfl⟩
    · rw [Dict.get?_eq_none_iff.2]
      · rw [so.mem, List.mem_append, not_or] at hk
        rw [Dict.get?_eq_none_iff.2 hk.1, Dict.get?_eq_none_iff.2 hk.2]; rfl
      · simpa [Dict.keys, Function.comp_def] using hk

theorem foldVals_append (f : ν → ν → ν) (l : List ν) (o : Option ν) :
    Spec.foldVals f (l ++ o.toList) = Spec.unionAt f (Spec.foldVals f l) o := by
  cases l <;> cases o <;> simp [Spec.foldVals, Spec.unionAt]

theorem merge_foldlM (so : SetOrder κ) (f : ν → ν → ν) (ds : List (Dict κ ν)) (d : Dict κ ν)
    (pre : List (Dict κ ν)) (hwf : d.WF)
    (hd : ∀ k, d.get? k = Spec.foldVals f (pre.filterMap (·.get? k))) :
    ∃ r, ds.foldlM (fun d1 d2 => merge_2_dicts so (some d1) (some d2)
        (some fun a b => .ok (f a b))) d = Except.ok r ∧ r.WF ∧
      ∀ k, r.get? k = Spec.foldVals f ((pre ++ ds).filterMap (·.get? k)) := by
  induction ds generalizing d pre with
  | nil => exact ⟨d, rfl, hwf, by simpa using hd⟩
  | cons d2 ds ih =>
    obtain ⟨r, hr, hk, hg⟩ := merge2_total so d d2 f
    obtain ⟨r', hr', hwf', hg'⟩ := ih r (pre ++ [d2]) (by rw [Dict.WF, hk]; exact so.nodup _) (by
      intro k
      rw [hg, hd, List.filterMap_append, ← foldVals_append]
      congr 1)
    refine ⟨r', ?_, hwf', ?_⟩
    · rw [List.foldlM_cons, merge_2_dicts, hr]; exact hr'
    · intro k; rw [hg']; simp

/-- without merge function: success iff no common key -/
theorem merge2_noMerge (so : SetOrder κ) (d1 d2 : Dict κ ν) :
    (∃ k, k ∈ d1.keys ∧ k ∈ d2.keys) → merge2 so d1 d2 none = .error .valueError := by
  rintro ⟨k, h1, h2⟩
  obtain ⟨v1, hv1⟩ := Dict.exists_get?_of_mem_keys h1
  obtain ⟨v2, hv2⟩ := Dict.exists_get?_of_mem_keys h2
  have hk : k ∈ so.order (d1.keys ++ d2.keys) := by rw [so.mem]; simp [h1]
  obtain ⟨e', he'⟩ := mapM_error_of_mem (f := fun k =>
    match d1.get? k, d2.get? k with
    | none, some v2 => .ok (k, v2)
    | some v1, none => .ok (k, v1)
    | some v1, some v2 =>
      match (none : Option (ν → ν → Py ν)) with
      | none => .error .valueError
      | some g => do .ok (k, ← g v1 v2)
    | none, none => .error .keyError) (e := Err.valueError) hk (by simp only [hv1, hv2])
  have := mapM_error_all (e := Err.valueError) ?_ he'
  · rw [merge2]; subst this; exact he'
  · intro a ha e1 h
    rw [so.mem, List.mem_append] at ha
    cases ha1 : d1.get? a <;> cases ha2 : d2.get? a <;> rw [ha1, ha2] at h <;>
      simp only at h <;> cases h
    · rw [Dict.get?_eq_none_iff] at ha1 ha2; exact absurd ha (by simp [ha1, ha2])
    · rfl

/-- a common key is the only way to call the merge function -/
theorem merge2_disjoint (so : SetOrder κ) (d1 d2 : Dict κ ν) (g : Option (ν → ν → Py ν))
    (f : ν → ν → ν)
    (h : ∀ k, k ∈ d1.keys → k ∉ d2.keys) :
    merge2 so d1 d2 g = merge2 so d1 d2 (some fun a b => .ok (f a b)) := by
  rw [merge2, merge2]
  congr 1
  funext k
  cases h1 : d1.get? k <;> cases h2 : d2.get? k <;> simp only
  exact absurd (Dict.mem_keys_of_get? h2) (h k (Dict.mem_keys_of_get? h1))

end Trumania
