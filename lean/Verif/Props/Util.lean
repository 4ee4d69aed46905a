import Verif.Proofs.Merge
import Verif.Proofs.Cap
import Verif.Spec.Instances

/-!
# Properties C01, C02, C03 (utilities)
-/

namespace Trumania

variable {κ ν : Type} [DecidableEq κ]

/-- **C01** `merge_2_dicts` with a merge function is the keyed union of the two dicts, whatever the
iteration order of Python sets: it never raises, the result is a proper dict, and each key holds
what the keyed union of the two sides holds. -/
theorem C01_merge_2_dicts_union (so : SetOrder κ) (d1 d2 : Dict κ ν) (f : ν → ν → ν) :
    ∃ r, merge_2_dicts so (some d1) (some d2) (some fun a b => .ok (f a b)) = .ok r ∧ r.WF ∧
      ∀ k, r.get? k = Spec.unionAt f (d1.get? k) (d2.get? k) := by
  obtain ⟨r, hr, hk, hg⟩ := merge2_total so d1 d2 f
  exact ⟨r, hr, by rw [Dict.WF, hk]; exact so.nodup _, hg⟩

/-- **C01** without merge function, a common key raises `ValueError`; otherwise the result is the
union. -/
theorem C01_merge_2_dicts_conflict (so : SetOrder κ) (d1 d2 : Dict κ ν) :
    ((∃ k, k ∈ d1.keys ∧ k ∈ d2.keys) →
      merge_2_dicts so (some d1) (some d2) none = .error .valueError) ∧
    ((¬ ∃ k, k ∈ d1.keys ∧ k ∈ d2.keys) →
      ∃ r, merge_2_dicts so (some d1) (some d2) none = .ok r ∧ r.WF ∧
        ∀ k, r.get? k = (d1.get? k <|> d2.get? k)) := by
  refine ⟨merge2_noMerge so d1 d2, fun h => ?_⟩
  have hdis : ∀ k, k ∈ d1.keys → k ∉ d2.keys := fun k h1 h2 => h ⟨k, h1, h2⟩
  obtain ⟨r, hr, hk, hg⟩ := merge2_total so d1 d2 (fun a _ => a)
  refine ⟨r, ?_, by rw [Dict.WF, hk]; exact so.nodup _, ?_⟩
  · rw [merge_2_dicts, merge2_disjoint so d1 d2 none (fun a _ => a) hdis, hr]
  · intro k
    rw [hg]
    cases h1 : d1.get? k with
    | none => rfl
    | some a => cases d2.get? k <;> rfl

/-- **C01** `None` counts as an empty dict. -/
theorem C01_merge_2_dicts_none (so : SetOrder κ) (d : Dict κ ν) (f : Option (ν → ν → Py ν)) :
    merge_2_dicts so (none : Option (Dict κ ν)) none f = .ok [] ∧
    merge_2_dicts so (some d) none f = .ok d ∧ merge_2_dicts so none (some d) f = .ok d :=
  ⟨rfl, rfl, rfl⟩

/-- **C01** the result is the same, up to the order of the entries, for any two iteration orders of
sets (any two values of `PYTHONHASHSEED`) and any two insertion orders of the arguments. -/
theorem C01_merge_2_dicts_order_independent (so so' : SetOrder κ) (d1 d1' d2 d2' : Dict κ ν)
    (f : ν → ν → ν) (h1 : d1.WF) (h2 : d2.WF) (hp1 : d1.Perm d1') (hp2 : d2.Perm d2')
    (r r' : Dict κ ν)
    (hr : merge_2_dicts so (some d1) (some d2) (some fun a b => .ok (f a b)) = .ok r)
    (hr' : merge_2_dicts so' (some d1') (some d2') (some fun a b => .ok (f a b)) = .ok r') :
    r.Perm r' := by
  obtain ⟨q, hq, hwf, hg⟩ := C01_merge_2_dicts_union so d1 d2 f
  obtain ⟨q', hq', hwf', hg'⟩ := C01_merge_2_dicts_union so' d1' d2' f
  rw [hq] at hr; rw [hq'] at hr'
  cases hr; cases hr'
  refine Dict.perm_of_get? hwf hwf' fun k => ?_
  rw [hg, hg', Dict.get?_perm h1 hp1, Dict.get?_perm h2 hp2]

/-- **C02** `merge_dicts`: each key holds the left fold, in list order, of the values found for it.
Holds for any list of dicts and any iteration order of sets. -/
theorem C02_merge_dicts_fold (so : SetOrder κ) (ds : List (Dict κ ν)) (f : ν → ν → ν)
    (hwf : ∀ d ∈ ds, d.WF) :
    ∃ r, merge_dicts so ds (some fun a b => .ok (f a b)) = .ok r ∧ r.WF ∧
      ∀ k, r.get? k = Spec.foldVals f (ds.filterMap (·.get? k)) := by
  cases ds with
  | nil => exact ⟨[], rfl, List.nodup_nil, fun _ => rfl⟩
  | cons d ds =>
    obtain ⟨r, hr, h1, h2⟩ := merge_foldlM so f ds d [d] (hwf d (by simp)) (by
      intro k; cases h : d.get? k <;> simp [Spec.foldVals, h])
    exact ⟨r, hr, h1, h2⟩

/-- **C03** `cap_to_total` on non-negative values never raises and is the greedy distribution:
same length, entry `i` is the request capped by what the earlier requests leave, hence never above
the request and never negative, and the total is `min (sum values) target`. -/
theorem C03_cap_to_total (values : List Int) (target : Int) (h : ∀ v ∈ values, 0 ≤ v)
    (ht : 0 ≤ target) :
    ∃ r, cap_to_total values target = .ok r ∧
      r.sum = min values.sum target ∧
      (∀ x ∈ r, 0 ≤ x) ∧
      ∃ hl : r.length = values.length, ∀ i (hi : i < values.length),
        r[i] = min values[i] (max 0 (target - (values.take i).sum)) :=
  ⟨_, cap_to_total_eq_greedy values target h ht, greedy_sum h ht, greedy_nonneg h ht,
    greedy_length _ _, fun i hi => greedy_getElem h ht i hi⟩

/-- **C03** nothing is capped when the target is large enough. -/
theorem C03_cap_to_total_noop (values : List Int) (target : Int) (h : values.sum ≤ target) :
    cap_to_total values target = .ok values := by
  rw [cap_to_total, if_pos (by omega)]

/-! ### Non-vacuity -/

example : merge_2_dicts (SetOrder.dedup String) (some [("a", 1), ("b", 2)]) (some [("b", 3)])
    (some fun a b => .ok (a + b)) = .ok [("a", 1), ("b", 5)] := rfl

example : merge_2_dicts (SetOrder.rdedup String) (some [("a", 1), ("b", 2)]) (some [("b", 3)])
    (some fun a b => .ok (a + b)) = .ok [("b", 5), ("a", 1)] := rfl

example : merge_2_dicts (SetOrder.dedup String) (some [("a", 1), ("b", 2)]) (some [("b", 3)])
    = .error .valueError := rfl

example : merge_dicts (SetOrder.dedup String) [[("a", 1)], [("b", 2)], [("a", 10)]]
    (some fun a b => .ok (a - b)) = .ok [("b", 2), ("a", -9)] := rfl

example : cap_to_total [4, 7, 2] 6 = .ok [4, 2, 0] := by
  simp [cap_to_total]; rfl

end Trumania
