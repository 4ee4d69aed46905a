import Verif.Spec.Relationship
import Verif.Proofs.SelectMany

/-! Helper lemmas: reachable relationships, additions. -/

namespace Trumania

variable {σ : Type} (R : Rng σ)

theorem lengthsOk_iff {froms tos : List Val} {w : Weights} :
    LengthsOk froms tos w ↔ Spec.WellSized (.relations froms tos w) := by
  rw [LengthsOk, Spec.WellSized]
  cases w with
  | scalar w => simp [Weights.expand]
  | list ws => simp [Weights.expand]

theorem filterMap_range_zip {α β γ : Type} (xs : List α) (ys : List β) (zs : List γ) :
    (List.range xs.length).filterMap (fun i => do some (← xs[i]?, ← ys[i]?, ← zs[i]?)) =
      xs.zip (ys.zip zs) := by
  induction xs generalizing ys zs with
  | nil => rfl
  | cons x xs ih =>
    rw [List.length_cons, List.range_succ_eq_map, List.filterMap_cons, List.filterMap_map]
    cases ys with
    | nil =>
      simp only [List.getElem?_nil, List.zip_nil_left, List.zip_nil_right]
      rw [List.filterMap_eq_nil_iff.2]
      · rfl
      · intro i _
        cases h : (x :: xs)[Nat.succ i]? <;> simp
    | cons y ys =>
      cases zs with
      | nil =>
        simp only [List.getElem?_nil, List.zip_nil_right]
        rw [List.filterMap_eq_nil_iff.2]
        · rfl
        · intro i _
          cases h : (x :: xs)[Nat.succ i]? <;> cases h' : (y :: ys)[Nat.succ i]? <;> simp
      | cons z zs =>
        rw [List.zip_cons_cons, List.zip_cons_cons, ← ih ys zs]
        rfl

theorem added_relations {froms tos : List Val} {w : Weights} :
    Spec.added (.relations froms tos w) = addedRows froms tos w := by
  rw [Spec.added, addedRows, ← filterMap_range_zip]
  cases w with
  | list ws => rfl
  | scalar w =>
    apply List.filterMap_congr
    intro i hi
    rw [List.mem_range] at hi
    simp [Spec.weightAt, Weights.expand, hi]

/-- content of the relationship after one addition, per from -/
theorem addCall_spec {r : Relationship σ} (hg : GWF r.grouped) (c : AddCall) (env : Orders)
    (hc : Spec.WellSized c) :
    ∃ r', AddCall.exec r (c, env) = .ok r' ∧ r'.seed = r.seed ∧ r'.state = r.state ∧
      GWF r'.grouped ∧
      ∀ f, ((pairsAt r'.grouped f).map fun x => (f, x)).Perm
        (((pairsAt r.grouped f).map fun x => (f, x)) ++ rowsOf f (Spec.added c)) := by
  cases c with
  | relations froms tos w =>
    obtain ⟨r', h1, h2, h3, h4, h5, -⟩ := add_relations_spec env hg (lengthsOk_iff.2 hc)
    exact ⟨r', h1, h2, h3, h4, by rw [added_relations]; exact h5⟩
  | grouped froms tos =>
    simp only [AddCall.exec, Relationship.add_grouped_relations, Spec.added]
    generalize froms.zip tos = l
    clear hc
    induction l generalizing r with
    | nil => exact ⟨r, rfl, rfl, rfl, hg, by simp⟩
    | cons x l ih =>
      obtain ⟨f0, ts⟩ := x
      obtain ⟨r1, h1, h2, h3, h4, h5, -⟩ := add_relations_spec env hg
        (froms := List.replicate ts.length f0) (tos := ts) (w := .scalar 1)
        ⟨by simp, by simp [Weights.expand]⟩
      obtain ⟨r', k1, k2, k3, k4, k5⟩ := ih h4
      refine ⟨r', ?_, k2.trans h2, k3.trans h3, k4, ?_⟩
      · rw [List.foldlM_cons, h1, bind_ok]; exact k1
      · intro f
        refine (k5 f).trans ?_
        rw [List.flatMap_cons, rowsOf_append, ← List.append_assoc]
        refine List.Perm.append_right _ ?_
        have : addedRows (List.replicate ts.length f0) ts (.scalar 1) =
            ts.map fun t => (f0, t, (1 : Rat)) := by
          rw [addedRows, Weights.expand, List.length_replicate]
          clear h1 h5
          induction ts with
          | nil => rfl
          | cons t ts ih => simp [List.replicate_succ, ih]
        have h5' := h5 f
        rw [this] at h5'
        exact h5'

theorem addCall_wellSized {r r' : Relationship σ} {c : AddCall} {env : Orders}
    (h : AddCall.exec r (c, env) = .ok r') : Spec.WellSized c := by
  cases c with
  | relations froms tos w => exact lengthsOk_iff.1 (add_relations_ok env h)
  | grouped _ _ => trivial

theorem Relationship.Reachable.gwf {r : Relationship σ} (h : Reachable R r) : GWF r.grouped := by
  induction h with
  | new seed => exact GWF.nil
  | @add r r' env f t w _ hr ih =>
    obtain ⟨r1, h1, -, -, h4, -⟩ := add_relations_spec env ih (add_relations_ok env hr)
    rw [h1] at hr; cases hr; exact h4
  | @addGrouped r r' env f t _ hr ih =>
    obtain ⟨r1, h1, -, -, h4, -⟩ := addCall_spec ih (.grouped f t) env trivial
    rw [AddCall.exec, hr] at h1; cases h1; exact h4
  | @remove r r' env f t _ hr ih =>
    obtain ⟨r1, h1, -, -, h4, -⟩ := remove_relations_spec env ih (remove_relations_ok env hr)
    rw [h1] at hr; cases hr; exact h4
  | selectOne _ hr ih =>
    obtain ⟨-, outs, hs⟩ := select_one_ok R ih hr
    exact hs.gwf
  | @selectMany r r' reqs pop discard res hn hq _ hr ih =>
    obtain ⟨res', r1, out, h1, hs⟩ := select_many_spec R ih hn hq pop discard
    rw [h1] at hr; cases hr; exact hs.gwf

/-! ### positions and pairs -/

theorem pairsAt_getElem? {g : Dict Val Relations} (hg : GWF g) {f : Val} {rs : Relations}
    (h : g.get? f = some rs) {i : Nat} {t : Val} (ht : rs.tos[i]? = some t) :
    ∃ w, (pairsAt g f)[i]? = some (t, w) ∧ rs.weights[i]? = some w := by
  have hlen := hg.len f rs h
  obtain ⟨hi, rfl⟩ := List.getElem?_eq_some_iff.1 ht
  rw [pairsAt_of_get? h]
  refine ⟨rs.weights[i]'(by omega), ?_, List.getElem?_eq_getElem _⟩
  rw [List.getElem?_eq_getElem (by rw [List.length_zip]; omega), List.getElem_zip]

theorem has_iff {r : Relationship σ} (env : Orders) (hg : GWF r.grouped) (f : Val) :
    Spec.Has (r.get_relations env none) f ↔ ∃ rs, r.grouped.get? f = some rs ∧ rs.tos ≠ [] := by
  constructor
  · rintro ⟨t, w, h⟩
    rw [mem_get_relations] at h
    cases hf : r.grouped.get? f with
    | none => rw [pairsAt_of_none hf] at h; simp at h
    | some rs =>
      rw [pairsAt_of_get? hf] at h
      exact ⟨rs, rfl, List.ne_nil_of_mem (List.of_mem_zip h).1⟩
  · rintro ⟨rs, h, hne⟩
    obtain ⟨t, ht⟩ := List.exists_mem_of_ne_nil _ hne
    obtain ⟨i, hi, hit⟩ := List.getElem_of_mem ht
    obtain ⟨w, hw, -⟩ := pairsAt_getElem? hg h
      (show rs.tos[i]? = some t by rw [List.getElem?_eq_getElem hi, hit])
    exact ⟨t, w, (mem_get_relations env r).2 (List.mem_of_getElem? hw)⟩

theorem outcome_answers {r : Relationship σ} (env : Orders) (hg : GWF r.grouped) {discard : Bool}
    {ow : Option (Dict Val Rat)} {q : Val × Val} {o : Option OneRow}
    (h : PickOutcome r.grouped discard ow q o) :
    Spec.Answers (r.get_relations env none) discard q o := by
  cases h with
  | @hit l f rs i t hf ht hw =>
    refine ⟨fun _ => ?_, fun hn => absurd ?_ hn⟩
    · obtain ⟨w, hw, -⟩ := pairsAt_getElem? hg hf ht
      exact ⟨_, t, w, rfl, rfl, rfl, rfl, (mem_get_relations env r).2 (List.mem_of_getElem? hw)⟩
    · rw [has_iff env hg]
      exact ⟨rs, hf, List.ne_nil_of_mem (List.mem_of_getElem? ht)⟩
  | @blank l f hd hf =>
    refine ⟨fun hh => ?_, fun _ => ?_⟩
    · rw [has_iff env hg] at hh
      obtain ⟨rs, h1, h2⟩ := hh
      exact absurd (hf rs h1) h2
    · rw [hd]; exact ⟨_, rfl, rfl, rfl, rfl⟩
  | @skip l f hd hf =>
    refine ⟨fun hh => ?_, fun _ => ?_⟩
    · rw [has_iff env hg] at hh
      obtain ⟨rs, h1, h2⟩ := hh
      exact absurd (hf rs h1) h2
    · rw [hd]; rfl

end Trumania
