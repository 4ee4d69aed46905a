import Verif.Proofs.Typed
import Verif.Proofs.Population

/-! Helper lemmas: the methods of well-formed populations never raise. -/

namespace Trumania
open Spec World
variable {σ γ : Type} {env : Env σ γ} {S : Sig γ} {M : Val → Prop} {Γ : Ctx}

theorem dict_get?_ids {a : Attribute} {v : Val} (h : v ∈ a.ids) : ∃ c, Dict.get? a.table v = some c :=
  Dict.exists_get?_of_mem_keys h

namespace Spec.AttFits
variable {k : AttKind} {a : Attribute}

theorem update (h : AttFits k a) {series : List (Val × Cell)} (hn : (series.map Prod.fst).Nodup)
    (hv : ∀ x ∈ series, k.value x.2) : ∃ a', a.update series = .ok a' ∧ AttFits k a' := by
  obtain ⟨a', ha⟩ := Attribute.update_total a hn
  refine ⟨a', ha, ?_, ?_⟩
  · intro v hk
    rw [Attribute.update_ids ha]
    exact mem_indexUnion.2 (Or.inl (h.known v hk))
  · intro x hx
    rw [Attribute.update, if_neg (not_not.2 hn)] at ha
    cases ha
    obtain ⟨i, hi, rfl⟩ := List.mem_map.1 hx
    cases hg : Dict.get? series i with
    | some v => exact hv _ (Dict.get?_mem hg)
    | none =>
      have : i ∈ a.ids := by
        rcases mem_indexUnion.1 hi with h | h
        · exact h
        · obtain ⟨c, hc⟩ := Dict.exists_get?_of_mem_keys (d := series) h
          rw [hg] at hc; cases hc
      obtain ⟨c, hc⟩ := dict_get?_ids this
      simp only [hc, Option.getD_some]
      exact h.value _ (Dict.get?_mem hc)

theorem contribution_isOk {l : List (Val × Cell)} (h : ∀ x ∈ l, IsAmount x.2) (i : Val) :
    ∃ q, Attribute.contribution l i = .ok q := by
  induction l with
  | nil => exact ⟨0, rfl⟩
  | cons x l ih =>
    obtain ⟨q, hq⟩ := ih fun x hx => h x (by simp [hx])
    obtain ⟨j, c⟩ := x
    by_cases hj : j = i
    · rcases h (j, c) (by simp) with e | ⟨x, e⟩
      · simp only at e; subst e
        exact ⟨q, by simp only [Attribute.contribution, hj, if_true, hq]⟩
      · simp only at e; subst e
        exact ⟨x + q, by simp only [Attribute.contribution, hj, if_true, hq]; rfl⟩
    · exact ⟨q, by cases c <;> simp only [Attribute.contribution, hj, if_false, hq]⟩

theorem add (h : AttFits k a) (hk : ∀ c, k.value c ↔ IsAmount c) {ids : List Val} {added : List Cell}
    (hl : ids.length = added.length) (hi : ∀ i ∈ ids, i = .na ∨ k.known i)
    (hv : ∀ c ∈ added, IsAmount c) : ∃ a', a.add ids added = .ok a' ∧ AttFits k a' := by
  have hz : ∀ x ∈ ids.zip added, IsAmount x.2 := fun x hx => hv _ (List.of_mem_zip hx).2
  have hplus : ∀ c q, IsAmount c → ∃ c', Attribute.plusNum c q = .ok c' ∧ IsAmount c' := by
    rintro c q (rfl | ⟨x, rfl⟩)
    · exact ⟨.na, rfl, Or.inl rfl⟩
    · exact ⟨.num (x + q), rfl, Or.inr ⟨_, rfl⟩⟩
  have hrow : ∀ l : List (Val × Cell), (∀ x ∈ l, k.value x.2) → ∃ l', List.Forall₂ (fun kv kv' =>
      kv'.1 = kv.1 ∧ if kv.1 ∈ Attribute.addKeys ids then
          ∃ q, Attribute.contribution (ids.zip added) kv.1 = .ok q ∧
            Attribute.plusNum kv.2 q = .ok kv'.2
        else kv' = kv) l l' ∧ ∀ x ∈ l', k.value x.2 := by
    intro l
    induction l with
    | nil => exact fun _ => ⟨[], .nil, by simp⟩
    | cons x l ih =>
      intro hx
      obtain ⟨l', h1, h2⟩ := ih fun y hy => hx y (by simp [hy])
      by_cases hm : x.1 ∈ Attribute.addKeys ids
      · obtain ⟨q, hq⟩ := contribution_isOk hz x.1
        obtain ⟨c', hc1, hc2⟩ := hplus x.2 q ((hk _).1 (hx x (by simp)))
        refine ⟨(x.1, c') :: l', .cons ⟨rfl, by rw [if_pos hm]; exact ⟨q, hq, hc1⟩⟩ h1, ?_⟩
        intro y hy
        rcases List.mem_cons.1 hy with rfl | hy
        · exact (hk _).2 hc2
        · exact h2 y hy
      · refine ⟨x :: l', .cons ⟨rfl, by rw [if_neg hm]⟩ h1, ?_⟩
        intro y hy
        rcases List.mem_cons.1 hy with rfl | hy
        · exact hx _ (by simp)
        · exact h2 y hy
  obtain ⟨l', h1, h2⟩ := hrow a.table h.value
  have ha : a.add ids added = .ok ⟨l'⟩ := Attribute.add_eq_ok.2 ⟨hl, fun i hi' => by
    obtain ⟨hi1, hi2⟩ := Attribute.mem_addKeys.1 hi'
    exact h.known i ((hi i hi1).resolve_left hi2), h1⟩
  refine ⟨_, ha, fun v hv => ?_, h2⟩
  rw [Attribute.add_ids ha]
  exact h.known v hv

theorem getValues (h : AttFits k a) {ids : List Val} (hi : ∀ i ∈ ids, k.known i) :
    ∃ cs, a.getValues ids = .ok cs ∧ cs.length = ids.length ∧ ∀ c ∈ cs, k.value c := by
  obtain ⟨cs, hcs⟩ := mapM_isOk (f := Dict.get a.table) (l := ids) fun i hi' => by
    obtain ⟨c, hc⟩ := dict_get?_ids (h.known i (hi i hi'))
    exact ⟨c, Population.get_eq_ok.2 hc⟩
  have hf := mapM_ok_iff.1 hcs
  refine ⟨cs, hcs, hf.length_eq.symm, ?_⟩
  intro c hc
  obtain ⟨i, -, hic⟩ := forall₂_exists_left hf hc
  exact h.value _ (Dict.get?_mem (Population.get_eq_ok.1 hic))

end Spec.AttFits

namespace Spec.PopFits
variable {P : Dict String AttKind} {p : Population}

theorem getAtt (h : PopFits P p) {name : String} {k : AttKind} (hk : P.get? name = some k) :
    ∃ a, p.attributes.get? name = some a ∧ AttFits k a := by
  obtain ⟨a, ha⟩ := Dict.exists_get?_of_mem_keys ((h.names name).1 (Dict.mem_keys_of_get? hk))
  exact ⟨a, ha, h.values name k a hk ha⟩

theorem setAttribute (h : PopFits P p) {name : String} {k : AttKind} (hk : P.get? name = some k)
    {a : Attribute} (ha : AttFits k a) :
    PopFits P { p with attributes := p.attributes.set name a } := by
  have hm : name ∈ p.attributes.keys := (h.names name).1 (Dict.mem_keys_of_get? hk)
  refine ⟨fun n => ?_, fun n k' a' hk' ha' => ?_⟩
  · simp only [Population.keys_set_of_mem hm]
    exact h.names n
  · simp only [Dict.get?_set] at ha'
    split at ha'
    · subst_vars
      rw [hk] at hk'
      cases hk'; cases ha'
      exact ha
    · exact h.values n k' a' hk' ha'

theorem getAttributeValues (h : PopFits P p) {name : String} {k : AttKind}
    (hk : P.get? name = some k) {ids : List Val} (hi : ∀ i ∈ ids, k.known i) :
    ∃ cs, p.getAttributeValues name ids = .ok cs ∧ cs.length = ids.length ∧
      ∀ c ∈ cs, attValue P name c := by
  obtain ⟨a, ha, hf⟩ := h.getAtt hk
  obtain ⟨cs, h1, h2, h3⟩ := hf.getValues hi
  refine ⟨cs, bind_eq_ok.2 ⟨a, Population.get_eq_ok.2 ha, h1⟩, h2, fun c hc => ⟨k, hk, h3 c hc⟩⟩

theorem update (h : PopFits P p) {f : Frame} (hc : ∀ c, c ∈ f.cols ↔ c ∈ P.keys) (hn : f.cols.Nodup)
    (hr : ∀ r ∈ f.rows, List.Forall₂ (fun name c => attValue P name c) f.cols r.cells) :
    ∃ p', p.update f = .ok p' ∧ PopFits P p' := by
  have hcols : ∀ c, c ∈ f.cols ↔ c ∈ p.attributes.keys := fun c => (hc c).trans (h.names c)
  have hsub := Population.keepLast_sublist f.rows
  obtain ⟨atts, hatts⟩ := Population.updateAttributes_total (f := f) (rows := Population.keepLast f.rows)
    (Population.keepLast_nodup f.rows) (l := f.cols.zipIdx) (atts := p.attributes)
    (fun x hx => (hcols _).1 (List.fst_mem_of_mem_zipIdx hx))
    (fun x hx r hr' => by
      have := List.snd_lt_of_mem_zipIdx hx
      rw [← (hr r (hsub.subset hr')).length_eq]
      simpa using this)
  refine ⟨{ p with
      ids := indexUnion p.ids (indexDifference ((Population.keepLast f.rows).map (·.idx)) p.ids)
      attributes := atts }, ?_, ?_⟩
  · rw [Population.update, if_neg (not_not.2 ⟨fun c hc => (hcols c).1 hc, fun c hc => (hcols c).2 hc⟩)]
    simp only [hatts]
    rfl
  · have hinv := Population.updateAttributes_inv hatts
    refine ⟨fun name => by simp only [hinv.1]; exact h.names name, ?_⟩
    intro name k a' hk ha'
    have hl : (f.cols.zipIdx.map Prod.fst) = f.cols := List.zipIdx_map_fst 0 f.cols
    have hmem : name ∈ f.cols := (hc name).2 (Dict.mem_keys_of_get? hk)
    obtain ⟨j, hj, hje⟩ := List.getElem_of_mem hmem
    have hjm : (name, j) ∈ f.cols.zipIdx := by
      rw [List.mem_zipIdx_iff_getElem?]
      rw [List.getElem?_eq_getElem hj, hje]
    obtain ⟨a, a'', cells, h1, h2, h3, h4⟩ := (Population.updateAttributes_get hatts (by rw [hl]; exact hn)
      name).2 j hjm
    simp only at ha'
    rw [ha'] at h2
    cases h2
    obtain ⟨a3, h5, h6⟩ := (h.values name k a hk h1).update
      (series := ((Population.keepLast f.rows).map (·.idx)).zip cells) (by
        rw [List.map_fst_zip]
        · exact Population.keepLast_nodup f.rows
        · rw [List.length_map, (mapM_ok_iff.1 h3).length_eq]) (by
        intro x hx
        obtain ⟨r, hr1, hr2⟩ := forall₂_exists_left (mapM_ok_iff.1 h3) (List.of_mem_zip hx).2
        have hcell : r.cells[j]? = some x.2 := by
          rw [Frame.cellAt] at hr2
          split at hr2
          · cases hr2; assumption
          · cases hr2
        have := Forall₂_get (hr r (hsub.subset hr1)) (by rw [List.getElem?_eq_getElem hj, hje]) hcell
        obtain ⟨k', hk', hv⟩ := this
        rw [hk] at hk'
        cases hk'
        exact hv)
    rw [h4] at h5
    cases h5
    exact h6

end Spec.PopFits

end Trumania
