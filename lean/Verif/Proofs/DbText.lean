import Verif.Spec.Db
import Verif.Proofs.Persistence

/-!
# Lemmas on the files of attributes and ids
-/

namespace Trumania
open Spec

namespace TextFormat
variable {F : TextFormat}

theorem infer_numNa (h : F.Lawful) {vs : List Val} (hv : ∀ v ∈ vs, v = .na ∨ ∃ q, v = .num q) :
    F.infer (vs.map F.val) = vs := by
  have hn : F.allNum (vs.map F.val) = true := by
    rw [allNum, List.all_eq_true]
    intro t ht
    obtain ⟨v, hm, rfl⟩ := List.mem_map.1 ht
    rcases hv v hm with rfl | ⟨q, rfl⟩
    · simp [val, h.isNa_empty]
    · simp [val, h.parse_num]
  rw [infer, if_pos hn, List.map_map]
  conv_rhs => rw [← List.map_id vs]
  apply List.map_congr_left
  intro v hm
  rcases hv v hm with rfl | ⟨q, rfl⟩
  · simp [val, h.isNa_empty]
  · simp [val, h.parse_num, h.isNa_num]

theorem val_bool (h : F.Lawful) (b : Bool) : F.isNa (F.val (.bool b)) = false ∧
    F.parse (F.val (.bool b)) = none ∧ F.bool? (F.val (.bool b)) = some b := by
  cases b
  · exact ⟨h.isNa_false, h.parse_false, h.bool_false⟩
  · exact ⟨h.isNa_true, h.parse_true, h.bool_true⟩

/-- a column of kept values is read back as it was -/
theorem infer_kept (h : F.Lawful) {vs : List Val} (hv : KeptValues F vs) :
    F.infer (vs.map F.val) = vs := by
  rcases hv with hv | hv | ⟨hv, ⟨s1, hm1, hs1⟩, s2, hm2, hs2⟩
  · exact infer_numNa h hv
  · by_cases hb : ∃ b, Val.bool b ∈ vs
    · obtain ⟨b0, hb0⟩ := hb
      have hn : ¬ F.allNum (vs.map F.val) = true := by
        rw [allNum, List.all_eq_true]
        intro ha
        have := ha _ (List.mem_map.2 ⟨_, hb0, rfl⟩)
        obtain ⟨e1, e2, -⟩ := val_bool h b0
        simp [e1, e2] at this
      have hb : F.allBool (vs.map F.val) = true := by
        rw [allBool, List.all_eq_true]
        intro t ht
        obtain ⟨v, hm, rfl⟩ := List.mem_map.1 ht
        rcases hv v hm with rfl | ⟨b, rfl⟩
        · simp [val, h.isNa_empty]
        · simp [(val_bool h b).2.2]
      rw [infer, if_neg hn, if_pos hb, List.map_map]
      conv_rhs => rw [← List.map_id vs]
      apply List.map_congr_left
      intro v hm
      rcases hv v hm with rfl | ⟨b, rfl⟩
      · simp [val, h.isNa_empty]
      · simp [(val_bool h b).1, (val_bool h b).2.2]
    · apply infer_numNa h
      intro v hm
      rcases hv v hm with h | ⟨b, rfl⟩
      · exact .inl h
      · exact absurd ⟨b, hm⟩ hb
  · have hna : ∀ s, Val.str s ∈ vs → F.isNa s.toList = false := by
      intro s hm
      rcases hv _ hm with h | ⟨s', e, hs⟩
      · cases h
      · cases e; exact hs.2
    rw [infer_str ⟨_, List.mem_map.2 ⟨_, hm1, rfl⟩, hna _ hm1, hs1⟩
      ⟨_, List.mem_map.2 ⟨_, hm2, rfl⟩, hna _ hm2, hs2⟩, List.map_map]
    conv_rhs => rw [← List.map_id vs]
    apply List.map_congr_left
    intro v hm
    rcases hv v hm with rfl | ⟨s, rfl, hs⟩
    · simp [val, h.isNa_empty]
    · simp [val, hs.2]

theorem clean_bool (b : Bool) : CleanText (F.val (.bool b)) := by
  cases b <;> simp [CleanText, val]

theorem clean_kept (h : F.Lawful) {vs : List Val} (hv : KeptValues F vs) :
    ∀ v ∈ vs, CleanText (F.val v) := by
  have hna : CleanText (F.val .na) := by simp [CleanText, val]
  intro v hm
  rcases hv with hv | hv | ⟨hv, -⟩
  · rcases hv v hm with rfl | ⟨q, rfl⟩
    · exact hna
    · exact h.clean_num q
  · rcases hv v hm with rfl | ⟨b, rfl⟩
    · exact hna
    · exact clean_bool b
  · rcases hv v hm with rfl | ⟨s, rfl, hs⟩
    · exact hna
    · exact hs.1

end TextFormat

namespace Attribute
variable {F : TextFormat}

theorem zip_fst_snd {α β : Type} (l : List (α × β)) : (l.map Prod.fst).zip (l.map Prod.snd) = l := by
  induction l with
  | nil => rfl
  | cons x l ih => simp [ih]

/-- the file of an attribute is loaded as the same attribute -/
theorem loadText_saveText (h : F.Lawful) {a : Attribute} (ha : StorableAttribute F a) :
    Attribute.loadText F (a.saveText F) = .ok a := by
  obtain ⟨vs, hvs, hkv⟩ := ha.values
  have hsnd : ∀ kv ∈ a.table, ∃ v ∈ vs, kv.2 = .scalar v := by
    intro kv hm
    have : kv.2 ∈ a.table.map Prod.snd := List.mem_map.2 ⟨kv, hm, rfl⟩
    rw [hvs] at this
    obtain ⟨v, hv, e⟩ := List.mem_map.1 this
    exact ⟨v, hv, e.symm⟩
  have hread : readCsv (a.saveText F) =
      .ok ([[], "value".toList], a.table.map fun kv => [F.val kv.1, F.cell kv.2]) := by
    rw [saveText]
    apply C63_roundtrip_partial
    · refine ⟨by simp, by simp [CleanText], ?_⟩
      rintro ⟨t, ht, -⟩; simp at ht
    · rintro t ts e
      cases e
      rintro ⟨r, hr⟩; cases hr
    · intro row hrow
      obtain ⟨kv, hm, rfl⟩ := List.mem_map.1 hrow
      refine ⟨by simp, ?_, ?_⟩
      · intro t ht
        simp only [List.mem_cons, List.not_mem_nil, or_false] at ht
        rcases ht with rfl | rfl
        · exact TextFormat.clean_kept h ha.ids _ (List.mem_map.2 ⟨kv, hm, rfl⟩)
        · obtain ⟨v, hv, e⟩ := hsnd kv hm
          rw [e]
          exact TextFormat.clean_kept h hkv _ hv
      · rintro ⟨t, ht, -⟩; simp at ht
    · intro row hrow
      obtain ⟨kv, hm, rfl⟩ := List.mem_map.1 hrow
      rfl
  have h0 : (a.table.map fun kv => [F.val kv.1, F.cell kv.2]).map (fun row => row.getD 0 []) =
      (a.table.map Prod.fst).map F.val := by
    rw [List.map_map, List.map_map]; rfl
  have h1 : (a.table.map fun kv => [F.val kv.1, F.cell kv.2]).map (fun row => row.getD 1 []) =
      vs.map F.val := by
    have : vs.map F.val = (vs.map Cell.scalar).map F.cell := by
      rw [List.map_map]; rfl
    rw [this, ← hvs, List.map_map, List.map_map]; rfl
  rw [loadText, hread, bind_ok]
  simp only [h0, h1, TextFormat.infer_kept h ha.ids, TextFormat.infer_kept h hkv]
  rw [← hvs, Attribute.new]
  by_cases hz : (a.table.map Prod.fst).length = 0
  · rw [if_pos hz]
    have : a.table = [] := by simpa using hz
    cases a; simp_all
  · rw [if_neg hz, if_neg (by simp), zip_fst_snd]

end Attribute

namespace Population
variable {F : TextFormat}

theorem startsWithBom_zero : ¬ StartsWithBom "0".toList := by
  rintro ⟨r, hr⟩
  simp at hr

/-- the ids are read back -/
theorem readIds_idsText (h : F.Lawful) {ids : List Val} (hk : KeptIds F ids)
    (hv : ∀ s, .str s ∈ ids → ∃ c ∈ s.toList, c ≠ ' ' ∧ c ≠ '\t') :
    readIds F (idsText F ids) = .ok ids := by
  have hclean : ∀ v ∈ ids, CleanText (F.val v) ∧ ∃ c ∈ F.val v, c ≠ ' ' ∧ c ≠ '\t' := by
    intro v hm
    rcases hk with hk | ⟨hk, -⟩
    · obtain ⟨q, rfl⟩ := hk v hm
      exact ⟨h.clean_num q, h.visible_num q⟩
    · obtain ⟨s, rfl, hs⟩ := hk v hm
      exact ⟨hs.1, hv s hm⟩
  have hlines : csvLines (idsText F ids) = .ok (["0".toList] :: ids.map fun v => [F.val v]) := by
    have := csvLines_write (rows := ["0".toList] :: ids.map fun v => [F.val v]) (by
      intro row hrow
      rcases List.mem_cons.1 hrow with rfl | hrow
      · refine ⟨by simp, by simp [CleanText], ?_⟩
        rintro ⟨t, ht, -, hall⟩
        cases ht
        simp at hall
      · obtain ⟨v, hm, rfl⟩ := List.mem_map.1 hrow
        refine ⟨by simp, ?_, ?_⟩
        · intro t ht
          rw [List.mem_singleton] at ht
          subst ht
          exact (hclean v hm).1
        · rintro ⟨t, ht, -, hall⟩
          cases ht
          obtain ⟨c, hc, h1, h2⟩ := (hclean v hm).2
          rcases hall c hc with h | h
          · exact h1 h
          · exact h2 h) (by
      rintro t ts rest e
      cases e
      exact startsWithBom_zero)
    rw [← this]
    rfl
  have hcol : (["0".toList] :: ids.map fun v => [F.val v]).map (fun l => l.getD 0 []) =
      "0".toList :: ids.map F.val := by
    rw [List.map_cons, List.map_map]; rfl
  rw [readIds, hlines, bind_ok, if_pos (by simp), hcol]
  congr 1
  rcases hk with hk | ⟨hk, s0, hm0, hs0⟩
  · have hn : F.allNum ("0".toList :: ids.map F.val) = true := by
      rw [TextFormat.allNum, List.all_eq_true]
      intro t ht
      rcases List.mem_cons.1 ht with rfl | ht
      · rw [h.parse_zero]; simp
      · obtain ⟨v, hm, rfl⟩ := List.mem_map.1 ht
        obtain ⟨q, rfl⟩ := hk v hm
        simp [TextFormat.val, h.parse_num]
    rw [TextFormat.infer, if_pos hn, List.map_cons, List.drop_succ_cons, List.drop_zero, List.map_map]
    conv_rhs => rw [← List.map_id ids]
    apply List.map_congr_left
    intro v hm
    obtain ⟨q, rfl⟩ := hk v hm
    simp [TextFormat.val, h.parse_num, h.isNa_num]
  · have hna : F.isNa s0.toList = false := by
      obtain ⟨s, e, hs⟩ := hk _ hm0
      cases e; exact hs.2
    rw [TextFormat.infer_str ⟨s0.toList, List.mem_cons_of_mem _ (List.mem_map.2 ⟨_, hm0, rfl⟩), hna, hs0⟩
      ⟨_, List.mem_cons_self, h.isNa_zero, h.bool_zero⟩, List.map_cons, List.drop_succ_cons, List.drop_zero,
      List.map_map]
    conv_rhs => rw [← List.map_id ids]
    apply List.map_congr_left
    intro v hm
    obtain ⟨s, rfl, hs⟩ := hk v hm
    simp [TextFormat.val, hs.2]

end Population
end Trumania
