import Verif.Props.Population

/-!
# Property C95 (the dataframe of a population)
-/

namespace Trumania
open Spec World

theorem toDataframe_cols {p : Population} {cols : List (String × List Cell)}
    (h : (p.attributes.mapM fun kv => do .ok (kv.1, ← kv.2.getValues p.ids) :
      Py (List (String × List Cell))) = .ok cols) :
    List.Forall₂ (fun kv c => c.1 = kv.1 ∧ kv.2.getValues p.ids = .ok c.2) p.attributes cols := by
  refine (mapM_ok_iff.1 h).imp ?_
  intro kv c hc
  obtain ⟨vs, h1, h2⟩ := bind_eq_ok.1 hc
  cases h2
  exact ⟨rfl, h1⟩

theorem attributeOf_unique {p : Population} (hp : Population.WF p) {name : String} {a b : Attribute}
    (ha : attributeOf p name a) (hb : attributeOf p name b) : a = b := by
  have h1 := Dict.get?_of_mem (d := p.attributes) hp.names ha
  have h2 := Dict.get?_of_mem (d := p.attributes) hp.names hb
  rw [h1] at h2
  cases h2
  rfl

/-- **C95** `to_dataframe` succeeds when every attribute has a value for every member; it has one row per
member, in the order of the members, one column per attribute, in the order of their creation, and in
each cell the value of the attribute for the member. -/
theorem C95_to_dataframe {p : Population} (hp : Population.WF p)
    (hk : ∀ name a, attributeOf p name a → ∀ i ∈ p.ids, Knows a i) :
    ∃ f, p.toDataframe = .ok f ∧ f.index = p.ids ∧ f.cols = p.attributes.map Prod.fst ∧ Rect f ∧
      ∀ name a, attributeOf p name a → ∀ r ∈ f.rows, Holds a r.idx (cell f r name) := by
  have hcols : ∃ cols, List.Forall₂ (fun kv (c : String × List Cell) => c.1 = kv.1 ∧
      List.Forall₂ (Holds kv.2) p.ids c.2) p.attributes cols := by
    have : ∀ kv ∈ p.attributes, ∃ cs, List.Forall₂ (Holds kv.2) p.ids cs := by
      intro kv hkv
      have := hk kv.1 kv.2 hkv
      clear hk
      generalize p.ids = ids at this
      induction ids with
      | nil => exact ⟨[], .nil⟩
      | cons i ids ih =>
        obtain ⟨c, hc⟩ := this i (by simp)
        obtain ⟨cs, hcs⟩ := ih fun j hj => this j (by simp [hj])
        exact ⟨c :: cs, .cons hc hcs⟩
    clear hk
    generalize p.attributes = atts at this
    induction atts with
    | nil => exact ⟨[], .nil⟩
    | cons kv atts ih =>
      obtain ⟨cs, hcs⟩ := this kv (by simp)
      obtain ⟨cols, hcols⟩ := ih fun x hx => this x (by simp [hx])
      exact ⟨(kv.1, cs) :: cols, .cons ⟨rfl, hcs⟩ hcols⟩
  obtain ⟨cols, hcols⟩ := hcols
  have hok : (p.attributes.mapM fun kv => do .ok (kv.1, ← kv.2.getValues p.ids) :
      Py (List (String × List Cell))) = .ok cols := by
    refine mapM_ok_iff.2 ?_
    have hv := hp.values
    clear * - hcols hv
    generalize p.attributes = atts at hcols hv
    induction hcols with
    | nil => exact .nil
    | @cons kv c atts cols h _ ih =>
      refine .cons ?_ (ih fun x hx => hv x (by simp [hx]))
      have := (C53_get_values (hv kv (by simp))).2 h.2
      rw [bind_eq_ok]
      exact ⟨c.2, this, by rw [← h.1]⟩
  have hnames : cols.map Prod.fst = p.attributes.map Prod.fst := by
    clear * - hcols
    generalize p.attributes = atts at hcols
    induction hcols with
    | nil => rfl
    | cons h _ ih => rw [List.map_cons, List.map_cons, ih, h.1]
  refine ⟨_, by rw [Population.toDataframe, hok]; rfl, ?_, hnames, ?_, ?_⟩
  · rw [Frame.index, List.map_map]
    show List.map Prod.fst p.ids.zipIdx = _
    simp
  · intro r hr
    obtain ⟨x, -, rfl⟩ := List.mem_map.1 hr
    simp
  · intro name a ha r hr
    obtain ⟨⟨i, n⟩, hx, rfl⟩ := List.mem_map.1 hr
    have hn := List.mem_zipIdx_iff_getElem?.1 hx
    simp only at hn
    obtain ⟨c, hc, hname, hvals⟩ := forall₂_exists_right hcols ha
    have hcell : ((cols.map Prod.fst).zip (cols.map fun c => c.2.getD n Cell.na)).find?
        (fun x => decide (x.1 = name)) = some (name, c.2.getD n Cell.na) := by
      have hnd : (cols.map Prod.fst).Nodup := by rw [hnames]; exact hp.names
      simp only at hname
      clear * - hc hname hnd
      induction cols with
      | nil => cases hc
      | cons d cols ih =>
        rw [List.map_cons, List.nodup_cons] at hnd
        rw [List.map_cons, List.map_cons, List.zip_cons_cons]
        rcases List.mem_cons.1 hc with rfl | hc
        · rw [List.find?_cons_of_pos (by simpa using hname), hname]
        · rw [List.find?_cons_of_neg, ih hc hnd.2]
          simp only [decide_eq_true_eq]
          rintro rfl
          exact hnd.1 (hname ▸ List.mem_map.2 ⟨c, hc, rfl⟩)
    rw [cell, hcell]
    obtain ⟨hi, rfl⟩ := List.getElem?_eq_some_iff.1 hn
    have hlen := hvals.length_eq
    rw [List.getD_eq_getElem?_getD, List.getElem?_eq_getElem (by omega : n < c.2.length), Option.getD_some]
    exact hvals.get hi (by omega)

/-- **C95** it raises `KeyError` when some attribute has no value for some member. -/
theorem C95_missing_value {p : Population} (hp : Population.WF p) {name : String} {a : Attribute}
    (ha : attributeOf p name a) {i : Val} (hi : i ∈ p.ids) (hk : ¬ Knows a i) :
    p.toDataframe = .error .keyError := by
  have herr : ∀ kv ∈ p.attributes, ∀ e, kv.2.getValues p.ids = .error e → e = .keyError := by
    intro kv hkv e he
    by_cases h : ∃ j ∈ p.ids, ¬ Knows kv.2 j
    · rw [(C53_unknown_id (hp.values kv hkv)).2 h] at he
      cases he
      rfl
    · push Not at h
      have := C95_to_dataframe (p := ⟨p.ids, p.size, [kv], []⟩)
        ⟨hp.ids, by simp, by simpa using hp.values kv hkv⟩ (by
          intro n b hb j hj
          simp only [attributeOf, List.mem_singleton] at hb
          subst hb
          exact h j hj)
      obtain ⟨f, hf, -⟩ := this
      obtain ⟨cols, h1, -⟩ := bind_eq_ok.1 hf
      have := toDataframe_cols (p := ⟨p.ids, p.size, [kv], []⟩) h1
      cases this with
      | cons h2 _ =>
        simp only at h2
        rw [h2.2] at he
        cases he
  have hbad := (C53_unknown_id (hp.values _ ha)).2 ⟨i, hi, hk⟩
  rw [Population.toDataframe]
  suffices h : (p.attributes.mapM fun kv => do .ok (kv.1, ← kv.2.getValues p.ids) :
      Py (List (String × List Cell))) = .error .keyError by rw [h]; rfl
  have ha' : (name, a) ∈ p.attributes := ha
  clear hp ha hk
  generalize p.attributes = atts at ha' herr
  induction atts with
  | nil => cases ha'
  | cons kv atts ih =>
    rw [List.mapM_cons]
    cases hv : kv.2.getValues p.ids with
    | error e => rw [herr kv (by simp) e hv]; rfl
    | ok vs =>
      rcases List.mem_cons.1 ha' with rfl | ha'
      · rw [hbad] at hv; cases hv
      · rw [ih ha' fun x hx => herr x (by simp [hx])]
        rfl

/-- **C95** updating a population with its own dataframe changes no value of any member, and no member. -/
theorem C95_round_trip {p : Population} (hp : Population.WF p)
    (hk : ∀ name a, attributeOf p name a → ∀ i ∈ p.ids, Knows a i) :
    ∃ f p', p.toDataframe = .ok f ∧ p.update f = .ok p' ∧ p'.ids = p.ids ∧ p'.size = p.size ∧
      p'.attributes.map Prod.fst = p.attributes.map Prod.fst ∧ p'.relationships = p.relationships ∧
      ∀ name a, attributeOf p name a → ∃ a', attributeOf p' name a' ∧
        ∀ i c, Holds a' i c ↔ Holds a i c := by
  obtain ⟨f, h1, h2, h3, h4, h5⟩ := C95_to_dataframe hp hk
  obtain ⟨p', e1, e2, e3, e4⟩ := C55_update hp (f := f) h4 (by rw [h3]; exact hp.names)
    (fun c => by rw [h3])
  have hn : f.index.Nodup := by rw [h2]; exact hp.ids
  have hids : p'.ids = p.ids ∧ p'.size = p.size := by
    rw [Population.update] at e1
    split at e1
    · cases e1
    obtain ⟨atts, -, e1⟩ := bind_eq_ok.1 e1
    cases e1
    refine ⟨?_, rfl⟩
    have hkl : (Population.keepLast f.rows).map (·.idx) = p.ids := by
      rw [← h2]
      have hn : (f.rows.map (·.idx)).Nodup := hn
      show _ = f.rows.map (·.idx)
      clear * - hn
      generalize f.rows = rows at hn
      induction rows with
      | nil => rfl
      | cons r rows ih =>
        rw [List.map_cons, List.nodup_cons] at hn
        rw [Population.keepLast, if_neg hn.1, List.map_cons, ih hn.2, List.map_cons]
    show indexUnion p.ids (indexDifference ((Population.keepLast f.rows).map (·.idx)) p.ids) = _
    rw [hkl, indexDifference, if_pos rfl, indexUnion, if_pos (.inl rfl)]
  refine ⟨f, p', h1, e1, hids.1, hids.2, e2, e3, fun name a ha => ?_⟩
  obtain ⟨a', ha', e5⟩ := e4 name a ha
  refine ⟨a', ha', fun i c => ?_⟩
  have hone : ∀ {c c'}, Holds a i c → Holds a i c' → c = c' := by
    intro c c' hc hc'
    have k1 := Dict.get?_of_mem (d := a.table) (hp.values _ ha) hc
    have k2 := Dict.get?_of_mem (d := a.table) (hp.values _ ha) hc'
    rw [k1] at k2
    cases k2
    rfl
  rw [e5]
  constructor
  · rintro (⟨r, ⟨pre, post, hr, rfl, -⟩, rfl⟩ | ⟨-, h⟩)
    · exact h5 name a ha r (by rw [hr]; simp)
    · exact h
  · intro hc
    by_cases hi : i ∈ f.index
    · left
      obtain ⟨r, hr, rfl⟩ := List.mem_map.1 hi
      refine ⟨r, ?_, hone hc (h5 name a ha r hr)⟩
      obtain ⟨pre, post, he⟩ := List.append_of_mem hr
      refine ⟨pre, post, he, rfl, fun x hx hxe => ?_⟩
      rw [Frame.index, he, List.map_append, List.map_cons, List.nodup_append] at hn
      exact (List.nodup_cons.1 hn.2.1).1 (hxe ▸ List.mem_map.2 ⟨x, hx, rfl⟩)
    · exact .inr ⟨hi, hc⟩

/-! ### Non-vacuity -/

/-- a population with two attributes, created one after the other -/
def exTwoAttributes : Population where
  ids := [.str "b", .str "a"]
  size := 2
  attributes := [("NAME", ⟨[(.str "a", .str "Ann"), (.str "b", .str "Bob")]⟩),
    ("AGE", ⟨[(.str "b", .num 42), (.str "a", .num 30)]⟩)]
  relationships := []

example : Population.WF exTwoAttributes ∧
    ∀ name a, attributeOf exTwoAttributes name a → ∀ i ∈ exTwoAttributes.ids, Knows a i := by
  refine ⟨⟨by decide +kernel, by decide +kernel, ?_⟩, ?_⟩
  · simp only [OneValueEach]
    decide +kernel
  · intro name a ha i hi
    simp only [attributeOf, exTwoAttributes, List.mem_cons, List.not_mem_nil, or_false,
      Prod.mk.injEq] at ha hi
    rcases ha with ⟨rfl, rfl⟩ | ⟨rfl, rfl⟩ <;> rcases hi with rfl | rfl
    · exact ⟨.str "Bob", by simp [Holds]⟩
    · exact ⟨.str "Ann", by simp [Holds]⟩
    · exact ⟨.num 42, by simp [Holds]⟩
    · exact ⟨.num 30, by simp [Holds]⟩

example : exTwoAttributes.toDataframe = .ok ⟨["NAME", "AGE"],
    [⟨.str "b", [.str "Bob", .num 42]⟩, ⟨.str "a", [.str "Ann", .num 30]⟩]⟩ := by decide +kernel

/-- an attribute initialised from a relationship knows the members with relations only -/
example : Population.toDataframe { exTwoAttributes with
      attributes := [("FRIEND", ⟨[(.str "a", .str "b")]⟩)] } = .error .keyError := by decide +kernel

end Trumania
