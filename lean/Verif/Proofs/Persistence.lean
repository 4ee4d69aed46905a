import Verif.Spec.Persistence
import Verif.Props.Csv
import Verif.Props.Relationship

/-!
# Lemmas on saved relationships and attributes
-/

namespace Trumania
open Spec

namespace TextFormat
variable {F : TextFormat}

theorem infer_num (h : F.Lawful) {vs : List Val} (hv : ∀ v ∈ vs, ∃ q, v = .num q) :
    F.infer (vs.map F.val) = vs := by
  have hn : F.allNum (vs.map F.val) = true := by
    rw [allNum, List.all_eq_true]
    intro t ht
    obtain ⟨v, hm, rfl⟩ := List.mem_map.1 ht
    obtain ⟨q, rfl⟩ := hv v hm
    simp [val, h.parse_num]
  rw [infer, if_pos hn, List.map_map]
  conv_rhs => rw [← List.map_id vs]
  apply List.map_congr_left
  intro v hm
  obtain ⟨q, rfl⟩ := hv v hm
  simp [val, h.parse_num, h.isNa_num]

theorem infer_str {col : List Text} (h1 : ∃ t ∈ col, F.isNa t = false ∧ F.parse t = none)
    (h2 : ∃ t ∈ col, F.isNa t = false ∧ F.bool? t = none) :
    F.infer col = col.map fun t => if F.isNa t then .na else .str (String.ofList t) := by
  have hn : ¬ F.allNum col = true := by
    rw [allNum, List.all_eq_true]
    intro ha
    obtain ⟨t, hm, e1, e2⟩ := h1
    have := ha t hm
    simp [e1, e2] at this
  have hb : ¬ F.allBool col = true := by
    rw [allBool, List.all_eq_true]
    intro ha
    obtain ⟨t, hm, e1, e2⟩ := h2
    have := ha t hm
    simp [e1, e2] at this
  rw [infer, if_neg hn, if_neg hb]

theorem pyInt_int (s : Int) : pyInt (s : Rat) = s := by
  rw [pyInt]
  split
  · exact Rat.floor_intCast s
  · exact Rat.ceil_intCast s

/-- what a column of ids and numbers becomes -/
theorem infer_ids (h : F.Lawful) {vs ids : List Val} (hk : KeptIds F ids)
    (hv : ∀ v ∈ vs, v ∈ ids ∨ ∃ q, v = .num q) (hi : ∀ v ∈ ids, v ∈ vs) (hne : ∃ q, .num q ∈ vs) :
    ∃ conv : Val → Val, F.infer (vs.map F.val) = vs.map conv ∧ (∀ v ∈ ids, conv v = v) ∧
      (∀ q, F.toFloat (conv (.num q)) = .ok q) ∧ ∀ s : Int, F.toInt (conv (.num s)) = .ok s := by
  rcases hk with hk | ⟨hk, s0, hs0, hp0⟩
  · refine ⟨id, ?_, fun _ _ => rfl, fun _ => rfl, fun s => ?_⟩
    · rw [infer_num h, List.map_id]
      intro v hm
      rcases hv v hm with hm | hm
      · exact hk v hm
      · exact hm
    · simp [toInt, pyInt_int]
  · refine ⟨fun v => .str (String.ofList (F.val v)), ?_, ?_, ?_, ?_⟩
    · obtain ⟨q, hq⟩ := hne
      rw [infer_str, List.map_map]
      · apply List.map_congr_left
        intro v hm
        rcases hv v hm with hm | ⟨q, rfl⟩
        · obtain ⟨s, rfl, hs⟩ := hk v hm
          simp [val, hs.2]
        · simp [val, h.isNa_num]
      · refine ⟨s0.toList, List.mem_map.2 ⟨_, hi _ hs0, rfl⟩, ?_, hp0⟩
        obtain ⟨s, e, hs⟩ := hk _ hs0
        cases e; exact hs.2
      · exact ⟨F.num q, List.mem_map.2 ⟨_, hq, rfl⟩, h.isNa_num q, h.bool_num q⟩
    · intro v hm
      obtain ⟨s, rfl, -⟩ := hk v hm
      simp [val]
    · intro q
      simp [toFloat, val, h.parse_num]
    · intro s
      simp [toInt, val, h.parse_num]

end TextFormat

namespace Relationship
variable {σ : Type} {F : TextFormat}

/-- a line of the file: kind, rank, column, value -/
abbrev Item := Text × Rat × Text × Val

def Item.row (F : TextFormat) (it : Item) : List Text := [it.1, F.num it.2.1, it.2.2.1, F.val it.2.2.2]

def Item.ofRelation (x : (Val × Val × Rat) × Nat) : List Item :=
  [("relations".toList, (x.2 : Rat), "from".toList, x.1.1),
    ("relations".toList, (x.2 : Rat), "to".toList, x.1.2.1),
    ("relations".toList, (x.2 : Rat), "weight".toList, .num x.1.2.2)]

def Item.seed (F : TextFormat) (s : Int) : Item := ("seed".toList, 0, F.num 0, .num (s : Rat))

theorem savedRelation_eq {x : (Val × Val × Rat) × Nat} (h1 : x.1.1 ≠ .na) (h2 : x.1.2.1 ≠ .na) :
    savedRelation F x = (Item.ofRelation x).map (Item.row F) := by
  have h3 : Val.num x.1.2.2 ≠ .na := by intro h; cases h
  simp only [savedRelation, Item.ofRelation, List.filterMap_cons, List.filterMap_nil, if_neg h1, if_neg h2,
    if_neg h3, List.map_cons, List.map_nil, Item.row]

theorem flatMap_map_congr {α β γ : Type} {l : List α} {f : α → List γ} {g : α → List β} {k : β → γ}
    (h : ∀ a ∈ l, f a = (g a).map k) : l.flatMap f = (l.flatMap g).map k := by
  induction l with
  | nil => rfl
  | cons a l ih =>
    rw [List.flatMap_cons, List.flatMap_cons, List.map_append, h a (by simp),
      ih fun b hb => h b (by simp [hb])]

theorem savedRows_eq {env : Orders} {r : Relationship σ}
    (h : ∀ x ∈ r.get_relations env, x.1 ≠ .na ∧ x.2.1 ≠ .na) :
    r.savedRows F env = ((r.get_relations env).zipIdx.flatMap Item.ofRelation ++
      [Item.seed F r.seed]).map (Item.row F) := by
  rw [savedRows, List.map_append]
  congr 1
  · apply flatMap_map_congr
    intro x hx
    have := List.mem_zipIdx hx
    have hm : x.1 ∈ r.get_relations env := by
      rw [this.2.2]; exact List.getElem_mem _
    exact savedRelation_eq (h _ hm).1 (h _ hm).2

def pivotEntry (conv : Val → Val) (it : Item) : (Rat × Text) × Val := ((it.2.1, it.2.2.1), conv it.2.2.2)

theorem pivot_keys (conv : Val → Val) (L : List (Val × Val × Rat)) :
    Dict.keys ((L.zipIdx.flatMap Item.ofRelation).map (pivotEntry conv)) =
      L.zipIdx.flatMap fun x => [((x.2 : Rat), "from".toList), ((x.2 : Rat), "to".toList),
        ((x.2 : Rat), "weight".toList)] := by
  rw [Dict.keys, List.map_map]
  symm
  apply flatMap_map_congr
  intro a _
  rfl

theorem pivot_wf (conv : Val → Val) (L : List (Val × Val × Rat)) :
    Dict.WF ((L.zipIdx.flatMap Item.ofRelation).map (pivotEntry conv)) := by
  rw [Dict.WF, pivot_keys, List.nodup_flatMap]
  constructor
  · intro x _; simp
  · have hn : (L.zipIdx.map Prod.snd).Nodup := by
      rw [List.zipIdx_map_snd]; exact List.nodup_range'
    refine (List.pairwise_map.1 hn).imp ?_
    intro a b hab y hy hz
    have h1 : y.1 = (a.2 : Rat) := by
      simp at hy; rcases hy with rfl | rfl | rfl <;> rfl
    have h2 : y.1 = (b.2 : Rat) := by
      simp at hz; rcases hz with rfl | rfl | rfl <;> rfl
    rw [h1] at h2
    exact hab (by exact_mod_cast h2)

theorem ranks_eq (conv : Val → Val) (L : List (Val × Val × Rat)) :
    ranksOf ((L.zipIdx.flatMap Item.ofRelation).map (pivotEntry conv)) =
      L.zipIdx.map fun x => (x.2 : Rat) := by
  rw [ranksOf]
  have hs := sortBy_sorted (le := fun a b : Rat => decide (a ≤ b))
    (by intro a b c; simpa using le_trans) (by intro a b; simpa using le_total a b)
    (Dict.keys ((L.zipIdx.flatMap Item.ofRelation).map (pivotEntry conv)) |>.map Prod.fst).dedup
  have hp := sortBy_perm (fun a b : Rat => decide (a ≤ b))
    (Dict.keys ((L.zipIdx.flatMap Item.ofRelation).map (pivotEntry conv)) |>.map Prod.fst).dedup
  have hsnd : (L.zipIdx.map fun x => (x.2 : Rat)) = (List.range L.length).map fun i : Nat => (i : Rat) := by
    have h0 : L.zipIdx.map Prod.snd = List.range L.length := by
      rw [List.zipIdx_map_snd, List.range_eq_range']
    rw [← h0, List.map_map]; rfl
  have hr : ((List.range L.length).map fun i : Nat => (i : Rat)).Pairwise fun a b => decide (a ≤ b) = true := by
    rw [List.pairwise_map]
    refine List.pairwise_lt_range.imp ?_
    intro a b hab
    simpa using (Nat.cast_le (α := Rat)).2 hab.le
  have hnd : ((List.range L.length).map fun i : Nat => (i : Rat)).Nodup :=
    List.nodup_range.map fun a b h => by exact_mod_cast h
  have hpp : ((Dict.keys ((L.zipIdx.flatMap Item.ofRelation).map (pivotEntry conv)) |>.map Prod.fst).dedup).Perm
      ((List.range L.length).map fun i : Nat => (i : Rat)) := by
    refine (List.perm_ext_iff_of_nodup (List.nodup_dedup _) hnd).2 ?_
    intro q
    rw [List.mem_dedup, pivot_keys, ← hsnd, List.mem_map, List.mem_map]
    constructor
    · rintro ⟨y, hy, rfl⟩
      obtain ⟨x, hx, hm⟩ := List.mem_flatMap.1 hy
      refine ⟨x, hx, ?_⟩
      simp at hm; rcases hm with rfl | rfl | rfl <;> rfl
    · rintro ⟨x, hx, rfl⟩
      exact ⟨(x.2, "from".toList), List.mem_flatMap.2 ⟨x, hx, by simp⟩, rfl⟩
  rw [hsnd]
  exact (hp.trans hpp).eq_of_pairwise (fun a b _ _ h1 h2 => by simp at h1 h2; exact le_antisymm h1 h2) hs hr

theorem column_eq {conv : Val → Val} {L : List (Val × Val × Rat)} (hL : L ≠ []) {name : Text}
    {g : Val × Val × Rat → Val}
    (hg : ∀ x, ("relations".toList, ((x.2 : Nat) : Rat), name, g x.1) ∈ Item.ofRelation x) :
    columnOf ((L.zipIdx.flatMap Item.ofRelation).map (pivotEntry conv)) name =
      .ok (L.map fun x => conv (g x)) := by
  have hmem : ∀ x ∈ L.zipIdx, (((x.2 : Rat), name), conv (g x.1)) ∈
      (L.zipIdx.flatMap Item.ofRelation).map (pivotEntry conv) := by
    intro x hx
    exact List.mem_map.2 ⟨_, List.mem_flatMap.2 ⟨x, hx, hg x⟩, rfl⟩
  have hany : (Dict.keys ((L.zipIdx.flatMap Item.ofRelation).map (pivotEntry conv))).any
      (fun k => decide (k.2 = name)) = true := by
    rw [List.any_eq_true]
    obtain ⟨a, t, rfl⟩ := List.exists_cons_of_ne_nil hL
    refine ⟨(((0 : Nat) : Rat), name), ?_, by simp⟩
    have := hmem (a, 0) (by simp)
    exact List.mem_map.2 ⟨_, this, rfl⟩
  rw [columnOf, if_pos hany, ranks_eq, List.map_map]
  congr 1
  have h1 : (L.zipIdx.map fun x => conv (g x.1)) = L.map fun x => conv (g x) := by
    have h0 : L.zipIdx.map Prod.fst = L := by rw [List.zipIdx_map_fst]
    conv_rhs => rw [← h0]
    rw [List.map_map]; rfl
  rw [← h1]
  apply List.map_congr_left
  intro x hx
  simp only [Function.comp]
  rw [Dict.get?_of_mem (pivot_wf conv L) (hmem x hx)]
  rfl

theorem cleanLine_row (hF : F.Lawful) {it : Item} (h1 : CleanText it.1) (h2 : CleanText it.2.2.1)
    (h3 : CleanText (F.val it.2.2.2)) : CleanLine (it.row F) := by
  refine ⟨by simp [Item.row], ?_, ?_⟩
  · intro t ht
    simp only [Item.row, List.mem_cons, List.not_mem_nil, or_false] at ht
    rcases ht with rfl | rfl | rfl | rfl
    · exact h1
    · exact hF.clean_num _
    · exact h2
    · exact h3
  · rintro ⟨t, ht, -⟩
    simp [Item.row] at ht

/-- the text saved is read back -/
theorem loadText_saveText (hF : F.Lawful) (R : Rng σ) (env env' : Orders) {r : Relationship σ}
    (hne : r.get_relations env ≠ [])
    (hk : KeptIds F (((r.get_relations env).map fun x => x.1) ++ (r.get_relations env).map fun x => x.2.1)) :
    loadText F R env' (r.saveText F env) =
      (Relationship.new R r.seed).add_relations env' ((r.get_relations env).map fun x => x.1)
        ((r.get_relations env).map fun x => x.2.1)
        (.list ((r.get_relations env).map fun x => x.2.2)) := by
  generalize hL : r.get_relations env = L at *
  have hna : ∀ v, v ∈ ((L.map fun x => x.1) ++ L.map fun x => x.2.1) →
      v ≠ .na ∧ CleanText (F.val v) := by
    intro v hv
    rcases hk with hk | ⟨hk, -⟩
    · obtain ⟨q, rfl⟩ := hk v hv
      exact ⟨by simp, hF.clean_num q⟩
    · obtain ⟨s, rfl, hs⟩ := hk v hv
      exact ⟨by simp, hs.1⟩
  have hfst : ∀ x ∈ L, x.1 ∈ ((L.map fun x => x.1) ++ L.map fun x => x.2.1) := by
    intro x hx; exact List.mem_append_left _ (List.mem_map.2 ⟨x, hx, rfl⟩)
  have hsnd : ∀ x ∈ L, x.2.1 ∈ ((L.map fun x => x.1) ++ L.map fun x => x.2.1) := by
    intro x hx; exact List.mem_append_right _ (List.mem_map.2 ⟨x, hx, rfl⟩)
  have hzip : ∀ x ∈ L.zipIdx, x.1 ∈ L := by
    intro x hx
    have := List.mem_zipIdx hx
    rw [this.2.2]; exact List.getElem_mem _
  have hrows : r.savedRows F env =
      (L.zipIdx.flatMap Item.ofRelation ++ [Item.seed F r.seed]).map (Item.row F) := by
    have := savedRows_eq (F := F) (env := env) (r := r) (by
      rw [hL]; intro x hx; exact ⟨(hna _ (hfst x hx)).1, (hna _ (hsnd x hx)).1⟩)
    rw [this, hL]
  have hclit : ∀ t ∈ (["param".toList, [], "value".toList, "relations".toList, "seed".toList,
      "from".toList, "to".toList, "weight".toList] : List Text), CleanText t := by
    intro t ht
    simp only [List.mem_cons, List.not_mem_nil, or_false] at ht
    rcases ht with rfl | rfl | rfl | rfl | rfl | rfl | rfl | rfl <;> simp [CleanText]
  have hread : readCsv (r.saveText F env) = .ok (["param".toList, [], [], "value".toList],
      (L.zipIdx.flatMap Item.ofRelation ++ [Item.seed F r.seed]).map (Item.row F)) := by
    rw [saveText, hrows]
    apply C63_roundtrip_partial
    · refine ⟨by simp, ?_, ?_⟩
      · intro t ht
        apply hclit
        simp only [List.mem_cons, List.not_mem_nil, or_false] at ht ⊢
        rcases ht with rfl | rfl | rfl | rfl <;> simp
      · rintro ⟨t, ht, -⟩; simp at ht
    · rintro t ts h
      cases h
      rintro ⟨r, hr⟩
      simp at hr
    · intro row hrow
      obtain ⟨it, hit, rfl⟩ := List.mem_map.1 hrow
      rcases List.mem_append.1 hit with hit | hit
      · obtain ⟨x, hx, hm⟩ := List.mem_flatMap.1 hit
        simp only [Item.ofRelation, List.mem_cons, List.not_mem_nil, or_false] at hm
        rcases hm with rfl | rfl | rfl
        · exact cleanLine_row hF (hclit _ (by simp)) (hclit _ (by simp)) (hna _ (hfst _ (hzip x hx))).2
        · exact cleanLine_row hF (hclit _ (by simp)) (hclit _ (by simp)) (hna _ (hsnd _ (hzip x hx))).2
        · exact cleanLine_row hF (hclit _ (by simp)) (hclit _ (by simp)) (hF.clean_num _)
      · rw [List.mem_singleton] at hit
        subst hit
        exact cleanLine_row hF (hclit _ (by simp [Item.seed])) (hF.clean_num _) (hF.clean_num _)
    · intro row hrow
      obtain ⟨it, -, rfl⟩ := List.mem_map.1 hrow
      rfl
  generalize hI : L.zipIdx.flatMap Item.ofRelation ++ [Item.seed F r.seed] = I at hread
  obtain ⟨conv, hinf, hid, hfl, hint⟩ := TextFormat.infer_ids hF hk (vs := I.map fun it => it.2.2.2) (by
      intro v hv
      obtain ⟨it, hit, rfl⟩ := List.mem_map.1 hv
      rw [← hI] at hit
      rcases List.mem_append.1 hit with hit | hit
      · obtain ⟨x, hx, hm⟩ := List.mem_flatMap.1 hit
        simp only [Item.ofRelation, List.mem_cons, List.not_mem_nil, or_false] at hm
        rcases hm with rfl | rfl | rfl
        · exact .inl (hfst _ (hzip x hx))
        · exact .inl (hsnd _ (hzip x hx))
        · exact .inr ⟨_, rfl⟩
      · rw [List.mem_singleton] at hit
        subst hit; exact .inr ⟨_, rfl⟩) (by
      intro v hv
      have hz : ∀ x ∈ L, ∃ i, (x, i) ∈ L.zipIdx := by
        intro x hx
        obtain ⟨i, hi, rfl⟩ := List.getElem_of_mem hx
        exact ⟨i, by rw [List.mem_zipIdx_iff_getElem?]; simp [hi]⟩
      rw [List.mem_map, ← hI]
      rcases List.mem_append.1 hv with hv | hv
      · obtain ⟨x, hx, rfl⟩ := List.mem_map.1 hv
        obtain ⟨i, hi⟩ := hz x hx
        exact ⟨_, List.mem_append_left _ (List.mem_flatMap.2 ⟨_, hi, List.mem_cons_self⟩), rfl⟩
      · obtain ⟨x, hx, rfl⟩ := List.mem_map.1 hv
        obtain ⟨i, hi⟩ := hz x hx
        exact ⟨_, List.mem_append_left _ (List.mem_flatMap.2 ⟨_, hi,
          List.mem_cons_of_mem _ List.mem_cons_self⟩), rfl⟩) (by
      refine ⟨_, List.mem_map.2 ⟨Item.seed F r.seed, ?_, rfl⟩⟩
      rw [← hI]; simp)
  have hent : entriesOf F (I.map (Item.row F)) = I.map fun it => (it.row F, conv it.2.2.2) := by
    have h1 : (I.map (Item.row F)).map (field 3) = (I.map fun it => it.2.2.2).map F.val := by
      rw [List.map_map, List.map_map]; rfl
    rw [entriesOf, h1, hinf, List.map_map, List.zip_map', ]
    rfl
  have hrel : ∀ it ∈ L.zipIdx.flatMap Item.ofRelation, it.1 = "relations".toList := by
    intro it hit
    obtain ⟨x, hx, hm⟩ := List.mem_flatMap.1 hit
    simp only [Item.ofRelation, List.mem_cons, List.not_mem_nil, or_false] at hm
    rcases hm with rfl | rfl | rfl <;> rfl
  have hfind : (I.map fun it => (it.row F, conv it.2.2.2)).find?
      (fun e => decide (field 0 e.1 = "seed".toList)) =
      some ((Item.seed F r.seed).row F, conv (.num r.seed)) := by
    rw [List.find?_map, ← hI, List.find?_append]
    have h0 : (L.zipIdx.flatMap Item.ofRelation).find?
        ((fun e : List Text × Val => decide (field 0 e.1 = "seed".toList)) ∘
          fun it : Item => (it.row F, conv it.2.2.2)) = none := by
      rw [List.find?_eq_none]
      intro it hit
      have := hrel it hit
      simp [Item.row, field, this]
    rw [h0]
    simp [Item.seed, Item.row, field]
  have hpiv : pivotOf F (I.map fun it => (it.row F, conv it.2.2.2)) =
      .ok ((L.zipIdx.flatMap Item.ofRelation).map (pivotEntry conv)) := by
    have h0 : (I.map fun it => (it.row F, conv it.2.2.2)).filter
        (fun e => decide (field 0 e.1 = "relations".toList)) =
        (L.zipIdx.flatMap Item.ofRelation).map fun it => (it.row F, conv it.2.2.2) := by
      rw [List.filter_map, ← hI, List.filter_append]
      have e1 : (L.zipIdx.flatMap Item.ofRelation).filter
          ((fun e : List Text × Val => decide (field 0 e.1 = "relations".toList)) ∘
          fun it : Item => (it.row F, conv it.2.2.2)) = L.zipIdx.flatMap Item.ofRelation := by
        rw [List.filter_eq_self]
        intro it hit
        have := hrel it hit
        simp [Item.row, field, this]
      rw [e1]
      simp [Item.seed, Item.row, field]
    rw [pivotOf, h0, mapM_ok_iff, List.forall₂_map_left_iff, List.forall₂_map_right_iff, List.forall₂_same]
    intro it _
    simp [Item.row, field, hF.parse_num, pivotEntry]
  have hpne : (L.zipIdx.flatMap Item.ofRelation).map (pivotEntry conv) ≠ [] := by
    obtain ⟨a, t, rfl⟩ := List.exists_cons_of_ne_nil hne
    simp [Item.ofRelation]
  have hf : columnOf ((L.zipIdx.flatMap Item.ofRelation).map (pivotEntry conv)) "from".toList =
      .ok (L.map fun x => x.1) := by
    rw [column_eq hne (g := fun x => x.1) (by intro x; simp [Item.ofRelation])]
    congr 1
    exact List.map_congr_left fun x hx => hid _ (hfst x hx)
  have ht : columnOf ((L.zipIdx.flatMap Item.ofRelation).map (pivotEntry conv)) "to".toList =
      .ok (L.map fun x => x.2.1) := by
    rw [column_eq hne (g := fun x => x.2.1) (by intro x; simp [Item.ofRelation])]
    congr 1
    exact List.map_congr_left fun x hx => hid _ (hsnd x hx)
  have hw := column_eq (conv := conv) hne (name := "weight".toList) (g := fun x => .num x.2.2)
    (by intro x; simp [Item.ofRelation])
  have hw2 : (L.map fun x => conv (.num x.2.2)).mapM F.toFloat = .ok (L.map fun x => x.2.2) := by
    rw [mapM_ok_iff, List.forall₂_map_left_iff, List.forall₂_map_right_iff, List.forall₂_same]
    intro x _; exact hfl _
  have hint' := hint r.seed
  rw [loadText, hread, bind_ok]
  simp only [hent, hfind, hint', bind_ok, hpiv, if_neg hpne, hf, ht, hw, hw2]

end Relationship
end Trumania
