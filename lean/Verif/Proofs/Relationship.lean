import Verif.Model.Relationship
import Verif.Proofs.ValOrder
import Verif.Proofs.Merge
import Verif.Proofs.Cap
import Verif.Proofs.NpDelete
import Mathlib.Data.List.Perm.Subperm
import Mathlib.Data.List.Zip

/-! Helper lemmas: content of a relationship, per from. -/

namespace Trumania

/-! ### Lists of rows keyed by their first component -/

section Keyed
variable {β : Type}

/-- the rows of one key -/
def rowsOf (f : Val) (l : List (Val × β)) : List (Val × β) := l.filter (fun x => decide (x.1 = f))

@[simp] theorem rowsOf_nil (f : Val) : rowsOf f ([] : List (Val × β)) = [] := rfl

theorem rowsOf_append (f : Val) (l m : List (Val × β)) :
    rowsOf f (l ++ m) = rowsOf f l ++ rowsOf f m := List.filter_append ..

theorem rowsOf_map_same (f : Val) (l : List β) :
    rowsOf f (l.map fun x => (f, x)) = l.map fun x => (f, x) := by
  rw [rowsOf, List.filter_eq_self]
  simp

theorem rowsOf_map_ne {f g : Val} (h : g ≠ f) (l : List β) :
    rowsOf f (l.map fun x => (g, x)) = [] := by
  rw [rowsOf, List.filter_eq_nil_iff]
  simp [h]

theorem mem_rowsOf {f : Val} {l : List (Val × β)} {x : Val × β} :
    x ∈ rowsOf f l ↔ x ∈ l ∧ x.1 = f := by simp [rowsOf]

theorem perm_of_rowsOf [DecidableEq β] {l m : List (Val × β)}
    (h : ∀ f, (rowsOf f l).Perm (rowsOf f m)) : l.Perm m := by
  rw [List.perm_iff_count]
  intro a
  have h1 : ∀ l : List (Val × β), List.count a l = List.count a (rowsOf a.1 l) := by
    intro l
    rw [rowsOf, List.count_filter]
    simp
  rw [h1 l, h1 m, (h a.1).count_eq]

theorem rowsOf_flatMap {ids : List Val} (hn : ids.Nodup) (h : Val → List β) (f : Val) :
    rowsOf f (ids.flatMap fun g => (h g).map fun x => (g, x)) =
      if f ∈ ids then (h f).map (fun x => (f, x)) else [] := by
  induction ids with
  | nil => simp
  | cons a ids ih =>
    rw [List.nodup_cons] at hn
    rw [List.flatMap_cons, rowsOf_append, ih hn.2]
    by_cases hf : a = f
    · subst hf
      rw [rowsOf_map_same, if_neg hn.1]; simp
    · have hf' : f ≠ a := fun e => hf e.symm
      rw [rowsOf_map_ne hf]; simp [hf']

end Keyed

/-! ### Content of the grouped dict -/

/-- relations stored for a from -/
def pairsAt (g : Dict Val Relations) (f : Val) : List (Val × Rat) :=
  match g.get? f with
  | some rs => rs.tos.zip rs.weights
  | none => []

/-- invariant of the grouped dict -/
structure GWF (g : Dict Val Relations) : Prop where
  wf : g.WF
  len : ∀ f rs, g.get? f = some rs → rs.tos.length = rs.weights.length

theorem GWF.nil : GWF [] := ⟨List.nodup_nil, by simp⟩

theorem pairsAt_length {g : Dict Val Relations} (hg : GWF g) {f : Val} {rs : Relations}
    (h : g.get? f = some rs) : (pairsAt g f).length = rs.size := by
  rw [pairsAt, h]
  have := hg.len f rs h
  simp [Relations.size, this]

variable {σ : Type} (env : Orders)

theorem get_relations_some_rowsOf (r : Relationship σ) (l : List Val) (f : Val) :
    rowsOf f (r.get_relations env (some l)) =
      if f ∈ l then (pairsAt r.grouped f).map (fun x => (f, x)) else [] := by
  have := rowsOf_flatMap (env.set.nodup l) (pairsAt r.grouped) f
  simp only [env.set.mem] at this
  rw [← this, Relationship.get_relations]
  congr 2
  funext gid
  rw [pairsAt]
  cases r.grouped.get? gid <;> rfl

theorem get_relations_none_rowsOf (r : Relationship σ) (f : Val) :
    rowsOf f (r.get_relations env none) = (pairsAt r.grouped f).map (fun x => (f, x)) := by
  have : r.get_relations env none =
    r.get_relations env (some (env.set.order r.grouped.keys)) := rfl
  rw [this, get_relations_some_rowsOf]
  split
  · rfl
  · rename_i h
    rw [env.set.mem, ← Dict.get?_eq_none_iff] at h
    rw [pairsAt, h]; rfl

theorem mem_get_relations (r : Relationship σ) {f t : Val} {w : Rat} :
    (f, t, w) ∈ r.get_relations env none ↔ (t, w) ∈ pairsAt r.grouped f := by
  have h := get_relations_none_rowsOf env r f
  have : (f, t, w) ∈ rowsOf f (r.get_relations env none) ↔ (f, t, w) ∈ r.get_relations env none := by
    simp [mem_rowsOf]
  rw [← this, h]
  simp

theorem get_relations_perm_iff {r : Relationship σ} {l : List (Val × Val × Rat)} :
    (r.get_relations env none).Perm l ↔
      ∀ f, ((pairsAt r.grouped f).map (fun x => (f, x))).Perm (rowsOf f l) := by
  have h := fun f => get_relations_none_rowsOf env r f
  constructor
  · intro hp f
    rw [← h]
    exact hp.filter _
  · intro hp
    apply perm_of_rowsOf
    intro f
    rw [h]; exact hp f

/-! ### `fancy` indexing -/

theorem fancy_ok {α : Type} {xs : List α} {is : List Nat} (h : ∀ i ∈ is, i < xs.length) :
    fancy xs is = .ok (picked xs is) := by
  induction is with
  | nil => rfl
  | cons i is ih =>
    have hi := h i (by simp)
    have hi2 : xs[i]? = some xs[i] := List.getElem?_eq_getElem hi
    have ih' := ih (fun j hj => h j (by simp [hj]))
    rw [fancy] at ih' ⊢
    rw [List.mapM_cons, hi2, ih']
    show Except.ok _ = Except.ok _
    rw [picked, picked, List.filterMap_cons, hi2]

theorem fancy_eq_ok {α : Type} {xs ys : List α} {is : List Nat} (h : fancy xs is = .ok ys) :
    (∀ i ∈ is, i < xs.length) ∧ ys = picked xs is := by
  have hb : ∀ i ∈ is, i < xs.length := by
    rw [fancy, mapM_ok_iff] at h
    intro i hi
    obtain ⟨b, -, hb⟩ := forall₂_exists_right h hi
    by_contra hc
    rw [List.getElem?_eq_none (by omega)] at hb
    cases hb
  refine ⟨hb, ?_⟩
  rw [fancy_ok hb] at h
  cases h; rfl

theorem picked_zip {α β : Type} {xs : List α} {ys : List β} {is : List Nat}
    (hx : ∀ i ∈ is, i < xs.length) (hy : ∀ i ∈ is, i < ys.length) :
    (picked xs is).zip (picked ys is) = picked (xs.zip ys) is := by
  induction is with
  | nil => rfl
  | cons i is ih =>
    have h1 := hx i (by simp)
    have h2 := hy i (by simp)
    have ih' := ih (fun j hj => hx j (by simp [hj])) (fun j hj => hy j (by simp [hj]))
    simp only [picked, List.filterMap_cons, List.getElem?_eq_getElem h1,
      List.getElem?_eq_getElem h2, List.zip_cons_cons] at ih' ⊢
    rw [ih', List.getElem?_eq_getElem (by rw [List.length_zip]; omega), List.getElem_zip]

theorem picked_map {α β : Type} (f : α → β) (xs : List α) (is : List Nat) :
    (picked xs is).map f = picked (xs.map f) is := by
  rw [picked, picked, List.map_filterMap]
  congr 1
  funext i
  simp

theorem picked_range {α : Type} (xs : List α) : picked xs (List.range xs.length) = xs := by
  have h : ∀ i ∈ List.range xs.length, i < xs.length := by simp
  apply List.ext_getElem?
  intro n
  have hl : (picked xs (List.range xs.length)).length = xs.length := by
    rw [picked_length h, List.length_range]
  by_cases hn : n < xs.length
  · have : picked xs (List.range xs.length) =
        (List.range xs.length).attach.map (fun i => xs[i.1]'(h i.1 i.2)) := by
      rw [picked]
      conv_lhs => rw [← List.attach_map_subtype_val (List.range xs.length)]
      rw [List.filterMap_map]
      rw [← List.filterMap_eq_map]
      congr 1
      funext i
      simp [List.getElem?_eq_getElem (h i.1 i.2)]
    rw [this]
    simp [hn]
  · rw [List.getElem?_eq_none (by omega), List.getElem?_eq_none (by omega)]

theorem picked_perm {α : Type} {xs : List α} {is : List Nat}
    (h : is.Perm (List.range xs.length)) : (picked xs is).Perm xs := by
  have := h.filterMap (fun i => xs[i]?)
  rw [← picked, ← picked, picked_range] at this
  exact this

/-! ### `from_tuples` -/

namespace Relations

theorem runs_flatMap (l : List (Val × Val × Rat)) :
    (runs l).flatMap (fun kv => (kv.2.tos.zip kv.2.weights).map fun x => (kv.1, x)) = l := by
  induction l with
  | nil => rfl
  | cons x l ih =>
    obtain ⟨f, t, w⟩ := x
    simp only [runs]
    cases h : runs l with
    | nil => rw [h] at ih; simp only [List.flatMap_nil] at ih; rw [← ih]; simp
    | cons y gs =>
      obtain ⟨f', r⟩ := y
      rw [h] at ih
      simp only
      split
      · rename_i he
        subst he
        rw [← ih]; simp
      · rw [← ih]; simp

theorem runs_len (l : List (Val × Val × Rat)) :
    ∀ kv ∈ runs l, kv.2.tos.length = kv.2.weights.length := by
  induction l with
  | nil => simp [runs]
  | cons x l ih =>
    obtain ⟨f, t, w⟩ := x
    simp only [runs]
    cases h : runs l with
    | nil => simp
    | cons y gs =>
      obtain ⟨f', r⟩ := y
      rw [h] at ih
      simp only
      split
      · intro kv hkv
        rcases List.mem_cons.1 hkv with rfl | hkv
        · simp [ih (f', r) (by simp)]
        · exact ih kv (by simp [hkv])
      · intro kv hkv
        rcases List.mem_cons.1 hkv with rfl | hkv
        · simp
        · exact ih kv hkv

theorem runs_keys_mem (l : List (Val × Val × Rat)) (f : Val) :
    f ∈ (runs l).map Prod.fst ↔ f ∈ l.map Prod.fst := by
  induction l with
  | nil => simp [runs]
  | cons x l ih =>
    obtain ⟨f0, t, w⟩ := x
    simp only [runs]
    cases h : runs l with
    | nil => rw [h] at ih; simp at ih; simp [ih]
    | cons y gs =>
      obtain ⟨f', r⟩ := y
      rw [h] at ih
      simp only [List.map_cons, List.mem_cons] at ih ⊢
      split
      · subst_vars; simp only [List.map_cons, List.mem_cons]; rw [← ih]; tauto
      · simp only [List.map_cons, List.mem_cons]; rw [← ih]

theorem runs_keys_sorted {l : List (Val × Val × Rat)}
    (hs : (l.map Prod.fst).Pairwise (fun a b => Val.le a b = true)) :
    ((runs l).map Prod.fst).Pairwise (fun a b => Val.le a b = true ∧ a ≠ b) := by
  induction l with
  | nil => simp [runs]
  | cons x l ih =>
    obtain ⟨f, t, w⟩ := x
    rw [List.map_cons, List.pairwise_cons] at hs
    have ih' := ih hs.2
    have hle : ∀ b ∈ (runs l).map Prod.fst, Val.le f b = true := fun b hb =>
      hs.1 b ((runs_keys_mem l b).1 hb)
    simp only [runs]
    cases h : runs l with
    | nil => simp
    | cons y gs =>
      obtain ⟨f', r⟩ := y
      rw [h] at ih' hle
      simp only
      split
      · subst_vars; exact ih'
      · rename_i hne
        rw [List.map_cons] at ih' hle ⊢
        rw [List.map_cons]
        refine List.pairwise_cons.2 ⟨?_, ih'⟩
        intro b hb
        refine ⟨hle b hb, ?_⟩
        rintro rfl
        rcases List.mem_cons.1 hb with hb | hb
        · exact hne hb.symm
        · have h1 := (List.pairwise_cons.1 ih').1 f hb
          exact hne (Val.le_antisymm' h1.1 (hle f' (by simp)))

theorem foldl_set_eq {l : List (Val × Relations)} (d : Dict Val Relations)
    (hn : (d.keys ++ l.map Prod.fst).Nodup) :
    l.foldl (fun d kv => d.set kv.1 kv.2) d = d ++ l := by
  induction l generalizing d with
  | nil => simp
  | cons x l ih =>
    obtain ⟨k, v⟩ := x
    have hk : k ∉ d.keys := by
      intro h
      rw [List.nodup_append] at hn
      exact hn.2.2 k h k (by simp) rfl
    have hset : d.set k v = d ++ [(k, v)] := by
      clear hn ih
      induction d with
      | nil => rfl
      | cons y d ih =>
        obtain ⟨k', v'⟩ := y
        rw [Dict.keys_cons, List.mem_cons, not_or] at hk
        rw [Dict.set, if_neg (fun e => hk.1 e.symm), ih hk.2]; rfl
    rw [List.foldl_cons, hset, ih]
    · simp
    · simpa [Dict.keys] using hn

end Relations

/-- the triples given to `add_relations` -/
def addedRows (froms tos : List Val) (w : Weights) : List (Val × Val × Rat) :=
  froms.zip (tos.zip (w.expand froms.length))

/-- length conditions under which `from_tuples` does not raise -/
def LengthsOk (froms tos : List Val) (w : Weights) : Prop :=
  froms.length ≤ tos.length ∧ froms.length ≤ (w.expand froms.length).length

theorem pairsAt_of_flat {d : Dict Val Relations} (hd : d.WF) (f : Val) :
    (pairsAt d f).map (fun x => (f, x)) =
      rowsOf f (d.flatMap fun kv => (kv.2.tos.zip kv.2.weights).map fun x => (kv.1, x)) := by
  induction d with
  | nil => rfl
  | cons y d ih =>
    obtain ⟨k, v⟩ := y
    simp only [Dict.WF, Dict.keys_cons, List.nodup_cons] at hd
    rw [List.flatMap_cons, rowsOf_append, ← ih hd.2]
    have hp : pairsAt ((k, v) :: d) f = if k = f then v.tos.zip v.weights else pairsAt d f := by
      rw [pairsAt, Dict.get?_cons]
      by_cases h : k = f
      · simp [h]
      · simp only [if_neg h]; rfl
    rw [hp]
    split
    · subst_vars
      have : pairsAt d k = [] := by
        rw [pairsAt, Dict.get?_eq_none_iff.2 hd.1]
      rw [this, rowsOf_map_same]; simp
    · rw [rowsOf_map_ne ‹_›]; rfl

theorem from_tuples_spec {froms tos : List Val} {w : Weights} (hl : LengthsOk froms tos w) :
    ∃ d, Relations.from_tuples env froms tos w = .ok d ∧ GWF d ∧
      (∀ f, ((pairsAt d f).map fun x => (f, x)).Perm (rowsOf f (addedRows froms tos w))) ∧
      (∀ f, f ∈ d.keys ↔ f ∈ froms) := by
  -- the weights array
  obtain ⟨ws, hws, hadd, hwl⟩ : ∃ ws, w.expand froms.length = ws ∧
      addedRows froms tos w = froms.zip (tos.zip ws) ∧ froms.length ≤ ws.length :=
    ⟨_, rfl, rfl, hl.2⟩
  have hp := env.sort.perm froms
  have hs := env.sort.sorted froms
  rw [← picked] at hs
  have hb : ∀ i ∈ env.sort.order froms, i < froms.length := by
    intro i hi; simpa using hp.mem_iff.1 hi
  have hbt : ∀ i ∈ env.sort.order froms, i < tos.length := fun i hi => (hb i hi).trans_le hl.1
  have hbw : ∀ i ∈ env.sort.order froms, i < ws.length := fun i hi => (hb i hi).trans_le hwl
  have hz : (picked froms (env.sort.order froms)).zip
      ((picked tos (env.sort.order froms)).zip (picked ws (env.sort.order froms))) =
      picked (froms.zip (tos.zip ws)) (env.sort.order froms) := by
    rw [picked_zip hbt hbw, picked_zip hb]
    intro i hi
    rw [List.length_zip]
    have := hbt i hi; have := hbw i hi; omega
  set L := picked (froms.zip (tos.zip ws)) (env.sort.order froms) with hL
  have hlen : (froms.zip (tos.zip ws)).length = froms.length := by
    rw [List.length_zip, List.length_zip]; have := hl.1; omega
  have hLp : L.Perm (froms.zip (tos.zip ws)) := picked_perm (by rw [hlen]; exact hp)
  have hfst : (froms.zip (tos.zip ws)).map Prod.fst = froms := by
    apply List.map_fst_zip
    rw [List.length_zip]; have := hl.1; omega
  have hLs : (L.map Prod.fst).Pairwise (fun a b => Val.le a b = true) := by
    rw [hL, picked_map, hfst]; exact hs
  have hnd : ((Relations.runs L).map Prod.fst).Nodup := by
    have := Relations.runs_keys_sorted hLs
    exact this.imp (fun h => h.2)
  have hfold := Relations.foldl_set_eq (l := Relations.runs L) [] (by simpa using hnd)
  have hwf : Dict.WF (Relations.runs L) := hnd
  refine ⟨Relations.runs L, ?_, ⟨hwf, ?_⟩, ?_, ?_⟩
  · rw [Relations.from_tuples]
    simp only [hws, fancy_ok hb, fancy_ok hbt, fancy_ok hbw, bind_ok, hz, hfold]
    rfl
  · intro f rs h
    exact Relations.runs_len L _ (Dict.get?_mem h)
  · intro f
    rw [pairsAt_of_flat hwf, Relations.runs_flatMap, hadd]
    exact hLp.filter _
  · intro f
    rw [Dict.keys, Relations.runs_keys_mem, (hLp.map Prod.fst).mem_iff, hfst]

theorem from_tuples_ok {froms tos : List Val} {w : Weights} {d : Dict Val Relations}
    (h : Relations.from_tuples env froms tos w = .ok d) : LengthsOk froms tos w := by
  have hp := env.sort.perm froms
  have hb : ∀ n, (∀ i ∈ env.sort.order froms, i < n) → froms.length ≤ n := by
    intro n hn
    by_contra hc
    have : froms.length - 1 ∈ env.sort.order froms := by
      rw [hp.mem_iff]; simp; omega
    have := hn _ this
    omega
  rw [Relations.from_tuples] at h
  simp only [bind_eq_ok] at h
  obtain ⟨f, hf, t, ht, w', hw, -⟩ := h
  exact ⟨hb _ (fancy_eq_ok ht).1, hb _ (fancy_eq_ok hw).1⟩

/-! ### `add_relations` -/

theorem unionAt_plus_zip {a b : Relations} (ha : a.tos.length = a.weights.length) :
    (a.plus b).tos.zip (a.plus b).weights = a.tos.zip a.weights ++ b.tos.zip b.weights := by
  simp only [Relations.plus]
  exact List.zip_append ha

theorem add_relations_spec {r : Relationship σ} (hg : GWF r.grouped) {froms tos : List Val}
    {w : Weights} (hl : LengthsOk froms tos w) :
    ∃ r', r.add_relations env froms tos w = .ok r' ∧ r'.seed = r.seed ∧ r'.state = r.state ∧
      GWF r'.grouped ∧
      (∀ f, ((pairsAt r'.grouped f).map fun x => (f, x)).Perm
        (((pairsAt r.grouped f).map fun x => (f, x)) ++ rowsOf f (addedRows froms tos w))) ∧
      (∀ f, f ∈ r'.grouped.keys ↔ f ∈ r.grouped.keys ∨ f ∈ froms) := by
  obtain ⟨d, hd, hdwf, hdp, hdk⟩ := from_tuples_spec env hl
  obtain ⟨m, hm, hmk, hmg⟩ := merge2_total env.set r.grouped d Relations.plus
  refine ⟨{ r with grouped := m }, ?_, rfl, rfl, ⟨?_, ?_⟩, ?_, ?_⟩
  · rw [Relationship.add_relations, hd, bind_ok, merge_2_dicts, hm]; rfl
  · show m.WF
    rw [Dict.WF, hmk]; exact env.set.nodup _
  · intro f rs h
    rw [hmg] at h
    cases h1 : r.grouped.get? f <;> cases h2 : d.get? f <;> rw [h1, h2] at h <;>
      simp only [Spec.unionAt, Option.some.injEq, reduceCtorEq] at h <;> subst h
    · exact hdwf.len f _ h2
    · exact hg.len f _ h1
    · have := hdwf.len f _ h2
      have := hg.len f _ h1
      simp [Relations.plus, *]
  · intro f
    refine List.Perm.trans ?_ ((hdp f).append_left _)
    show ((pairsAt m f).map _).Perm _
    rw [← List.map_append]
    apply List.Perm.map
    rw [pairsAt, pairsAt, pairsAt, hmg]
    cases h1 : r.grouped.get? f <;> cases h2 : d.get? f <;> simp only [Spec.unionAt]
    · simp
    · simp
    · simp
    · rw [unionAt_plus_zip (hg.len f _ h1)]
  · intro f
    show f ∈ m.keys ↔ _
    rw [hmk, env.set.mem, List.mem_append, hdk]

theorem add_relations_ok {r r' : Relationship σ} {froms tos : List Val}
    {w : Weights} (h : r.add_relations env froms tos w = .ok r') : LengthsOk froms tos w := by
  rw [Relationship.add_relations] at h
  obtain ⟨d, hd, -⟩ := bind_eq_ok.1 h
  exact from_tuples_ok env hd

/-! ### `remove_relations` -/

theorem kept_map {α β : Type} (f : α → β) (xs : List α) (is : List Nat) :
    kept (xs.map f) is = (kept xs is).map f := by
  rw [kept, kept, List.zipIdx_map, List.filter_map, List.map_map, List.map_map]
  rfl

theorem zip_fst_snd {α β : Type} (l : List (α × β)) : (l.map Prod.fst).zip (l.map Prod.snd) = l := by
  induction l with
  | nil => rfl
  | cons x l ih => simp [ih]

theorem zipIdx_filter_fst {α : Type} (p : α → Bool) (l : List α) :
    (l.zipIdx.filter (fun x => p x.1)).map Prod.fst = l.filter p := by
  conv_rhs => rw [← List.zipIdx_map_fst 0 l, List.filter_map]
  rfl

/-- `np.delete` on the two parallel arrays is deletion on the array of pairs -/
theorem npDelete_pair {tos : List Val} {ws : List Rat} (hl : tos.length = ws.length)
    {is : List Nat} (hi : ∀ i ∈ is, i < tos.length) :
    npDelete tos is = .ok ((kept (tos.zip ws) is).map Prod.fst) ∧
    npDelete ws is = .ok ((kept (tos.zip ws) is).map Prod.snd) := by
  rw [npDelete_eq hi, npDelete_eq (fun i h => hl ▸ hi i h), ← kept_map, ← kept_map,
    List.map_fst_zip (by omega), List.map_snd_zip (by omega)]
  exact ⟨rfl, rfl⟩

theorem minus_ok {a b : Relations} (ha : a.tos.length = a.weights.length) :
    a.minus b = .ok
      ⟨((a.tos.zip a.weights).filter (fun x => !b.tos.contains x.1)).map Prod.fst,
       ((a.tos.zip a.weights).filter (fun x => !b.tos.contains x.1)).map Prod.snd⟩ := by
  set removed := (a.tos.zipIdx.filter fun x => b.tos.contains x.1).map Prod.snd with hrem
  have hmem : ∀ i, i ∈ removed ↔ ∃ t, a.tos[i]? = some t ∧ t ∈ b.tos := by
    intro i
    rw [hrem, List.mem_map]
    constructor
    · rintro ⟨⟨t, j⟩, h, rfl⟩
      rw [List.mem_filter, List.mem_zipIdx_iff_getElem?] at h
      exact ⟨t, h.1, by simpa using h.2⟩
    · rintro ⟨t, h1, h2⟩
      exact ⟨(t, i), by rw [List.mem_filter, List.mem_zipIdx_iff_getElem?]; simpa using ⟨h1, h2⟩, rfl⟩
  have hlt : ∀ i ∈ removed, i < a.tos.length := by
    intro i hi
    obtain ⟨t, h1, -⟩ := (hmem i).1 hi
    exact (List.getElem?_eq_some_iff.1 h1).1
  obtain ⟨h1, h2⟩ := npDelete_pair ha hlt
  rw [Relations.minus]
  simp only [← hrem, h1, h2, bind_ok]
  have : kept (a.tos.zip a.weights) removed =
      (a.tos.zip a.weights).filter (fun x => !b.tos.contains x.1) := by
    rw [kept, ← zipIdx_filter_fst (fun x : Val × Rat => !b.tos.contains x.1)]
    congr 1
    apply List.filter_congr
    rintro ⟨⟨t, w⟩, i⟩ hx
    rw [List.mem_zipIdx_iff_getElem?] at hx
    have hx' : a.tos[i]? = some t := by
      have := List.getElem?_eq_some_iff.1 hx
      obtain ⟨hi, he⟩ := this
      rw [List.getElem_zip] at he
      rw [List.getElem?_eq_some_iff]
      exact ⟨by rw [List.length_zip] at hi; omega, congrArg Prod.fst he⟩
    have : i ∈ removed ↔ t ∈ b.tos := by
      rw [hmem]
      constructor
      · rintro ⟨t', h, h'⟩; rw [hx'] at h; cases h; exact h'
      · intro h; exact ⟨t, hx', h⟩
    by_cases ht : t ∈ b.tos
    · simp [this.2 ht, ht]
    · have : i ∉ removed := fun h => ht (this.1 h)
      simp [this, ht]
  rw [this]

theorem merge2_congr {κ ν : Type} [DecidableEq κ] (so : SetOrder κ) (d1 d2 : Dict κ ν)
    (g : ν → ν → Py ν) (f : ν → ν → ν)
    (h : ∀ k a b, d1.get? k = some a → d2.get? k = some b → g a b = .ok (f a b)) :
    merge2 so d1 d2 (some g) = merge2 so d1 d2 (some fun a b => .ok (f a b)) := by
  rw [merge2, merge2]
  congr 1
  funext k
  cases h1 : d1.get? k <;> cases h2 : d2.get? k <;> simp only
  rw [h k _ _ h1 h2]

theorem mem_addedRows_scalar {froms tos : List Val} (hl : froms.length ≤ tos.length) {f t : Val}
    {w0 w : Rat} :
    (f, t, w) ∈ addedRows froms tos (.scalar w0) ↔ (f, t) ∈ froms.zip tos ∧ w = w0 := by
  rw [addedRows, Weights.expand]
  induction froms generalizing tos with
  | nil => simp
  | cons a froms ih =>
    cases tos with
    | nil => simp at hl
    | cons b tos =>
      simp only [List.length_cons, Nat.add_le_add_iff_right] at hl
      simp only [List.length_cons, List.replicate_succ, List.zip_cons_cons, List.mem_cons,
        ih hl, Prod.mk.injEq]
      tauto

theorem remove_relations_spec {r : Relationship σ} (hg : GWF r.grouped) {froms tos : List Val}
    (hl : froms.length ≤ tos.length) :
    ∃ r', r.remove_relations env froms tos = .ok r' ∧ r'.seed = r.seed ∧ r'.state = r.state ∧
      GWF r'.grouped ∧
      (∀ f, ((pairsAt r'.grouped f).map fun x => (f, x)).Perm
        (if f ∈ r.grouped.keys then
          ((pairsAt r.grouped f).filter (fun x => decide ((f, x.1) ∉ froms.zip tos))).map
            (fun x => (f, x))
          else rowsOf f (addedRows froms tos (.scalar 0)))) ∧
      (∀ f, f ∈ r'.grouped.keys ↔ f ∈ r.grouped.keys ∨ f ∈ froms) := by
  have hl' : LengthsOk froms tos (.scalar 0) := ⟨hl, by simp [Weights.expand]⟩
  obtain ⟨d, hd, hdwf, hdp, hdk⟩ := from_tuples_spec env hl'
  set mf : Relations → Relations → Relations := fun a b =>
      ⟨((a.tos.zip a.weights).filter (fun x => !b.tos.contains x.1)).map Prod.fst,
       ((a.tos.zip a.weights).filter (fun x => !b.tos.contains x.1)).map Prod.snd⟩ with hmf
  have hcongr := merge2_congr env.set r.grouped d (fun r1 r2 => r1.minus r2) mf
    (fun k a b ha _ => minus_ok (hg.len k a ha))
  obtain ⟨m, hm, hmk, hmg⟩ := merge2_total env.set r.grouped d mf
  have hzip : ∀ a b, (mf a b).tos.zip (mf a b).weights =
      (a.tos.zip a.weights).filter (fun x => !b.tos.contains x.1) := fun a b => zip_fst_snd _
  refine ⟨{ r with grouped := m }, ?_, rfl, rfl, ⟨?_, ?_⟩, ?_, ?_⟩
  · rw [Relationship.remove_relations, hd, bind_ok, merge_2_dicts, hcongr, hm]; rfl
  · show m.WF
    rw [Dict.WF, hmk]; exact env.set.nodup _
  · intro f rs h
    rw [hmg] at h
    cases h1 : r.grouped.get? f <;> cases h2 : d.get? f <;> rw [h1, h2] at h <;>
      simp only [Spec.unionAt, Option.some.injEq, reduceCtorEq] at h <;> subst h
    · exact hdwf.len f _ h2
    · exact hg.len f _ h1
    · simp [hmf]
  · intro f
    show ((pairsAt m f).map _).Perm _
    have hpm : pairsAt m f = match Spec.unionAt mf (r.grouped.get? f) (d.get? f) with
      | some rs => rs.tos.zip rs.weights
      | none => [] := by rw [pairsAt, hmg]
    split
    · rename_i hk
      obtain ⟨a, ha⟩ := Dict.exists_get?_of_mem_keys hk
      apply List.Perm.of_eq
      congr 1
      rw [hpm, ha]
      cases h2 : d.get? f with
      | none =>
        simp only [Spec.unionAt]
        have hf : f ∉ froms := by rw [← hdk, ← Dict.get?_eq_none_iff]; exact h2
        rw [pairsAt, ha]
        symm
        rw [List.filter_eq_self]
        intro x _
        simp only [decide_eq_true_eq]
        exact fun hx => hf (List.of_mem_zip hx).1
      | some b =>
        simp only [Spec.unionAt]
        rw [hzip, pairsAt, ha]
        apply List.filter_congr
        rintro ⟨t, w⟩ _
        have hb : t ∈ b.tos ↔ (f, t) ∈ froms.zip tos := by
          have h1 : (∃ w', (f, t, w') ∈ (pairsAt d f).map (fun x => (f, x))) ↔ t ∈ b.tos := by
            have hlen := hdwf.len f b h2
            rw [pairsAt, h2]
            constructor
            · rintro ⟨w', h⟩
              obtain ⟨x, hx, he⟩ := List.mem_map.1 h
              cases he
              exact (List.of_mem_zip hx).1
            · intro h
              obtain ⟨i, hi, rfl⟩ := List.getElem_of_mem h
              refine ⟨b.weights[i]'(by omega), List.mem_map.2 ⟨(b.tos[i], b.weights[i]'(by omega)), ?_, rfl⟩⟩
              rw [← List.getElem_zip (h := by rw [List.length_zip]; omega)]
              exact List.getElem_mem _
          rw [← h1]
          simp only [(hdp f).mem_iff, mem_rowsOf, and_true, mem_addedRows_scalar hl]
          simp
        by_cases ht : t ∈ b.tos
        · simp [ht, hb.1 ht]
        · have : (f, t) ∉ froms.zip tos := fun h => ht (hb.2 h)
          simp [ht, this]
    · rename_i hk
      rw [← Dict.get?_eq_none_iff] at hk
      refine List.Perm.trans (List.Perm.of_eq ?_) (hdp f)
      congr 1
      rw [hpm, hk]
      rfl
  · intro f
    show f ∈ m.keys ↔ _
    rw [hmk, env.set.mem, List.mem_append, hdk]

theorem remove_relations_ok {r r' : Relationship σ} {froms tos : List Val}
    (h : r.remove_relations env froms tos = .ok r') : froms.length ≤ tos.length := by
  rw [Relationship.remove_relations] at h
  obtain ⟨d, hd, -⟩ := bind_eq_ok.1 h
  exact (from_tuples_ok env hd).1

end Trumania
