import Verif.Props.Relationship

/-!
# Properties C20 to C23, C27, C28 (relationships: one-to-one, pops, weights, stocks)
-/

namespace Trumania

open Relationship

variable {σ : Type} (R : Rng σ)

/-! ### C20 -/

theorem removeGroups_nil (g : Dict Val Relations) : removeGroups g [] = .ok g := rfl

/-- **C20** compared to the rows picked for each request (`base`, what the same call returns
without one_to_one): no `to` is held twice, every returned row is one of the picked ones, every
picked `to` is kept by some row, and all the rows without `to` are kept. -/
theorem C20_one_to_one {r r' : Relationship σ}
    {reqs : Option (List (Val × Val))} {pop discard : Bool} {ow : Option (Dict Val Rat)}
    {rows : List OneRow} (h : r.select_one R reqs pop discard true ow = .ok (rows, r')) :
    ∃ base r₀, r.select_one R reqs false discard false ow = .ok (base, r₀) ∧
      ((Spec.items rows).map Prod.snd).Nodup ∧
      (∀ row ∈ rows, row ∈ base) ∧
      (∀ row ∈ base, ∀ t, row.to_ = some t → ∃ row' ∈ rows, row'.to_ = some t) ∧
      rows.filter (fun x => x.to_.isNone) = base.filter (fun x => x.to_.isNone) := by
  rw [select_one] at h
  split at h
  · cases h
  rename_i hm
  obtain ⟨⟨out, s⟩, ho, h⟩ := bind_eq_ok.1 h
  refine ⟨out, { r with state := s }, ?_, ?_⟩
  · rw [select_one, if_neg hm, ho]
    simp only [bind_ok]
    split
    · rename_i h0; rw [h0]
    · rfl
  simp only at h
  split at h
  · rename_i h0
    subst h0
    cases h
    simp [Spec.items]
  · obtain ⟨g, -, h⟩ := bind_eq_ok.1 h
    simp only [if_true, Except.ok.injEq, Prod.mk.injEq] at h
    obtain ⟨rfl, -⟩ := h
    obtain ⟨present, h1, h2, h3, h4⟩ := oneToOne_spec R s out
    refine ⟨oneToOne_items_nodup R s out, fun row => mem_of_mem_oneToOne R, ?_, ?_⟩
    · intro row hrow t ht
      have := h4 row hrow (by simp [ht])
      obtain ⟨row', hr', he⟩ := List.mem_map.1 this
      refine ⟨row', ?_, he.trans ht⟩
      rw [h1]
      exact List.mem_append_left _ hr'
    · rw [h1, List.filter_append, List.filter_filter]
      rw [List.filter_eq_nil_iff (l := present) |>.2]
      · simp
      · intro x hx
        have := (h3 x hx).2
        cases hx : x.to_ with
        | none => exact absurd hx this
        | some _ => simp

/-! ### C21 -/

/-- **C21** with `remove_selected`, the content splits into what remains and what was removed. The
removed relations are picked ones: each returned (from, to) loses one stored copy, copies being
counted once when two rows designate the same stored relation; with one_to_one the removed
(from, to) pairs are exactly the returned ones. -/
theorem C21_pop_removes_returned {r r' : Relationship σ} (hr : Reachable R r) (env env' : Orders)
    {reqs : Option (List (Val × Val))} {discard o2o : Bool} {ow : Option (Dict Val Rat)}
    {rows : List OneRow} (h : r.select_one R reqs true discard o2o ow = .ok (rows, r')) :
    ∃ removed, (r.get_relations env).Perm (r'.get_relations env' ++ removed) ∧
      (∀ it, it ∈ Spec.items rows ↔ it ∈ removed.map fun x => (x.1, x.2.1)) ∧
      (removed.map fun x => (x.1, x.2.1)).Subperm (Spec.items rows) ∧
      removed.length = (rows.filterMap fun x => x.idx.map fun i => (x.from_, i)).dedup.length ∧
      (o2o = true → removed.map (fun x => (x.1, x.2.1)) = Spec.items rows) := by
  obtain ⟨-, outs, hs⟩ := select_one_ok R hr.gwf h
  have hp := removed_perm (r := r) (r' := r') env env' (L := hits rows)
    (fun f => by rw [hs.pairs f]; rfl)
  obtain ⟨k1, k2⟩ := storedAt_hits hr.gwf hs.rows_ok
  refine ⟨storedAt r.grouped (hits rows).dedup, hp, ?_, ?_, ?_, ?_⟩
  · intro it
    rw [← k1, List.mem_map, List.mem_map]
    simp only [mem_items_of_storedAt]
  · rw [← k1]
    apply List.Sublist.subperm
    exact ((List.dedup_sublist _).filterMap _).map _
  · apply storedAt_length
    intro x hx
    obtain ⟨rs, h1, h2⟩ := hits_mem hs.rows_ok (List.mem_dedup.1 hx)
    rw [pairsAt_length hr.gwf h1]
    exact h2
  · intro ho
    rw [List.dedup_eq_self.2, k1]
    apply hits_nodup_of_items hr.gwf hs.rows_ok
    rcases hs.rows_eq with ⟨hf, -⟩ | ⟨-, s, hrows⟩
    · rw [ho] at hf; cases hf
    · rw [hrows]; exact oneToOne_items_nodup R s _

/-- **C21** a from left without relations by a pop disappears from the dictionary. -/
theorem C21_emptied_from_disappears {r r' : Relationship σ} (hr : Reachable R r) (env' : Orders)
    {reqs : Option (List (Val × Val))} {discard o2o : Bool} {ow : Option (Dict Val Rat)}
    {rows : List OneRow} (h : r.select_one R reqs true discard o2o ow = .ok (rows, r'))
    {f t : Val} (ht : (f, t) ∈ Spec.items rows) (hf : ¬ Spec.Has (r'.get_relations env') f) :
    f ∉ r'.grouped.keys := by
  obtain ⟨-, outs, hs⟩ := select_one_ok R hr.gwf h
  rw [Spec.items, List.mem_filterMap] at ht
  obtain ⟨row, hrow, he⟩ := ht
  have hok := hs.rows_ok row hrow
  cases hok with
  | blank => simp at he
  | @hit l f' rs i t' hg ht' hw =>
    simp only [Option.map_some, Option.some.injEq, Prod.mk.injEq] at he
    obtain ⟨rfl, rfl⟩ := he
    have := hs.emptied rfl _ hrow (by simp)
    apply this
    rw [List.eq_nil_iff_forall_not_mem]
    rintro ⟨t, w⟩ hm
    exact hf ⟨t, w, (mem_get_relations env' r').2 hm⟩

/-- a pop where two requests designate the same stored relation: one copy is removed -/
example : exRel.select_one Rng.counter (some [(.num 7, .str "b"), (.num 8, .str "b"),
    (.num 9, .str "a")]) true false false none =
    .ok ([⟨.num 7, .str "b", some 0, some (.str "x")⟩, ⟨.num 8, .str "b", some 0, some (.str "x")⟩,
      ⟨.num 9, .str "a", some 0, some (.str "x")⟩],
      ⟨1, 2, [(.str "a", ⟨[.str "y", .str "x"], [2, 3]⟩)]⟩) := by decide +kernel

/-- the same pop with one_to_one -/
example : exRel.select_one Rng.counter (some [(.num 7, .str "b"), (.num 8, .str "b"),
    (.num 9, .str "a")]) true false true none =
    .ok ([⟨.num 7, .str "b", some 0, some (.str "x")⟩],
      ⟨1, 3, [(.str "a", ⟨[.str "x", .str "y", .str "x"], [1, 2, 3]⟩)]⟩) := by decide +kernel

/-! ### C22 -/

/-- weight seen by a selection: the overridden one if any -/
def Spec.seenWeight (ow : Option (Dict Val Rat)) (t : Val) (w : Rat) : Option Rat :=
  match ow with
  | none => some w
  | some d => d.get? t

/-- **C22** when a from has several relations, the selected one has a stored copy whose (overridden)
weight is not 0. Holds with and without one_to_one and pops. -/
theorem C22_zero_weight_never_selected {r r' : Relationship σ} (hr : Reachable R r) (env : Orders)
    {reqs : Option (List (Val × Val))} {pop discard o2o : Bool} {ow : Option (Dict Val Rat)}
    {rows : List OneRow} (h : r.select_one R reqs pop discard o2o ow = .ok (rows, r'))
    {f t : Val} (ht : (f, t) ∈ Spec.items rows)
    (h2 : 2 ≤ (Spec.tosOf (r.get_relations env) f).length) :
    ∃ w w', (f, t, w) ∈ r.get_relations env ∧ Spec.seenWeight ow t w = some w' ∧ w' ≠ 0 := by
  obtain ⟨-, outs, hs⟩ := select_one_ok R hr.gwf h
  rw [Spec.items, List.mem_filterMap] at ht
  obtain ⟨row, hrow, he⟩ := ht
  have hok := hs.rows_ok row hrow
  cases hok with
  | blank => simp at he
  | @hit l f' rs i t' hg ht' hw =>
    simp only [Option.map_some, Option.some.injEq, Prod.mk.injEq] at he
    obtain ⟨rfl, rfl⟩ := he
    have hlen : 2 ≤ rs.tos.length := by
      rw [Spec.tosOf, List.length_map] at h2
      have := congrArg List.length (get_relations_none_rowsOf env r f')
      rw [rowsOf, List.length_map, pairsAt_length hr.gwf hg] at this
      rw [this] at h2
      exact h2
    obtain ⟨w', hw', hne⟩ := hw hlen
    obtain ⟨w, hw1, hw2⟩ := pairsAt_getElem? hr.gwf hg ht'
    refine ⟨w, w', (mem_get_relations env r).2 (List.mem_of_getElem? hw1), ?_, hne⟩
    cases ow with
    | none => rw [effWeight, hw2] at hw'; exact hw'
    | some d => rw [effWeight, ht'] at hw'; exact hw'

/-- the hypothesis of several relations is needed: the only relation of a from is selected even
with weight 0 (`exRel` holds ("b", "x") with weight 0) -/
example : ∃ rows r', exRel.select_one Rng.counter (some [(.num 1, .str "b")]) false true false none =
    .ok (rows, r') ∧ Spec.items rows = [(.str "b", .str "x")] ∧
    Spec.tosOf (exRel.get_relations Orders.a) (.str "b") = [.str "x"] :=
  ⟨[⟨.num 1, .str "b", some 0, some (.str "x")⟩], exRel, by decide +kernel, by decide +kernel,
    by decide +kernel⟩

/-- the hypotheses of C22 are met by the first request of this call, with overridden weights -/
example : ∃ rows r', exRel.select_one Rng.counter (some [(.num 1, .str "a")]) false true false
    (some [(.str "y", 1), (.str "x", 0)]) = .ok (rows, r') ∧
    Spec.items rows = [(.str "a", .str "y")] ∧
    2 ≤ (Spec.tosOf (exRel.get_relations Orders.a) (.str "a")).length :=
  ⟨[⟨.num 1, .str "a", some 1, some (.str "y")⟩], { exRel with state := 2 }, by decide +kernel,
    by decide +kernel, by decide +kernel⟩

/-! ### C23 -/

/-- a computation that does not raise `AssertionError` -/
def NoAssert {α : Type} (x : Py α) : Prop := x ≠ .error .assertionError

theorem NoAssert.ok {α : Type} (a : α) : NoAssert (.ok a : Py α) := by intro h; cases h

theorem NoAssert.bind {α β : Type} {x : Py α} {f : α → Py β} (hx : NoAssert x)
    (hf : ∀ a, x = .ok a → NoAssert (f a)) : NoAssert (x >>= f) := by
  cases x with
  | error e => intro h; apply hx; rw [bind_error] at h; cases h; rfl
  | ok a => exact hf a rfl

theorem NoAssert.mapM {α β : Type} {f : α → Py β} (l : List α) (h : ∀ a, NoAssert (f a)) :
    NoAssert (l.mapM f) := by
  induction l with
  | nil => exact NoAssert.ok _
  | cons a l ih =>
    rw [List.mapM_cons]
    exact (h a).bind fun b _ => ih.bind fun bs _ => NoAssert.ok _

theorem noAssert_get {κ ν : Type} [DecidableEq κ] (d : Dict κ ν) (k : κ) : NoAssert (d.get k) := by
  rw [Dict.get]; split <;> intro h <;> cases h

theorem noAssert_npDelete {α : Type} (xs : List α) (is : List Nat) : NoAssert (npDelete xs is) := by
  rw [npDelete]; split <;> intro h <;> cases h

theorem noAssert_choiceP (s : σ) (n size : Nat) (p : List Rat) : NoAssert (R.choiceP s n size p) := by
  rw [Rng.choiceP]
  intro h
  repeat' split at h
  all_goals cases h

theorem noAssert_pick_one (s : σ) (rs : Relations) (ow : Option (Dict Val Rat)) :
    NoAssert (Relations.pick_one R s rs ow) := by
  rw [Relations.pick_one.eq_def]
  split
  · exact NoAssert.ok _
  · exact NoAssert.ok _
  · refine NoAssert.bind ?_ fun ws _ => NoAssert.bind ?_ fun p _ =>
      NoAssert.bind (noAssert_choiceP R _ _ _ _) fun x _ => ?_
    · cases ow with
      | none => exact NoAssert.ok _
      | some d => exact NoAssert.mapM _ fun t => noAssert_get d t
    · rw [Relations.normed]; split <;> intro h <;> cases h
    · intro h
      repeat' split at h
      all_goals cases h

theorem noAssert_selectResults (g : Dict Val Relations) (discard : Bool)
    (ow : Option (Dict Val Rat)) (s : σ) (reqs : List (Val × Val)) :
    NoAssert (selectResults R g discard ow s reqs) := by
  induction reqs generalizing s with
  | nil => exact NoAssert.ok _
  | cons q reqs ih =>
    obtain ⟨l, f⟩ := q
    rw [selectResults]
    refine NoAssert.bind ?_ fun x _ => NoAssert.bind (ih _) fun y _ => NoAssert.ok _
    rw [selectRow.eq_def]
    split
    · refine NoAssert.bind (noAssert_pick_one R _ _ _) fun x _ => ?_
      intro h
      repeat' split at h
      all_goals cases h
    · exact NoAssert.ok _

theorem noAssert_removeGroups (g : Dict Val Relations) (groups : List (Val × List Nat)) :
    NoAssert (removeGroups g groups) := by
  induction groups generalizing g with
  | nil => exact NoAssert.ok _
  | cons x groups ih =>
    obtain ⟨f, is⟩ := x
    rw [removeGroups]
    refine (noAssert_get g f).bind fun rs _ => NoAssert.bind ?_ fun rs' _ => ih _
    rw [Relations.remove_inplace]
    exact (noAssert_npDelete _ _).bind fun a _ => (noAssert_npDelete _ _).bind fun b _ => NoAssert.ok _

/-- **C23** `select_one` raises `AssertionError` exactly when some `to` of the content has no
overridden weight. (An error carries no new state: the check comes before any draw.) -/
theorem C23_overridden_weights_cover_all_tos {r : Relationship σ} (hr : Reachable R r) (env : Orders)
    (reqs : Option (List (Val × Val))) (pop discard o2o : Bool) (d : Dict Val Rat) :
    r.select_one R reqs pop discard o2o (some d) = .error .assertionError ↔
      ∃ f t w, (f, t, w) ∈ r.get_relations env ∧ t ∉ d.keys := by
  have hm : r.missingKeys (some d) ≠ [] ↔ ∃ f t w, (f, t, w) ∈ r.get_relations env ∧ t ∉ d.keys := by
    rw [missingKeys]
    constructor
    · intro h
      obtain ⟨t, ht⟩ := List.exists_mem_of_ne_nil _ h
      rw [List.mem_filter] at ht
      obtain ⟨f, w, hfw⟩ := (C17_unique_tos R hr env t).1 ht.1
      exact ⟨f, t, w, hfw, by simpa using ht.2⟩
    · rintro ⟨f, t, w, h1, h2⟩
      apply List.ne_nil_of_mem (a := t)
      rw [List.mem_filter]
      exact ⟨(C17_unique_tos R hr env t).2 ⟨f, w, h1⟩, by simpa using h2⟩
  rw [← hm]
  constructor
  · intro h hc
    rw [select_one, if_neg (by simpa using hc)] at h
    refine absurd h (NoAssert.bind (noAssert_selectResults R _ _ _ _ _) fun x _ => ?_)
    obtain ⟨out, s⟩ := x
    simp only
    split
    · exact NoAssert.ok _
    · exact (noAssert_removeGroups _ _).bind fun g _ => NoAssert.ok _
  · intro h
    rw [select_one, if_pos h]

/-- **C23** `select_one` without overridden weights never raises `AssertionError`. -/
theorem C23_no_override_no_assert (r : Relationship σ)
    (reqs : Option (List (Val × Val))) (pop discard o2o : Bool) :
    r.select_one R reqs pop discard o2o none ≠ .error .assertionError := by
  rw [select_one, if_neg (by simp [missingKeys])]
  refine NoAssert.bind (noAssert_selectResults R _ _ _ _ _) fun x _ => ?_
  obtain ⟨out, s⟩ := x
  simp only
  split
  · exact NoAssert.ok _
  · exact (noAssert_removeGroups _ _).bind fun g _ => NoAssert.ok _

/-- both sides of C23 happen: "y" is never requested here but its weight is missing -/
example : exRel.select_one Rng.counter (some [(.num 1, .str "b")]) false true false
    (some [(.str "x", 1)]) = .error .assertionError := by decide +kernel

/-! ### C27 -/

/-- histories of a stock: additions and one-to-one pops, with the items added and returned so far -/
inductive Spec.Stock {σ : Type} (R : Rng σ) :
    Relationship σ → List (Val × Val) → List (Val × Val) → Prop
  | new (seed : Int) : Stock R (Relationship.new R seed) [] []
  | add {r r' : Relationship σ} {added returned : List (Val × Val)} {c : AddCall} (env : Orders) :
      Stock R r added returned → AddCall.exec r (c, env) = .ok r' →
      Stock R r' (added ++ (Spec.added c).map fun x => (x.1, x.2.1)) returned
  | pop {r r' : Relationship σ} {added returned : List (Val × Val)}
      {reqs : Option (List (Val × Val))} {discard : Bool} {ow : Option (Dict Val Rat)}
      {rows : List OneRow} :
      Stock R r added returned → r.select_one R reqs true discard true ow = .ok (rows, r') →
      Stock R r' added (returned ++ Spec.items rows)

theorem Spec.Stock.reachable {r : Relationship σ} {added returned : List (Val × Val)}
    (h : Spec.Stock R r added returned) : Reachable R r := by
  induction h with
  | new seed => exact Reachable.new seed
  | add env _ h ih => exact reachable_addCall R ih h
  | pop _ h ih => exact ih.selectOne h

/-- **C27** the items in stock plus the items ever returned are exactly the items ever added. -/
theorem C27_stock_conserved {r : Relationship σ} {added returned : List (Val × Val)}
    (h : Spec.Stock R r added returned) (env : Orders) :
    ((r.get_relations env).map (fun x => (x.1, x.2.1)) ++ returned).Perm added := by
  induction h with
  | new seed =>
    have := C16_content_of_additions R seed [] (r := Relationship.new R seed) rfl env
    simp only [List.flatMap_nil, List.perm_nil] at this
    rw [this]; simp
  | @add r r' added returned c e hs h ih =>
    have h1 := (C16_step R hs.reachable h env env).map (fun x => (x.1, x.2.1))
    rw [List.map_append] at h1
    refine (h1.append_right _).trans ?_
    rw [List.append_assoc]
    refine (List.Perm.append_left _ List.perm_append_comm).trans ?_
    rw [← List.append_assoc]
    exact ih.append_right _
  | @pop r r' added returned reqs discard ow rows hs h ih =>
    obtain ⟨removed, h1, -, -, -, h2⟩ := C21_pop_removes_returned R hs.reachable env env h
    have h1 := h1.map (fun x => (x.1, x.2.1))
    rw [List.map_append, h2 rfl] at h1
    refine List.Perm.trans ?_ ih
    refine List.Perm.trans ?_ (h1.symm.append_right _)
    rw [List.append_assoc]
    exact List.Perm.append_left _ List.perm_append_comm

/-- a history with an addition and a pop that returns an item -/
example : ∃ r, Spec.Stock Rng.counter r
    [(.str "a", .str "x"), (.str "a", .str "y"), (.str "b", .str "z")] [(.str "b", .str "z")] ∧
    r.get_relations Orders.a = [(.str "a", .str "x", 1), (.str "a", .str "y", 1)] := by
  refine ⟨⟨1, 2, [(.str "a", ⟨[.str "x", .str "y"], [1, 1]⟩)]⟩, ?_, by decide +kernel⟩
  have h1 := (Spec.Stock.new (R := Rng.counter) 1).add Orders.a
    (c := .grouped [.str "a", .str "b"] [[.str "x", .str "y"], [.str "z"]])
    (r' := ⟨1, 1, [(.str "a", ⟨[.str "x", .str "y"], [1, 1]⟩), (.str "b", ⟨[.str "z"], [1]⟩)]⟩)
    (by decide +kernel)
  exact h1.pop (reqs := some [(.num 1, .str "b")]) (discard := true) (ow := none)
    (rows := [⟨.num 1, .str "b", some 0, some (.str "z")⟩]) (by decide +kernel)

/-! ### C28 -/

/-- **C28** `select_all_horizontal` returns one row per requested from that has relations, holding
all its tos with multiplicity. -/
theorem C28_select_all_horizontal (r : Relationship σ) (env env' : Orders)
    (froms : List Val) :
    let res := r.select_all_horizontal env froms
    (res.map Prod.fst).Nodup ∧
    (∀ f, f ∈ res.map Prod.fst ↔ f ∈ froms ∧ Spec.Has (r.get_relations env') f) ∧
    (∀ x ∈ res, x.2.Perm (Spec.tosOf (r.get_relations env') x.1)) := by
  have hp := C17_get_relations_some r env env' froms
  have hk : (r.select_all_horizontal env froms).map Prod.fst =
      uniq ((r.get_relations env (some froms)).map Prod.fst) := by
    rw [select_all_horizontal, List.map_map]
    simp [Function.comp_def]
  have hmem : ∀ f, f ∈ uniq ((r.get_relations env (some froms)).map Prod.fst) ↔
      f ∈ froms ∧ Spec.Has (r.get_relations env') f := by
    intro f
    rw [mem_uniq, List.mem_map]
    constructor
    · rintro ⟨⟨f', t, w⟩, hx, rfl⟩
      have := hp.mem_iff.1 hx
      rw [List.mem_filter] at this
      exact ⟨by simpa using this.2, t, w, this.1⟩
    · rintro ⟨h1, t, w, h2⟩
      exact ⟨(f, t, w), hp.mem_iff.2 (List.mem_filter.2 ⟨h2, by simpa using h1⟩), rfl⟩
  refine ⟨?_, ?_, ?_⟩
  · rw [hk]; exact uniq_nodup _
  · intro f; rw [hk, hmem]
  · intro x hx
    rw [select_all_horizontal, List.mem_map] at hx
    obtain ⟨f, hf, rfl⟩ := hx
    have hf' := (hmem f).1 hf
    simp only
    rw [Spec.tosOf]
    apply List.Perm.map
    refine (hp.filter _).trans ?_
    rw [List.filter_filter, List.Perm.congr_left (List.Perm.of_eq (List.filter_congr (q := fun x => decide (x.1 = f)) ?_))]
    intro y _
    by_cases hy : y.1 = f
    · simp [hy, hf'.1]
    · simp [hy]

example : exRel.select_all_horizontal Orders.a [.str "b", .str "a", .str "z", .str "a"] =
    [(.str "b", [.str "x"]), (.str "a", [.str "x", .str "y", .str "x"])] := by decide +kernel

end Trumania
