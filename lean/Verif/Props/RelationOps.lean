import Verif.Props.SelectOps

/-!
# Property C93 (what the operations on relationships add to them)
-/

namespace Trumania
open Spec World Relationship
variable {σ γ : Type} {env : Env σ γ}

theorem onRel_eq_ok {rel : Nat} {f : Relationship σ → Frame → Py (Relationship σ)} {data : Frame}
    {x : Frame × Logs} {w w' : World σ γ} (h : Ops.onRel rel f data w = .ok x w') :
    x = (data, []) ∧ ((data.rows = [] ∧ w' = w) ∨ ∃ r r', data.rows ≠ [] ∧ w.rels[rel]? = some r ∧
      f r data = .ok r' ∧ w' = { w with rels := w.rels.set rel r' }) := by
  obtain ⟨h1, rfl⟩ := sideEffect_eq_ok.1 h
  refine ⟨rfl, ?_⟩
  split at h1
  · rename_i he
    obtain ⟨-, rfl⟩ := Act.pure_eq_ok.1 h1
    exact .inl ⟨he, rfl⟩
  · rename_i he
    obtain ⟨r, w1, h2, h3⟩ := Act.bind_eq_ok.1 h1
    obtain ⟨k2, rfl⟩ := getRel_eq_ok.1 h2
    obtain ⟨r', w2, h4, h5⟩ := Act.bind_eq_ok.1 h3
    obtain ⟨k4, rfl⟩ := Act.ofPy_eq_ok.1 h4
    exact .inr ⟨r, r', he, k2, k4, setRel_eq_ok.1 h5⟩

theorem set_self {α : Type} {l : List α} {i : Nat} {a : α} (h : l[i]? = some a) : l.set i a = l := by
  obtain ⟨hi, rfl⟩ := List.getElem?_eq_some_iff.1 h
  exact List.set_getElem_self hi

theorem world_set_self {w : World σ γ} {rel : Nat} {r : Relationship σ} (h : w.rels[rel]? = some r) :
    w = { w with rels := w.rels.set rel r } := by
  rw [set_self h]

theorem added_pairs {α : Type} (l : List α) (f t : α → Val) :
    Spec.added (.relations (l.map f) (l.map t) (.scalar 1)) = l.map fun x => (f x, t x, 1) := by
  rw [added_relations, addedRows, Weights.expand]
  induction l with
  | nil => rfl
  | cons a l ih => simpa [List.replicate_succ] using ih

/-- **C93** `add`: the relationship gains one relation of weight 1 per row, from the id in the one field
to the id in the other; the story data, and all the other objects, stay as they are. -/
theorem C93_add {rel : Nat} {fromField itemField : String} {data out : Frame} {logs : Logs}
    {w w' : World σ γ} {r : Relationship σ} (hrel : w.rels[rel]? = some r)
    (hreach : Reachable env.R r) (o o' : Orders)
    (h : Ops.relAdd env rel fromField itemField data w = .ok (out, logs) w') :
    out = data ∧ logs = [] ∧ ∃ r', w' = { w with rels := w.rels.set rel r' } ∧
      Reachable env.R r' ∧
      (r'.get_relations o').Perm (r.get_relations o ++ data.rows.map fun x =>
        (idIn (cell data x fromField), idIn (cell data x itemField), 1)) := by
  obtain ⟨hx, h'⟩ := onRel_eq_ok h
  clear h
  cases hx
  refine ⟨rfl, rfl, ?_⟩
  rcases h' with ⟨he, rfl⟩ | ⟨r0, r', -, h2, h3, rfl⟩
  · refine ⟨r, world_set_self hrel, hreach, ?_⟩
    rw [he, List.map_nil, List.append_nil, get_relations_perm_iff]
    intro f
    rw [get_relations_none_rowsOf]
  · rw [hrel] at h2
    cases h2
    obtain ⟨froms, k1, h3⟩ := bind_eq_ok.1 h3
    obtain ⟨items, k2, k3⟩ := bind_eq_ok.1 h3
    obtain ⟨rfl, -⟩ := idColumn_eq_map k1
    obtain ⟨rfl, -⟩ := idColumn_eq_map k2
    refine ⟨r', rfl, .add _ hreach k3, ?_⟩
    have := C16_step env.R hreach (c := .relations _ _ (.scalar 1)) (env := env.orders) k3 o o'
    rwa [added_pairs] at this

/-- **C93** `add_grouped`: the relationship gains one relation of weight 1 per element of the list of
each row. -/
theorem C93_add_grouped {rel : Nat} {fromField groupedField : String} {data out : Frame} {logs : Logs}
    {w w' : World σ γ} {r : Relationship σ} (hrel : w.rels[rel]? = some r)
    (hreach : Reachable env.R r) (o o' : Orders)
    (h : Ops.relAddGrouped env rel fromField groupedField data w = .ok (out, logs) w') :
    out = data ∧ logs = [] ∧ ∃ r', w' = { w with rels := w.rels.set rel r' } ∧
      Reachable env.R r' ∧
      (r'.get_relations o').Perm (r.get_relations o ++ data.rows.flatMap fun x =>
        (listIn (cell data x groupedField)).map fun t => (idIn (cell data x fromField), t, 1)) := by
  obtain ⟨hx, h'⟩ := onRel_eq_ok h
  clear h
  cases hx
  refine ⟨rfl, rfl, ?_⟩
  rcases h' with ⟨he, rfl⟩ | ⟨r0, r', -, h2, h3, rfl⟩
  · refine ⟨r, world_set_self hrel, hreach, ?_⟩
    rw [he, List.flatMap_nil, List.append_nil, get_relations_perm_iff]
    intro f
    rw [get_relations_none_rowsOf]
  · rw [hrel] at h2
    cases h2
    obtain ⟨cells, k1, h3⟩ := bind_eq_ok.1 h3
    obtain ⟨items, k2, h3⟩ := bind_eq_ok.1 h3
    obtain ⟨froms, k4, k3⟩ := bind_eq_ok.1 h3
    obtain ⟨rfl, -⟩ := idColumn_eq_map k4
    have e1 := Frame.col_eq_map k1
    subst e1
    have k2 := mapM_ok_iff.1 k2
    rw [List.forall₂_map_left_iff] at k2
    have hitems : items = data.rows.map fun x => listIn (cell data x groupedField) := by
      clear * - k2
      generalize data.rows = rows at k2
      induction k2 with
      | nil => rfl
      | @cons x v rows vs hx _ ih =>
        rw [List.map_cons, ← ih]
        cases hc : cell data x groupedField with
        | scalar _ => rw [hc] at hx; cases hx
        | list u => rw [hc] at hx; cases hx; rfl
    subst hitems
    refine ⟨r', rfl, .addGrouped _ hreach k3, ?_⟩
    have := C16_step env.R hreach (c := .grouped _ _) (env := env.orders) k3 o o'
    rw [added, List.zip_map', List.flatMap_map] at this
    exact this

/-- **C93** both succeed on data with the two fields, ids in the one, and ids (lists) in the other. -/
theorem C93_additions_succeed {rel : Nat} {fromField itemField groupedField : String} {data : Frame}
    {w : World σ γ} {r : Relationship σ} (hrel : w.rels[rel]? = some r)
    (hreach : Reachable env.R r)
    {froms : List Cell} (hf : data.col fromField = .ok froms) (hfs : ∀ c ∈ froms, ∃ v, c = .scalar v) :
    (∀ items, data.col itemField = .ok items → (∀ c ∈ items, ∃ v, c = .scalar v) →
      ∃ x w', Ops.relAdd env rel fromField itemField data w = .ok x w') ∧
    (∀ items, data.col groupedField = .ok items → (∀ c ∈ items, ∃ l, c = .list l) →
      ∃ x w', Ops.relAddGrouped env rel fromField groupedField data w = .ok x w') := by
  have hcol : ∀ (cs : List Cell), (∀ c ∈ cs, ∃ v, c = .scalar v) →
      ∃ vs, cs.mapM Cell.asVal = .ok vs ∧ vs.length = cs.length := by
    intro cs hc
    refine ⟨cs.map idIn, mapM_ok_iff.2 ?_, by simp⟩
    rw [List.forall₂_map_right_iff, List.forall₂_same]
    intro c hcm
    obtain ⟨v, rfl⟩ := hc c hcm
    rfl
  have hlist : ∀ (cs : List Cell), (∀ c ∈ cs, ∃ l, c = .list l) →
      ∃ vs, cs.mapM Cell.asList = .ok vs := by
    intro cs hc
    refine ⟨cs.map listIn, mapM_ok_iff.2 ?_⟩
    rw [List.forall₂_map_right_iff, List.forall₂_same]
    intro c hcm
    obtain ⟨v, rfl⟩ := hc c hcm
    rfl
  obtain ⟨fs, hfs1, hfs2⟩ := hcol froms hfs
  have hlen : ∀ {f cs}, data.col f = .ok cs → cs.length = data.rows.length := by
    intro f cs hc
    have := Frame.col_eq_map hc
    rw [this, List.length_map]
  have hcase : ∀ f : Relationship σ → Frame → Py (Relationship σ), (∃ r', f r data = .ok r') →
      ∃ x w', Ops.onRel rel f data w = .ok x w' := by
    rintro f ⟨r', hr'⟩
    by_cases he : data.rows = []
    · exact ⟨_, w, sideEffect_eq_ok.2 ⟨by rw [if_pos he]; rfl, rfl⟩⟩
    · refine ⟨_, { w with rels := w.rels.set rel r' }, sideEffect_eq_ok.2 ⟨?_, rfl⟩⟩
      rw [if_neg he]
      exact Act.bind_eq_ok.2 ⟨r, w, getRel_eq_ok.2 ⟨hrel, rfl⟩, Act.bind_eq_ok.2 ⟨r', w,
        Act.ofPy_eq_ok.2 ⟨hr', rfl⟩, setRel_eq_ok.2 rfl⟩⟩
  constructor
  · intro items hi his
    obtain ⟨is, his1, his2⟩ := hcol items his
    apply hcase
    obtain ⟨r', hr'⟩ := (C16_additions_total env.R hreach (.relations fs is (.scalar 1)) env.orders).2
      ⟨by rw [hfs2, his2, hlen hf, hlen hi], by intro ws hw; cases hw⟩
    refine ⟨r', bind_eq_ok.2 ⟨fs, bind_eq_ok.2 ⟨_, hf, hfs1⟩, bind_eq_ok.2 ⟨is, bind_eq_ok.2 ⟨_, hi, his1⟩,
      hr'⟩⟩⟩
  · intro items hi his
    obtain ⟨is, his1⟩ := hlist items his
    apply hcase
    obtain ⟨r', hr'⟩ := (C16_additions_total env.R hreach (.grouped fs is) env.orders).2 trivial
    exact ⟨r', bind_eq_ok.2 ⟨items, hi, bind_eq_ok.2 ⟨is, his1, bind_eq_ok.2 ⟨fs,
      bind_eq_ok.2 ⟨_, hf, hfs1⟩, hr'⟩⟩⟩⟩

/-- **C93** (what the code does) `remove` never removes a relation: on story data with at least one row it
raises, and leaves everything as it is. Missing for the full claim: a removal that works. -/
theorem C93_remove_partial {rel : Nat} {fromField itemField : String} {data : Frame} {w : World σ γ} :
    (data.rows = [] ∧ Ops.relRemove rel fromField itemField data w = .ok (data, []) w) ∨
    (data.rows ≠ [] ∧ ∃ e, Ops.relRemove rel fromField itemField data w = .error e w) := by
  by_cases he : data.rows = []
  · refine .inl ⟨he, ?_⟩
    rw [Ops.relRemove, Ops.onRel]
    exact sideEffect_eq_ok.2 ⟨by rw [if_pos he]; rfl, rfl⟩
  · refine .inr ⟨he, ?_⟩
    have hpy : ∃ e, (do
        let _ ← data.col fromField
        let _ ← data.col itemField
        .error .attributeError : Py (Relationship σ)) = .error e := by
      cases data.col fromField with
      | error e => exact ⟨e, rfl⟩
      | ok a =>
        cases data.col itemField with
        | error e => exact ⟨e, rfl⟩
        | ok b => exact ⟨_, rfl⟩
    obtain ⟨e, hpy⟩ := hpy
    rw [Ops.relRemove, Ops.onRel, Ops.sideEffect]
    simp only [he, if_false]
    cases hr : w.rels[rel]? with
    | none =>
      refine ⟨.attributeError, Act.bind_err (Act.bind_err ?_)⟩
      simp [getRel, fetch, hr]
    | some r =>
      refine ⟨e, Act.bind_err ?_⟩
      rw [Act.bind_ok (getRel_eq_ok.2 ⟨hr, rfl⟩)]
      exact Act.bind_err (Act.ofPy_error hpy w)

/-- **C93** the removal of a relation that exists raises `AttributeError`. -/
theorem C93_remove_counterexample : ∃ (w : World Nat (AnyGen Nat)) (data : Frame) (r : Relationship Nat),
    w.rels[0]? = some r ∧ Reachable Rng.counter r ∧
    data.rows.map (fun x => (cell data x "FROM", cell data x "TO")) = [(.str "x", .str "1")] ∧
    (.str "x", .str "1", 1) ∈ r.get_relations Orders.a ∧
    Ops.relRemove 0 "FROM" "TO" data w = .error .attributeError w := by
  refine ⟨exLinked, ⟨["FROM", "TO"], [⟨.str "m", [.str "x", .str "1"]⟩]⟩, exLinks, rfl,
    exLinks_reachable, by decide +kernel, by decide +kernel, rfl⟩

/-! ### Non-vacuity -/

example : ((Ops.relAdd exEnv 0 "FRIEND" "CALLER" exCalls).world? exLinked).map (fun w =>
      w.rels.map fun r => r.get_relations Orders.a) =
    some [[(.str "x", .str "1", 1), (.str "x", .str "b", 1), (.str "y", .str "2", 1),
      (.str "y", .str "3", 3), (.str "y", .str "2", 3), (.str "y", .str "a", 1), (.str "y", .str "c", 1),
      (.str "z", .str "d", 1)]] := by decide +kernel

/-- story data with lists of items -/
def exLists : Frame := ⟨["FROM", "ITEMS"],
  [⟨.str "a", [.str "x", .list [.str "7", .str "8"]]⟩, ⟨.str "b", [.str "w", .list []]⟩]⟩

example : ((Ops.relAddGrouped exEnv 0 "FROM" "ITEMS" exLists).world? exLinked).map (fun w =>
      w.rels.map fun r => (tosOf (r.get_relations Orders.a) (.str "x"))) =
    some [[.str "1", .str "7", .str "8"]] := by decide +kernel

end Trumania
