import Verif.Spec.Chain
import Verif.Proofs.Api

/-! Helper lemmas on chains and on the concatenation of frames. -/

namespace Trumania
open Spec World

/-! ### Concatenation -/

namespace Frame

theorem cellOrNa_not_mem {cols : List String} {r : Row} {name : String} (h : name ∉ cols) :
    cellOrNa cols r name = Cell.na := by
  rw [cellOrNa, List.find?_eq_none.2]
  intro x hx
  have := (List.of_mem_zip hx).1
  simp only [decide_eq_true_eq]
  rintro rfl
  exact h this

theorem find?_zip_map {cols : List String} (f : String → Cell) (name : String) :
    (cols.zip (cols.map f)).find? (fun x => decide (x.1 = name)) =
      if name ∈ cols then some (name, f name) else none := by
  induction cols with
  | nil => simp
  | cons c cols ih =>
    rw [List.map_cons, List.zip_cons_cons, List.find?_cons]
    by_cases h : c = name
    · simp [h]
    · have : ¬ name = c := fun e => h e.symm
      simp only [h, decide_false, ih, List.mem_cons, this, false_or]

/-- reading back an aligned row -/
theorem cellOrNa_map {cols : List String} {c : List String} {r : Row} {i : Val} {name : String}
    (hsub : ∀ x ∈ c, x ∈ cols) :
    cellOrNa cols ⟨i, cols.map (cellOrNa c r)⟩ name = cellOrNa c r name := by
  rw [cellOrNa, find?_zip_map]
  by_cases h : name ∈ cols
  · rw [if_pos h]
  · rw [if_neg h]
    exact (cellOrNa_not_mem fun hc => h (hsub _ hc)).symm

theorem mem_concat_cols {a b : Frame} {c : String} :
    c ∈ (concat a b).cols ↔ c ∈ a.cols ∨ c ∈ b.cols := by
  simp only [concat, List.mem_append, List.mem_filter, decide_eq_true_eq]
  tauto

/-- the columns of a concatenation -/
def unionCols (a b : List String) : List String := a ++ b.filter (fun c => decide (c ∉ a))

theorem unionCols_assoc (a b c : List String) :
    unionCols (unionCols a b) c = unionCols a (unionCols b c) := by
  simp only [unionCols, List.filter_append, List.filter_filter, List.append_assoc, List.mem_append,
    List.mem_filter, decide_eq_true_eq]
  congr 2
  apply List.filter_congr
  intro x _
  by_cases h1 : x ∈ a <;> by_cases h2 : x ∈ b <;> simp [h1, h2]

theorem zipIdx_map_cells {α β : Type} (l : List α) (g : α → β) (n : Nat) :
    (l.map g).zipIdx n = (l.zipIdx n).map fun x => (g x.1, x.2) := by
  induction l generalizing n with
  | nil => rfl
  | cons a l ih => simp [ih]

/-- rows of a concatenation, aligned on some columns -/
theorem concat_rows_map {a b : Frame} (cols : List String)
    (f : Row → List Cell) (hf : f = fun r => cols.map (cellOrNa (concat a b).cols r)) :
    (concat a b).rows.map f =
      a.rows.map (fun r => cols.map (cellOrNa a.cols r)) ++
      b.rows.map (fun r => cols.map (cellOrNa b.cols r)) := by
  subst hf
  have hc : (concat a b).cols = unionCols a.cols b.cols := rfl
  have key : ∀ (n : Nat) (c : List String) (r : Row) (q : Val),
      (∀ x ∈ c, x ∈ unionCols a.cols b.cols) →
      cols.map (cellOrNa (unionCols a.cols b.cols)
        ⟨q, (unionCols a.cols b.cols).map (cellOrNa c r)⟩) = cols.map (cellOrNa c r) := by
    intro n c r q hs
    apply List.map_congr_left
    intro x _
    exact cellOrNa_map hs
  have ha : ∀ x ∈ a.cols, x ∈ unionCols a.cols b.cols := fun x hx => by simp [unionCols, hx]
  have hb : ∀ x ∈ b.cols, x ∈ unionCols a.cols b.cols := fun x hx => by
    simp only [unionCols, List.mem_append, List.mem_filter, decide_eq_true_eq]
    tauto
  rw [hc]
  have hrows : (concat a b).rows =
      (a.rows.map (fun r => (unionCols a.cols b.cols).map (cellOrNa a.cols r)) ++
       b.rows.map (fun r => (unionCols a.cols b.cols).map (cellOrNa b.cols r))).zipIdx.map
        fun x => ⟨Val.num (x.2 : Rat), x.1⟩ := rfl
  rw [hrows, List.zipIdx_append, List.map_append, List.map_append]
  congr 1
  · rw [zipIdx_map_cells, List.map_map, List.map_map]
    have : ∀ (l : List Row) (n : Nat), (l.zipIdx n).map (fun x => cols.map (cellOrNa a.cols x.1)) =
        l.map (fun r => cols.map (cellOrNa a.cols r)) := by
      intro l n
      induction l generalizing n with
      | nil => rfl
      | cons r l ih => simp [ih]
    rw [← this a.rows 0]
    apply List.map_congr_left
    intro x _
    simp only [Function.comp_apply]
    exact key 0 _ _ _ ha
  · rw [zipIdx_map_cells, List.map_map, List.map_map]
    have : ∀ (l : List Row) (n : Nat), (l.zipIdx n).map (fun x => cols.map (cellOrNa b.cols x.1)) =
        l.map (fun r => cols.map (cellOrNa b.cols r)) := by
      intro l n
      induction l generalizing n with
      | nil => rfl
      | cons r l ih => simp [ih]
    rw [← this b.rows _]
    apply List.map_congr_left
    intro x _
    simp only [Function.comp_apply]
    exact key 0 _ _ _ hb

theorem concat_assoc (a b c : Frame) : concat (concat a b) c = concat a (concat b c) := by
  have h : ∀ x y : Frame, concat x y = ⟨unionCols x.cols y.cols,
      (x.rows.map (fun r => (unionCols x.cols y.cols).map (cellOrNa x.cols r)) ++
       y.rows.map (fun r => (unionCols x.cols y.cols).map (cellOrNa y.cols r))).zipIdx.map
        fun z => ⟨Val.num (z.2 : Rat), z.1⟩⟩ := fun _ _ => rfl
  have hc : ∀ x y : Frame, (concat x y).cols = unionCols x.cols y.cols := fun _ _ => rfl
  rw [h (concat a b) c, h a (concat b c), concat_rows_map _ _ rfl, concat_rows_map _ _ rfl]
  simp only [hc, unionCols_assoc, List.append_assoc]

end Frame

theorem foldl_assoc' {α : Type} {f : α → α → α} (hf : ∀ a b c, f (f a b) c = f a (f b c))
    (a b : α) (l : List α) : l.foldl f (f a b) = f a (l.foldl f b) := by
  induction l generalizing b with
  | nil => rfl
  | cons x l ih => rw [List.foldl_cons, List.foldl_cons, hf, ih]

/-- the fold of a concatenation of lists -/
theorem foldVals_append_assoc {α : Type} {f : α → α → α}
    (hf : ∀ a b c, f (f a b) c = f a (f b c)) (l m : List α) :
    foldVals f (l ++ m) = unionAt f (foldVals f l) (foldVals f m) := by
  cases l with
  | nil => rfl
  | cons a l =>
    cases m with
    | nil => simp [foldVals, unionAt]
    | cons b m =>
      simp only [foldVals, unionAt, List.cons_append, List.foldl_append, List.foldl_cons]
      rw [foldl_assoc' hf]

/-! ### Chains -/

variable {W : Type}

theorem merge_logs (so : SetOrder String) (l1 l2 : Logs) :
    ∃ r, merge_dicts so [l1, l2] (some fun d1 d2 => .ok (Frame.concat d1 d2)) = .ok r ∧
      r.WF ∧ ∀ id, r.get? id = unionAt Frame.concat (l1.get? id) (l2.get? id) := by
  obtain ⟨r, hr, hk, hg⟩ := merge2_total so l1 l2 Frame.concat
  refine ⟨r, ?_, by rw [Dict.WF, hk]; exact so.nodup _, hg⟩
  simp only [merge_dicts, List.foldlM_cons, List.foldlM_nil, merge_2_dicts]
  rw [hr]
  rfl

theorem executeOperation_ok {op : Op W} {so : SetOrder String} {data mid : Frame} {acc supp : Logs}
    {w w1 : W} (h : op data w = .ok (mid, supp) w1) :
    ∃ r, executeOperation so (data, acc) op w = .ok (mid, r) w1 ∧ r.WF ∧
      ∀ id, r.get? id = unionAt Frame.concat (acc.get? id) (supp.get? id) := by
  obtain ⟨r, hr, hwf, hg⟩ := merge_logs so acc supp
  refine ⟨r, ?_, hwf, hg⟩
  rw [executeOperation, Act.bind_ok h]
  simp only
  rw [Act.bind_ok (Act.ofPy_ok hr _)]
  rfl

theorem executeOperation_err {op : Op W} {so : SetOrder String} {acc : Frame × Logs} {e : Err}
    {w w1 : W} (h : op acc.1 w = .error e w1) : executeOperation so acc op w = .error e w1 := by
  rw [executeOperation, Act.bind_err h]

theorem runOps_of_runs {so : SetOrder String} {ops : List (Op W)} {data out : Frame} {w w' : W}
    {ls : List Logs} (h : Runs ops data w out ls w') {acc : Logs} (hwf : acc.WF)
    (pre : List Logs) (hacc : ∀ id, acc.get? id =
      foldVals Frame.concat (pre.filterMap (·.get? id))) :
    ∃ logs, runOps so (data, acc) ops w = .ok (out, logs) w' ∧ logs.WF ∧
      ∀ id, logs.get? id = foldVals Frame.concat ((pre ++ ls).filterMap (·.get? id)) := by
  induction h generalizing acc pre with
  | nil data w => exact ⟨acc, rfl, hwf, by simpa using hacc⟩
  | @cons op ops data mid out w w1 w2 l ls h hs ih =>
    obtain ⟨r, hr, hwf', hg⟩ := executeOperation_ok (so := so) (acc := acc) h
    obtain ⟨logs, h1, h2, h3⟩ := ih hwf' (pre ++ [l]) (by
      intro id
      rw [hg, hacc, List.filterMap_append, ← foldVals_append]
      congr 1)
    refine ⟨logs, ?_, h2, by simpa using h3⟩
    rw [runOps, Act.bind_ok hr]
    exact h1

theorem runOps_of_raises {so : SetOrder String} {ops : List (Op W)} {data : Frame} {w w' : W}
    {e : Err} (h : Raises ops data w e w') (acc : Logs) :
    runOps so (data, acc) ops w = .error e w' := by
  cases h with
  | @intro pre op post data mid w w1 w2 ls e h he =>
    induction h generalizing acc with
    | nil data w =>
      rw [List.nil_append, runOps, Act.bind_err (executeOperation_err he)]
    | cons h hs ih =>
      obtain ⟨r, hr, -, -⟩ := executeOperation_ok (so := so) (acc := acc) h
      rw [List.cons_append, runOps, Act.bind_ok hr]
      exact ih r he

theorem Spec.Raises.cons {op : Op W} {ops : List (Op W)} {data mid : Frame} {w w1 w2 : W}
    {l : Logs} {e : Err} (h : op data w = .ok (mid, l) w1) (hr : Raises ops mid w1 e w2) :
    Raises (op :: ops) data w e w2 := by
  cases hr with
  | intro hp he => exact Raises.intro (Runs.cons h hp) he

theorem Spec.Raises.head {op : Op W} {ops : List (Op W)} {data : Frame} {w w1 : W}
    {e : Err} (h : op data w = .error e w1) : Raises (op :: ops) data w e w1 :=
  Raises.intro (pre := []) (Runs.nil _ _) h

/-- any list of operations either runs to the end or raises -/
theorem runs_or_raises (ops : List (Op W)) (data : Frame) (w : W) :
    (∃ out ls w', Runs ops data w out ls w') ∨ ∃ e w', Raises ops data w e w' := by
  induction ops generalizing data w with
  | nil => exact Or.inl ⟨_, _, _, Runs.nil _ _⟩
  | cons op ops ih =>
    cases h : op data w with
    | error e w1 => exact Or.inr ⟨_, _, Raises.head h⟩
    | ok x w1 =>
      obtain ⟨mid, l⟩ := x
      rcases ih mid w1 with ⟨out, ls, w', h'⟩ | ⟨e, w', h'⟩
      · exact Or.inl ⟨_, _, _, Runs.cons h h'⟩
      · exact Or.inr ⟨_, _, h'.cons h⟩

theorem Spec.Runs.append {a b : List (Op W)} {d m o : Frame} {w w1 w2 : W} {la lb : List Logs}
    (h1 : Runs a d w m la w1) (h2 : Runs b m w1 o lb w2) : Runs (a ++ b) d w o (la ++ lb) w2 := by
  induction h1 with
  | nil => exact h2
  | cons h _ ih => exact Runs.cons h (ih h2)

theorem Spec.Raises.append_left {a b : List (Op W)} {d : Frame} {w w2 : W} {e : Err}
    (h1 : Raises a d w e w2) : Raises (a ++ b) d w e w2 := by
  cases h1 with
  | intro hp he =>
    rw [List.append_assoc, List.cons_append]
    exact Raises.intro hp he

theorem Spec.Raises.append_right {a b : List (Op W)} {d m : Frame} {w w1 w2 : W} {e : Err}
    {la : List Logs} (h1 : Runs a d w m la w1) (h2 : Raises b m w1 e w2) :
    Raises (a ++ b) d w e w2 := by
  induction h1 with
  | nil => exact h2
  | cons h _ ih => exact (ih h2).cons h

/-! ### Nesting -/

theorem SameOp.refl (a : Op W) : SameOp a a := by
  intro data w
  cases a data w with
  | ok x u => exact ⟨rfl, fun _ => rfl, rfl⟩
  | error e u => exact ⟨rfl, rfl⟩

mutual
/-- a nested chain runs like the list of its leaves -/
theorem nested_same (so : SetOrder String) (t : Nested W) :
    SameOp (t.build (chain so)) (chain so t.leaves) := by
  cases t with
  | op o =>
    intro data w
    simp only [Nested.build, Nested.leaves]
    cases h : o data w with
    | error e u =>
      have h2 : chain so [o] data w = .error e u := runOps_of_raises (Raises.head h) []
      rw [h2]
      exact ⟨rfl, rfl⟩
    | ok x u =>
      obtain ⟨mid, l⟩ := x
      obtain ⟨logs, h2, -, h3⟩ := runOps_of_runs (so := so)
        (Runs.cons h (Runs.nil mid u)) (acc := []) List.nodup_nil [] (fun _ => rfl)
      have h4 : chain so [o] data w = .ok (mid, logs) u := h2
      rw [h4]
      refine ⟨rfl, fun id => ?_, rfl⟩
      rw [h3]
      cases hl : Dict.get? l id <;> simp [foldVals, hl]
  | chain l =>
    simp only [Nested.build, Nested.leaves]
    intro data w
    rcases nestedAll_runs so l data w with ⟨out, ls, ls', w', h1, h2, h3⟩ | ⟨e, w', h1, h2⟩
    · obtain ⟨g1, e1, -, f1⟩ := runOps_of_runs (so := so) h1 (acc := []) List.nodup_nil []
        (fun _ => rfl)
      obtain ⟨g2, e2, -, f2⟩ := runOps_of_runs (so := so) h2 (acc := []) List.nodup_nil []
        (fun _ => rfl)
      have e1 : chain so (Nested.buildAll (chain so) l) data w = .ok (out, g1) w' := e1
      have e2 : chain so (Nested.leavesAll l) data w = .ok (out, g2) w' := e2
      rw [e1, e2]
      refine ⟨rfl, fun id => ?_, rfl⟩
      rw [f1, f2]
      exact h3 id
    · have e1 : chain so (Nested.buildAll (chain so) l) data w = .error e w' :=
        runOps_of_raises h1 []
      have e2 : chain so (Nested.leavesAll l) data w = .error e w' := runOps_of_raises h2 []
      rw [e1, e2]
      exact ⟨rfl, rfl⟩
termination_by structural t

theorem nestedAll_runs (so : SetOrder String) (l : List (Nested W)) (data : Frame) (w : W) :
    (∃ out ls ls' w', Runs (Nested.buildAll (chain so) l) data w out ls w' ∧
      Runs (Nested.leavesAll l) data w out ls' w' ∧
      ∀ id, foldVals Frame.concat (ls.filterMap (·.get? id)) =
        foldVals Frame.concat (ls'.filterMap (·.get? id))) ∨
    ∃ e w', Raises (Nested.buildAll (chain so) l) data w e w' ∧
      Raises (Nested.leavesAll l) data w e w' := by
  cases l with
  | nil => exact Or.inl ⟨_, _, _, _, Runs.nil _ _, Runs.nil _ _, fun _ => rfl⟩
  | cons t l =>
    simp only [Nested.buildAll, Nested.leavesAll]
    have ht := nested_same so t data w
    rcases runs_or_raises t.leaves data w with ⟨mid, lt, w1, hr⟩ | ⟨e, w1, hr⟩
    · obtain ⟨g, e1, -, f1⟩ := runOps_of_runs (so := so) hr (acc := []) List.nodup_nil []
        (fun _ => rfl)
      have e1 : chain so t.leaves data w = .ok (mid, g) w1 := e1
      rw [e1] at ht
      cases h0 : t.build (chain so) data w with
      | error e u => rw [h0] at ht; exact ht.elim
      | ok x u =>
        rw [h0] at ht
        obtain ⟨hx1, hx2, rfl⟩ := ht
        obtain ⟨mid', lg⟩ := x
        simp only at hx1 hx2
        subst hx1
        rcases nestedAll_runs so l mid' u with ⟨out, ls, ls', w', h1, h2, h3⟩ | ⟨e, w', h1, h2⟩
        · refine Or.inl ⟨out, lg :: ls, lt ++ ls', w', Runs.cons h0 h1, hr.append h2, fun id => ?_⟩
          rw [List.filterMap_append, foldVals_append_assoc Frame.concat_assoc, ← h3,
            ← foldVals_append_assoc Frame.concat_assoc]
          have hg : foldVals Frame.concat (([lg] : List Logs).filterMap (·.get? id)) =
              foldVals Frame.concat (lt.filterMap (·.get? id)) := by
            have h4 := f1 id
            rw [List.nil_append] at h4
            rw [← h4, ← hx2 id]
            cases hl : Dict.get? lg id <;> simp [foldVals, hl]
          have : (lg :: ls).filterMap (fun l : Logs => l.get? id) =
              ([lg] : List Logs).filterMap (·.get? id) ++ ls.filterMap (·.get? id) := by
            rw [← List.filterMap_append]; rfl
          rw [this, foldVals_append_assoc Frame.concat_assoc, hg,
            foldVals_append_assoc Frame.concat_assoc]
        · exact Or.inr ⟨e, w', h1.cons h0, Raises.append_right hr h2⟩
    · have e1 : chain so t.leaves data w = .error e w1 := runOps_of_raises hr []
      rw [e1] at ht
      cases h0 : t.build (chain so) data w with
      | ok x u => rw [h0] at ht; exact ht.elim
      | error e' u =>
        rw [h0] at ht
        obtain ⟨rfl, rfl⟩ := ht
        exact Or.inr ⟨_, _, Raises.head h0, hr.append_left⟩
termination_by structural l
end

end Trumania
