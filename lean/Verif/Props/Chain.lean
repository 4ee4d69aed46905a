import Verif.Proofs.Chain
import Verif.Spec.Instances

/-!
# Property C42 (chains of operations)

For any operations, user-defined ones included: functions from story data and state to an output, logs
and a state, or to an exception and a state.
-/

namespace Trumania
open Spec World
variable {W : Type}

theorem chain_sequential (so : SetOrder String) (ops : List (Op W)) (data out : Frame) (w w' : W) :
    (∀ logs, chain so ops data w = .ok (out, logs) w' →
      logs.WF ∧ ∃ ls, Runs ops data w out ls w' ∧
        ∀ id, logs.get? id = foldVals Frame.concat (ls.filterMap (·.get? id))) ∧
    (∀ ls, Runs ops data w out ls w' → ∃ logs, chain so ops data w = .ok (out, logs) w') := by
  refine ⟨fun logs h => ?_, fun ls h => ?_⟩
  · rcases runs_or_raises ops data w with ⟨out', ls, w1, h1⟩ | ⟨e, w1, h1⟩
    · obtain ⟨g, e1, e2, e3⟩ := runOps_of_runs (so := so) h1 (acc := []) List.nodup_nil []
        (fun _ => rfl)
      have e1 : chain so ops data w = .ok (out', g) w1 := e1
      rw [e1] at h
      cases h
      exact ⟨e2, ls, h1, e3⟩
    · have e1 : chain so ops data w = .error e w1 := runOps_of_raises h1 []
      rw [e1] at h
      cases h
  · obtain ⟨g, e1, -, -⟩ := runOps_of_runs (so := so) h (acc := []) List.nodup_nil []
      (fun _ => rfl)
    exact ⟨g, e1⟩

/-- **C42** a chain raises iff some operation raises after the previous ones have run; the state left
is the one this operation leaves, the next operations being not executed. -/
theorem C42_raises (so : SetOrder String) (ops : List (Op W)) (data : Frame) (w w' : W) (e : Err) :
    chain so ops data w = .error e w' ↔ Raises ops data w e w' := by
  refine ⟨fun h => ?_, fun h => runOps_of_raises h []⟩
  rcases runs_or_raises ops data w with ⟨out', ls, w1, h1⟩ | ⟨e', w1, h1⟩
  · obtain ⟨g, e1, -, -⟩ := runOps_of_runs (so := so) h1 (acc := []) List.nodup_nil []
      (fun _ => rfl)
    have e1 : chain so ops data w = .ok (out', g) w1 := e1
    rw [e1] at h
    cases h
  · have e1 : chain so ops data w = .error e' w1 := runOps_of_raises h1 []
    rw [e1] at h
    cases h
    exact h1

/-- **C42** what follows the operation that raises does not matter -/
theorem C42_later_not_executed (so : SetOrder String) (pre post post' : List (Op W)) (op : Op W)
    (data mid : Frame) (w w1 w' : W) (e : Err) (ls : List Logs) (h : Runs pre data w mid ls w1)
    (he : op mid w1 = .error e w') :
    chain so (pre ++ op :: post) data w = .error e w' ∧
    chain so (pre ++ op :: post') data w = .error e w' :=
  ⟨runOps_of_raises (Raises.intro h he) [], runOps_of_raises (Raises.intro h he) []⟩

/-- **C42** the empty chain returns its input, without logs -/
theorem C42_empty (so : SetOrder String) (data : Frame) (w : W) :
    chain so ([] : List (Op W)) data w = .ok (data, []) w := rfl

/-- **C42** chains nested at any depth do the same as the flat chain of all their operations: same
output, same state, same log for each log id, or the same exception. -/
theorem C42_nesting (so : SetOrder String) (t : Nested W) :
    SameOp (t.build (chain so)) (chain so t.leaves) := nested_same so t

theorem concat_content (fs : List Frame) (r : Frame) (h : foldVals Frame.concat fs = some r) :
    (∀ c, c ∈ r.cols ↔ ∃ f ∈ fs, c ∈ f.cols) ∧
    r.rows.length = (fs.map (·.rows.length)).sum ∧
    ∀ name, cellsOf r name = fs.flatMap (cellsOf · name) := by
  cases fs with
  | nil => cases h
  | cons f fs =>
    simp only [foldVals, Option.some.injEq] at h
    subst h
    induction fs using List.reverseRecOn with
    | nil => simp
    | append_singleton fs g ih =>
      rw [List.foldl_append, List.foldl_cons, List.foldl_nil]
      generalize fs.foldl Frame.concat f = q at ih
      refine ⟨fun c => ?_, ?_, fun name => ?_⟩
      · rw [Frame.mem_concat_cols, ih.1]
        simp only [List.mem_cons, List.mem_append, List.not_mem_nil, or_false]
        constructor
        · rintro (⟨x, hx, hc⟩ | hc)
          · exact ⟨x, by tauto, hc⟩
          · exact ⟨g, by tauto, hc⟩
        · rintro ⟨x, hx | hx | hx, hc⟩
          · exact Or.inl ⟨x, Or.inl hx, hc⟩
          · exact Or.inl ⟨x, Or.inr hx, hc⟩
          · subst hx; exact Or.inr hc
      · have := ih.2.1
        simp only [Frame.concat, List.length_map, List.length_zipIdx, List.length_append, this]
        simp [Nat.add_assoc]
      · have h1 := ih.2.2 name
        have h2 := Frame.concat_rows_map (a := q) (b := g) [name] _ rfl
        have h3 : ∀ x : Frame, cellsOf x name =
            (x.rows.map fun r => [name].map (Frame.cellOrNa x.cols r)).flatten := by
          intro x
          rw [cellsOf]
          induction x.rows with
          | nil => rfl
          | cons r l ih => exact congrArg₂ List.cons rfl ih
        rw [h3, h2, List.flatten_append, ← h3, ← h3, h1]
        simp

theorem firstSeen_unionCols {a b : List String} (hb : b.Nodup) :
    firstSeen (a ++ b) = firstSeen a ++ b.filter (fun c => decide (c ∉ a)) := by
  induction a with
  | nil =>
    rw [List.nil_append]
    have : b.filter (fun c => decide (c ∉ ([] : List String))) = b := by simp
    rw [this]
    show firstSeen b = b
    clear this
    induction b with
    | nil => rfl
    | cons x b ih =>
      rw [firstSeen, ih (List.nodup_cons.1 hb).2, List.filter_eq_self.2]
      intro y hy
      simp only [decide_eq_true_eq]
      rintro rfl
      exact (List.nodup_cons.1 hb).1 hy
  | cons x a ih =>
    rw [List.cons_append, firstSeen, ih, List.filter_append, List.filter_filter, firstSeen,
      List.cons_append]
    congr 2
    apply List.filter_congr
    intro y _
    by_cases hy : y = x <;> simp [hy]

theorem mem_firstSeen {l : List String} {c : String} : c ∈ firstSeen l ↔ c ∈ l := by
  induction l with
  | nil => simp [firstSeen]
  | cons x l ih =>
    simp only [firstSeen, List.mem_cons, List.mem_filter, ih, decide_eq_true_eq]
    by_cases h : c = x <;> simp [h]

theorem isConcatenation_of_fold {fs : List Frame} {r : Frame}
    (h : foldVals Frame.concat fs = some r) : IsConcatenation fs r := by
  obtain ⟨h1, h2, h3⟩ := concat_content fs r h
  refine ⟨?_, h1, ?_, h2, h3, ?_⟩
  · rintro f rfl; simpa [foldVals] using h.symm
  · intro hnd
    cases fs with
    | nil => cases h
    | cons f fs =>
      simp only [foldVals, Option.some.injEq] at h
      subst h
      clear h1 h2 h3
      induction fs using List.reverseRecOn with
      | nil =>
        have := firstSeen_unionCols (a := []) (hnd f (by simp))
        simpa [firstSeen] using this.symm
      | append_singleton fs g ih =>
        have ih := ih fun x hx => hnd x (by
          simp only [List.mem_cons, List.mem_append] at hx ⊢; tauto)
        rw [List.foldl_append, List.foldl_cons, List.foldl_nil, ← List.cons_append,
          List.flatMap_append]
        simp only [List.flatMap_cons, List.flatMap_nil, List.append_nil]
        rw [← List.flatMap_cons, firstSeen_unionCols (hnd g (by simp)), ← ih]
        simp only [Frame.concat]
        congr 1
        apply List.filter_congr
        intro y _
        rw [decide_eq_decide, ih, mem_firstSeen]
  · intro hlen
    match fs, hlen with
    | f :: g :: fs, _ =>
      simp only [foldVals, Option.some.injEq] at h
      have key : ∀ (l : List Frame) (a b : Frame), ∃ c d, (b :: l).foldl Frame.concat a =
          Frame.concat c d := by
        intro l
        induction l with
        | nil => exact fun a b => ⟨a, b, rfl⟩
        | cons x l ih => exact fun a b => ih (Frame.concat a b) x
      obtain ⟨c, d, hcd⟩ := key fs f g
      rw [hcd] at h
      subst h
      simp only [Frame.concat]
      apply List.ext_getElem
      · simp
      · intro i k1 k2
        simp only [List.getElem_map, List.getElem_zipIdx, List.getElem_range, Nat.zero_add]

/-- **C42** a chain returns iff its operations run to the end one after the other, each on the output
of the previous one; it returns the last output and, for each log id, the concatenation of the logs of
the operations in order of execution. -/
theorem C42_sequential (so : SetOrder String) (ops : List (Op W)) (data out : Frame) (w w' : W) :
    (∀ logs, chain so ops data w = .ok (out, logs) w' →
      logs.WF ∧ ∃ ls, Runs ops data w out ls w' ∧
        ∀ id, (logs.get? id = none ∧ ∀ l ∈ ls, l.get? id = none) ∨
          ∃ r, logs.get? id = some r ∧ IsConcatenation (ls.filterMap (·.get? id)) r) ∧
    (∀ ls, Runs ops data w out ls w' → ∃ logs, chain so ops data w = .ok (out, logs) w') := by
  obtain ⟨h1, h2⟩ := chain_sequential so ops data out w w'
  refine ⟨fun logs h => ?_, h2⟩
  obtain ⟨hwf, ls, hr, hl⟩ := h1 logs h
  refine ⟨hwf, ls, hr, fun id => ?_⟩
  cases hg : logs.get? id with
  | some r => exact Or.inr ⟨r, rfl, isConcatenation_of_fold (by rw [← hl, hg])⟩
  | none =>
    left
    refine ⟨rfl, fun l hm => ?_⟩
    have := hl id
    rw [hg] at this
    cases hc : ls.filterMap (·.get? id) with
    | nil =>
      rw [List.filterMap_eq_nil_iff] at hc
      exact hc l hm
    | cons f fs => rw [hc] at this; cases this

/-! ### Non-vacuity -/

/-- an operation that counts its calls and logs the number of rows -/
def exCount (id : String) : Op Nat := fun data n =>
  .ok (data, [(id, ⟨["rows"], [⟨.num 0, [.num (data.rows.length : Rat)]⟩]⟩)]) (n + 1)

/-- an operation that raises after one change of state -/
def exFail : Op Nat := fun _ n => .error .keyError (n + 100)

/-- an operation that keeps the first row -/
def exHead : Op Nat := fun data n => .ok (⟨data.cols, data.rows.take 1⟩, []) (n + 10)

def exData : Frame := ⟨["a"], [⟨.str "x", [.num 1]⟩, ⟨.str "y", [.num 2]⟩]⟩

def exResult {α W : Type} : EStateM.Result Err W α → Option (α × W)
  | .ok a w => some (a, w)
  | .error _ _ => none

example : exResult (chain (SetOrder.dedup String) [exCount "l", exHead, exCount "l"] exData 0) =
    some ((⟨["a"], [⟨.str "x", [.num 1]⟩]⟩,
      [("l", ⟨["rows"], [⟨.num 0, [.num 2]⟩, ⟨.num 1, [.num 1]⟩]⟩)]), 12) := by
  decide +kernel

example : Runs [exCount "l", exHead] exData 0 ⟨["a"], [⟨.str "x", [.num 1]⟩]⟩
    [[("l", ⟨["rows"], [⟨.num 0, [.num 2]⟩]⟩)], []] 11 :=
  Runs.cons rfl (Runs.cons rfl (Runs.nil _ _))

example : chain (SetOrder.dedup String) [exHead, exFail, exCount "l"] exData 0 =
    .error .keyError 110 := rfl

/-- a chain nested twice -/
example : (Nested.chain [.op (exCount "l"), .chain [.op exHead, .chain [.op (exCount "l")]]]).leaves
    = [exCount "l", exHead, exCount "l"] := rfl

example : IsConcatenation [exData, ⟨["b", "a"], [⟨.str "z", [.num 3, .num 4]⟩]⟩]
    ⟨["a", "b"], [⟨.num 0, [.num 1, .na]⟩, ⟨.num 1, [.num 2, .na]⟩,
      ⟨.num 2, [.num 4, .num 3]⟩]⟩ := isConcatenation_of_fold (by decide +kernel)

end Trumania
