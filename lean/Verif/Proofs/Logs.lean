import Verif.Spec.Logs
import Verif.Proofs.DbLoad
import Verif.Props.Run

/-!
# Lemmas on logs loaded again
-/

namespace Trumania
open Spec
variable {F : TextFormat} {folder : Path} {fmt : Cell → Text}

theorem columnName_of {x : Text × Nat} (h : x.1 ≠ []) : columnName x = String.ofList x.1 := if_neg h

theorem columnNames_eq {cols : List String} (h : ∀ c ∈ cols, c ≠ "") (k : Nat) :
    ((cols.map String.toList).zipIdx k).map columnName = cols := by
  induction cols generalizing k with
  | nil => rfl
  | cons c cols ih =>
    rw [List.map_cons, List.zipIdx_cons, List.map_cons, ih (fun c hc => h c (List.mem_cons_of_mem _ hc)),
      columnName_of]
    · rw [String.ofList_toList]
    · intro e
      exact h c (by simp) (String.toList_injective (by simpa using e))

theorem zipIdx_map_getD {α β : Type} (f : α → β) (l : List α) (d : β) :
    (l.zipIdx.map fun x => ((l.map f).getD x.2 d)) = l.map f := by
  apply List.ext_getElem
  · simp
  · intro i h1 h2
    simp at h1 h2 ⊢
    simp [h1]

/-- a storable log is read back as it was -/
theorem tableOf_storable (hF : F.Lawful) {id : String} {logs : Logs} {cols : List String}
    (h : StorableLog F id logs cols) :
    tableOf F (cols.map String.toList) ((loggedRows id logs).map fun r => r.cells.map F.cell) =
      fullTable id logs cols := by
  have hcols : (List.range cols.length).map (fun j =>
      F.infer (((loggedRows id logs).map fun r => r.cells.map F.cell).map fun r => r.getD j [])) =
      (List.range cols.length).map fun j => (columnAt j (loggedRows id logs)).map fun c =>
        match c with | .scalar v => v | .list _ => .na := by
    apply List.map_congr_left
    intro j hj
    obtain ⟨vs, hvs, hk⟩ := h.values j (List.mem_range.1 hj)
    rw [hvs, List.map_map, List.map_map]
    have e : (loggedRows id logs).map ((fun r : List Text => r.getD j []) ∘ fun r : Row => r.cells.map F.cell) =
        (columnAt j (loggedRows id logs)).map F.cell := by
      rw [columnAt, List.map_map]
      apply List.map_congr_left
      intro r hr
      have hw : j < r.cells.length := by rw [h.width r hr]; exact List.mem_range.1 hj
      simp [hw]
    rw [e, hvs, List.map_map]
    have e2 : (F.cell ∘ Cell.scalar) = F.val := rfl
    rw [e2, TextFormat.infer_kept hF hk]
    simp [Function.comp_def]
  rw [tableOf, fullTable]
  simp only [List.length_map]
  rw [hcols, columnNames_eq (fun c hc => (h.names c hc).1)]
  congr 1
  apply List.ext_getElem
  · simp
  · intro i h1 h2
    simp at h1
    simp only [List.getElem_map, List.getElem_zipIdx, Nat.zero_add, Row.mk.injEq, true_and, List.map_map]
    have hr : (loggedRows id logs)[i] ∈ loggedRows id logs := List.getElem_mem h1
    apply List.ext_getElem
    · simp [h.width _ hr]
    · intro j h3 h4
      simp at h3
      obtain ⟨vs, hvs, -⟩ := h.values j h3
      have hi : (columnAt j (loggedRows id logs))[i]? = some ((loggedRows id logs)[i].cells[j]) := by
        simp [columnAt, h1, h4]
      rw [hvs, List.getElem?_map, Option.map_eq_some_iff] at hi
      obtain ⟨v, hv, e⟩ := hi
      simp [hvs, hv, e]

theorem cleanLine_storable (hF : F.Lawful) {id : String} {logs : Logs} {cols : List String}
    (h : StorableLog F id logs cols) {r : Row} (hr : r ∈ loggedRows id logs) :
    CleanLine (r.cells.map F.cell) := by
  have hcell : ∀ c ∈ r.cells, ∃ v : Val, c = .scalar v ∧ CleanText (F.val v) := by
    intro c hc
    obtain ⟨j, hj, rfl⟩ := List.getElem_of_mem hc
    obtain ⟨vs, hvs, hk⟩ := h.values j (by rw [← h.width r hr]; exact hj)
    have hm : r.cells[j] ∈ columnAt j (loggedRows id logs) := by
      rw [columnAt, List.mem_map]
      exact ⟨r, hr, by simp [hj]⟩
    rw [hvs, List.mem_map] at hm
    obtain ⟨v, hv, e⟩ := hm
    exact ⟨v, e.symm, TextFormat.clean_kept hF hk v hv⟩
  refine ⟨?_, ?_, ?_⟩
  · intro e
    have : r.cells = [] := by simpa using e
    have := h.width r hr
    have hne := h.someColumn
    have : cols.length = 0 := by rw [← this]; simp [*]
    exact hne (List.length_eq_zero_iff.1 this)
  · intro t ht
    obtain ⟨c, hc, rfl⟩ := List.mem_map.1 ht
    obtain ⟨v, rfl, hv⟩ := hcell c hc
    exact hv
  · rintro ⟨t, ht, hne, hb⟩
    obtain ⟨c, hc, rfl⟩ : ∃ c, r.cells = [c] ∧ F.cell c = t := by
      match hrc : r.cells, ht with
      | [c], ht => exact ⟨c, rfl, by simpa using ht⟩
    obtain ⟨v, rfl, -⟩ := hcell c (by simp [hc])
    cases v with
    | na => exact hne rfl
    | bool b => cases b <;> exact absurd (hb _ (List.mem_cons_self)) (by decide)
    | num q =>
      obtain ⟨x, hx, h1, h2⟩ := hF.visible_num q
      rcases hb x hx with e | e
      · exact h1 e
      · exact h2 e
    | str s =>
      obtain ⟨x, hx, h1, h2⟩ := h.visible r hr s hc
      rcases hb x hx with e | e
      · exact h1 e
      · exact h2 e

/-- the file of a storable log -/
theorem readLog_storable (hF : F.Lawful) {id : String} {logs : Logs} {cols : List String}
    (hrows : loggedRows id logs ≠ []) (h : StorableLog F id logs cols) :
    readLog F (fullLog F.cell id logs) = .ok (fullTable id logs cols) := by
  rw [readLog, C60_read_back_partial logs id cols hrows h.sameColumns h.width, bind_ok]
  · simp only
    rw [if_pos, tableOf_storable hF h]
    rw [columnNames_eq fun c hc => (h.names c hc).1]
    exact h.distinct
  · refine ⟨by simpa using h.someColumn, ?_, h.notBlank⟩
    intro t ht
    obtain ⟨c, hc, rfl⟩ := List.mem_map.1 ht
    exact (h.names c hc).2
  · intro t ts e
    cases cols with
    | nil => cases e
    | cons c cols =>
      obtain ⟨rfl, -⟩ := List.cons.inj e
      exact h.noMark c rfl
  · exact fun r hr => cleanLine_storable hF h hr

/-- the ids under which rows were logged -/
def loggedIds (logs : Logs) : List String :=
  (logs.map Prod.fst).dedup.filter fun id => decide (loggedRows id logs ≠ [])

theorem mem_loggedIds {logs : Logs} {id : String} : id ∈ loggedIds logs ↔ loggedRows id logs ≠ [] := by
  rw [loggedIds, List.mem_filter, List.mem_dedup, decide_eq_true_eq, and_iff_right_iff_imp]
  intro h
  by_contra hm
  apply h
  rw [loggedRows, tablesOf, List.filter_eq_nil_iff.2]
  · rfl
  · intro x hx
    simp only [decide_eq_true_eq]
    rintro rfl
    exact hm (List.mem_map.2 ⟨x, hx, rfl⟩)

theorem loggedIds_nodup (logs : Logs) : (loggedIds logs).Nodup :=
  (List.nodup_dedup _).filter _

/-- the files of the logs -/
def logFiles (fmt : Cell → Text) (logs : Logs) : List (String × Text) :=
  (loggedIds logs).map fun id => (id, fullLog fmt id logs)

theorem logFiles_fst (logs : Logs) : (logFiles fmt logs).map Prod.fst = loggedIds logs := by
  rw [logFiles, List.map_map]; simp [Function.comp_def]

theorem mem_logFiles {logs : Logs} {x : String × Text} :
    x ∈ logFiles fmt logs ↔ loggedRows x.1 logs ≠ [] ∧ x.2 = fullLog fmt x.1 logs := by
  rw [logFiles, List.mem_map]
  constructor
  · rintro ⟨id, h, rfl⟩
    exact ⟨mem_loggedIds.1 h, rfl⟩
  · rintro ⟨h1, h2⟩
    exact ⟨x.1, mem_loggedIds.2 h1, by rw [← h2]⟩

/-- what is in the folder of the logs -/
theorem logs_view {fs0 fs : FS} {logs : Logs} (hab : ∀ q, Below folder q → Absent fs0 q)
    (hw : LogsWritten fmt folder fs0 logs fs) (hne : logs ≠ []) (r : Path) :
    Dict.get? fs (folder ++ r) = Population.filesView (logFiles fmt logs) r := by
  have hin : ∀ n, At fs (folder ++ r) n ↔ (n = .dir ∧ r = []) ∨
      ∃ x ∈ logFiles fmt logs, r = [x.1 ++ ".csv"] ∧ n = .file x.2 := by
    intro n
    rw [hw.content]
    constructor
    · rintro (h | ⟨-, h1, ⟨r', h2⟩, -⟩ | ⟨id, h1, h2, h3⟩)
      · exact absurd h (hab _ ⟨r, rfl⟩ n)
      · have := congrArg List.length h2
        simp only [List.length_append] at this
        exact .inl ⟨h1, List.length_eq_zero_iff.1 (by omega)⟩
      · refine .inr ⟨(id, fullLog fmt id logs), mem_logFiles.2 ⟨h2, rfl⟩, ?_, h3⟩
        exact List.append_cancel_left h1
    · rintro (⟨rfl, rfl⟩ | ⟨x, h1, rfl, rfl⟩)
      · exact .inr (.inl ⟨hne, rfl, by simpa using FS.below_refl folder, hab _ (by simpa using FS.below_refl folder)⟩)
      · obtain ⟨h1, h2⟩ := mem_logFiles.1 h1
        exact .inr (.inr ⟨x.1, rfl, h1, by rw [h2]⟩)
  match r with
  | [] =>
    rw [Population.filesView, FS.get?_iff hw.tree.unique]
    exact (hin _).2 (.inl ⟨rfl, rfl⟩)
  | [f] =>
    cases hv : Population.filesView (logFiles fmt logs) [f] with
    | none =>
      rw [FS.get?_none_iff]
      intro n hn
      rcases (hin n).1 hn with ⟨-, h⟩ | ⟨x, hx, h, -⟩
      · cases h
      · rw [List.cons.injEq] at h
        exact Population.filesView_mem hx (h.1 ▸ hv)
    | some n =>
      obtain ⟨x, hx, e, rfl⟩ := Population.filesView_some hv
      rw [FS.get?_iff hw.tree.unique]
      exact (hin _).2 (.inr ⟨x, hx, by rw [e], rfl⟩)
  | a :: b :: r =>
    rw [Population.filesView, FS.get?_none_iff]
    · intro n hn
      rcases (hin n).1 hn with ⟨-, h⟩ | ⟨x, -, h, -⟩
      · cases h
      · cases h
    · simp
    · simp

end Trumania
