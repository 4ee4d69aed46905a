import Verif.Proofs.Csv

/-!
# Property C63 (CSV files)
-/

namespace Trumania
open Spec

/-- **C63** A table read back from its CSV file is the same, whatever commas, quotes, newlines and other
characters its cells contain. Missing: cells with carriage returns or NUL characters, and tables of
one column with cells made of blanks only, which are not restored (`C63_counterexample_*`). -/
theorem C63_roundtrip_partial {cols : List Text} {rows : List (List Text)} (hc : CleanLine cols)
    (hb : ∀ t ts, cols = t :: ts → ¬ StartsWithBom t) (hr : ∀ r ∈ rows, CleanLine r)
    (hl : ∀ r ∈ rows, r.length = cols.length) :
    readCsv (writeCsv true cols rows) = .ok (cols, rows) := by
  have h := csvLines_write (rows := cols :: rows) (by
    intro r hm
    rcases List.mem_cons.1 hm with rfl | hm
    · exact hc
    · exact hr r hm) (by
    intro t ts rest he
    exact hb t ts (List.cons.inj he).1)
  rw [List.map_cons, List.flatten_cons] at h
  rw [readCsv, writeCsv, if_pos rfl, h, bind_ok]
  have : (rows.all fun r => r.length == cols.length) = true := by
    rw [List.all_eq_true]
    intro r hm
    simpa using hl r hm
  simp only [this, if_true]

/-- **C63** distinct tables give distinct files -/
theorem C63_injective_partial {cols cols' : List Text} {rows rows' : List (List Text)}
    (hc : CleanLine cols) (hb : ∀ t ts, cols = t :: ts → ¬ StartsWithBom t)
    (hr : ∀ r ∈ rows, CleanLine r) (hl : ∀ r ∈ rows, r.length = cols.length)
    (hc' : CleanLine cols') (hb' : ∀ t ts, cols' = t :: ts → ¬ StartsWithBom t)
    (hr' : ∀ r ∈ rows', CleanLine r) (hl' : ∀ r ∈ rows', r.length = cols'.length)
    (h : writeCsv true cols rows = writeCsv true cols' rows') : cols = cols' ∧ rows = rows' := by
  have h1 := C63_roundtrip_partial hc hb hr hl
  rw [h, C63_roundtrip_partial hc' hb' hr' hl'] at h1
  exact ⟨(Prod.mk.inj (Except.ok.inj h1)).1.symm, (Prod.mk.inj (Except.ok.inj h1)).2.symm⟩

/-- **C63** counterexample: a carriage return ends the line; the file cannot be read back. -/
theorem C63_counterexample_cr :
    readCsv (writeCsv true ["a".toList, "b".toList] [["x\ry".toList, "z".toList]]) =
      .error .valueError := by decide +kernel

/-- with one column, it silently becomes two rows -/
theorem C63_counterexample_cr_split :
    readCsv (writeCsv true ["a".toList] [["x\ry".toList]]) =
      .ok (["a".toList], [["x".toList], ["y".toList]]) := by decide +kernel

/-- **C63** counterexample: a cell is cut at a NUL character. -/
theorem C63_counterexample_nul :
    readCsv (writeCsv true ["a".toList] [["x\x00y".toList]]) =
      .ok (["a".toList], [["x".toList]]) := by decide +kernel

/-- **C63** counterexample: in a table of one column, a cell made of blanks disappears with its row. -/
theorem C63_counterexample_blank :
    readCsv (writeCsv true ["a".toList] [["x".toList], ["  ".toList], ["y".toList]]) =
      .ok (["a".toList], [["x".toList], ["y".toList]]) := by decide +kernel

/-- the hypotheses hold of cells with commas, quotes, newlines, blanks and of empty cells -/
example : CleanLine ["a,\"b".toList, "".toList] ∧ CleanLine ["\n".toList, " ".toList] ∧
    CleanLine [[]] := by
  refine ⟨⟨by simp, ?_, ?_⟩, ⟨by simp, ?_, ?_⟩, ⟨by simp, ?_, ?_⟩⟩
  · simp [CleanText]
  · rintro ⟨t, h, -⟩
    simp at h
  · simp [CleanText]
  · rintro ⟨t, h, -⟩
    simp at h
  · simp [CleanText]
  · rintro ⟨t, h, h1, -⟩
    simp at h
    exact h1 h

example : writeCsv true ["id".toList, "text".toList] [["a,\"b".toList, "".toList],
    ["\n".toList, " ".toList]] = "id,text\n\"a,\"\"b\",\n\"\n\", \n".toList := by decide +kernel

example : readCsv "id,text\n\"a,\"\"b\",\n\"\n\", \n".toList =
    .ok (["id".toList, "text".toList], [["a,\"b".toList, "".toList], ["\n".toList, " ".toList]]) := by
  decide +kernel

end Trumania
