import Verif.Spec.Csv
import Verif.Proofs.Basic

/-! Helper lemmas: CSV files. -/

namespace Trumania
open Spec
namespace CsvState

theorem truncate_clean {t : Text} (h : CleanText t) :
    cutNul t = t := by
  induction t with
  | nil => rfl
  | cons c t ih =>
    rw [cutNul, if_neg (h c (by simp)).2, ih fun x hx => h x (by simp [hx])]

/-- after the text of a field, before its delimiter -/
structure Read (s s' : CsvState) (t : Text) : Prop where
  field : s'.field = t
  line : s'.line = s.line
  lines : s'.lines = s.lines
  mode : s'.mode = .startField ∨ s'.mode = .inField ∨ s'.mode = .quoteInQuoted

theorem Read.comma {s s' : CsvState} {t : Text} (h : Read s s' t) (ht : CleanText t) :
    s'.step ',' = ⟨.startField, [], s.line ++ [t], s.lines⟩ := by
  obtain ⟨h1, h2, h3, h4⟩ := h
  rcases h4 with h4 | h4 | h4 <;>
    simp [step, h4, startField, inField, endField, h1, h2, h3, truncate_clean ht]

theorem Read.newline {s s' : CsvState} {t : Text} (h : Read s s' t) (ht : CleanText t) :
    s'.step '\n' = ⟨.startRecord, [], [], s.lines ++ [s.line ++ [t]]⟩ := by
  obtain ⟨h1, h2, h3, h4⟩ := h
  rcases h4 with h4 | h4 | h4 <;>
    simp [step, h4, startField, inField, endField, endLine, h1, h2, h3,
      truncate_clean ht]

theorem foldl_inField {t : Text} {s : CsvState} (hm : s.mode = .inField)
    (h : ∀ c ∈ t, c ≠ '\n' ∧ c ≠ '\r' ∧ c ≠ ',') :
    t.foldl step s = { s with field := s.field ++ t } := by
  induction t generalizing s with
  | nil => simp
  | cons c t ih =>
    have hc := h c (by simp)
    have hstep : s.step c = { s with field := s.field ++ [c] } := by
      simp only [step, hm, inField, hc.1, hc.2.1, hc.2.2, if_false, push]
    rw [List.foldl_cons, hstep, ih (by exact hm) fun x hx => h x (by simp [hx])]
    simp

theorem foldl_inQuoted {t : Text} {s : CsvState} (hm : s.mode = .inQuoted) :
    (escapeQuotes t).foldl step s = { s with field := s.field ++ t } := by
  induction t generalizing s with
  | nil => simp [escapeQuotes]
  | cons c t ih =>
    rw [escapeQuotes]
    split
    · next hc =>
      subst hc
      have h1 : s.step '"' = { s with mode := .quoteInQuoted } := by
        simp [step, hm]
      have h2 : ({ s with mode := .quoteInQuoted } : CsvState).step '"' =
          { s with mode := .inQuoted, field := s.field ++ ['"'] } := by
        simp [step, push]
      rw [List.foldl_cons, List.foldl_cons, h1, h2, ih rfl]
      simp [hm]
    · next hc =>
      have h1 : s.step c = { s with field := s.field ++ [c] } := by
        simp [step, hm, hc, push]
      rw [List.foldl_cons, h1, ih (by exact hm)]
      simp

theorem needsQuote_false {t : Text} (h : needsQuote t = false) :
    ∀ c ∈ t, c ≠ ',' ∧ c ≠ '"' ∧ c ≠ '\n' := by
  rw [needsQuote, List.any_eq_false] at h
  intro c hc
  have := h c hc
  simpa [not_or] using this

theorem read_quoted {t : Text} {s : CsvState} (hm : s.mode = .startField ∨ s.mode = .startRecord)
    (hf : s.field = []) : Read s (('"' :: (escapeQuotes t ++ ['"'])).foldl step s) t := by
  have h1 : s.step '"' = { s with mode := .inQuoted } := by
    rcases hm with hm | hm <;> simp [step, hm, startRecord, startField]
  have h2 : ({ s with mode := .inQuoted, field := t } : CsvState).step '"' =
      { s with mode := .quoteInQuoted, field := t } := by
    simp [step]
  rw [List.foldl_cons, h1, List.foldl_append, foldl_inQuoted rfl]
  simp only [hf, List.nil_append, List.foldl_cons, List.foldl_nil]
  rw [h2]
  exact ⟨rfl, rfl, rfl, .inr (.inr rfl)⟩

/-- a field that is not the first of its line -/
theorem read_field {t : Text} {s : CsvState} (ht : CleanText t) (hm : s.mode = .startField)
    (hf : s.field = []) : Read s ((writeField t).foldl step s) t := by
  rw [writeField]
  split
  · exact read_quoted (.inl hm) hf
  · next hq =>
    have hq' := needsQuote_false (by simpa using hq)
    cases t with
    | nil => exact ⟨hf, rfl, rfl, .inl hm⟩
    | cons c t =>
      have hc := hq' c (by simp)
      have hr := (ht c (by simp)).1
      have h1 : s.step c = { s with mode := .inField, field := [c] } := by
        simp [step, hm, startField, hc.1, hc.2.1, hc.2.2, hr, push, hf]
      rw [List.foldl_cons, h1, foldl_inField rfl]
      · exact ⟨rfl, rfl, rfl, .inr (.inl rfl)⟩
      · intro x hx
        have := hq' x (by simp [hx])
        exact ⟨this.2.2, (ht x (by simp [hx])).1, this.1⟩

theorem foldl_whitespace {t : Text} {s : CsvState} (hm : s.mode = .whitespaceLine)
    (h : ∀ c ∈ t, c ≠ '\n' ∧ c ≠ '\r' ∧ c ≠ ',') :
    (t.foldl step s = { s with field := s.field ++ t } ∧ ∀ c ∈ t, c = ' ' ∨ c = '\t') ∨
    t.foldl step s = { s with mode := .inField, field := s.field ++ t } := by
  induction t generalizing s with
  | nil => exact .inl ⟨by simp, by simp⟩
  | cons c t ih =>
    have hc := h c (by simp)
    have ht : ∀ c ∈ t, c ≠ '\n' ∧ c ≠ '\r' ∧ c ≠ ',' := fun x hx => h x (by simp [hx])
    by_cases hb : c = ' ' ∨ c = '\t'
    · have h1 : s.step c = { s with field := s.field ++ [c] } := by
        simp only [step, hm, hc.1, hc.2.1, hb, if_false, if_true, push]
      rw [List.foldl_cons, h1]
      rcases ih (s := { s with field := s.field ++ [c] }) hm ht with ⟨e, hall⟩ | e
      · refine .inl ⟨by rw [e]; simp, ?_⟩
        intro x hx
        rcases List.mem_cons.1 hx with rfl | hx
        · exact hb
        · exact hall x hx
      · refine .inr (by rw [e]; simp)
    · have h1 : s.step c = { s with mode := .inField, field := s.field ++ [c] } := by
        simp only [step, hm, hc.1, hc.2.1, hc.2.2, hb, if_false, inField, push]
      rw [List.foldl_cons, h1, foldl_inField rfl ht]
      exact .inr (by simp)

/-- the first field of a line: the state before the comma or the end of line that follows -/
theorem read_first {t : Text} {s : CsvState} (ht : CleanText t) (hm : s.mode = .startRecord)
    (hf : s.field = []) :
    Read s ((writeField t).foldl step s) t ∨
    (t = [] ∧ (writeField t).foldl step s = s) ∨
    (t ≠ [] ∧ (∀ c ∈ t, c = ' ' ∨ c = '\t') ∧
      (writeField t).foldl step s = { s with mode := .whitespaceLine, field := t }) := by
  rw [writeField]
  split
  · exact .inl (read_quoted (.inr hm) hf)
  · next hq =>
    have hq' := needsQuote_false (by simpa using hq)
    cases t with
    | nil => exact .inr (.inl ⟨rfl, rfl⟩)
    | cons c t =>
      have hc := hq' c (by simp)
      have hr := (ht c (by simp)).1
      have hrest : ∀ x ∈ t, x ≠ '\n' ∧ x ≠ '\r' ∧ x ≠ ',' := by
        intro x hx
        have := hq' x (by simp [hx])
        exact ⟨this.2.2, (ht x (by simp [hx])).1, this.1⟩
      by_cases hb : c = ' ' ∨ c = '\t'
      · have h1 : s.step c = { s with mode := .whitespaceLine, field := [c] } := by
          simp [step, hm, startRecord, hc.2.2, hr, hb, push, hf]
        rw [List.foldl_cons, h1]
        rcases foldl_whitespace (s := { s with mode := .whitespaceLine, field := [c] }) rfl hrest
          with ⟨e, hall⟩ | e
        · refine .inr (.inr ⟨by simp, ?_, by rw [e]; simp⟩)
          intro x hx
          rcases List.mem_cons.1 hx with rfl | hx
          · exact hb
          · exact hall x hx
        · rw [e]
          exact .inl ⟨by simp, rfl, rfl, .inr (.inl rfl)⟩
      · have h1 : s.step c = { s with mode := .inField, field := [c] } := by
          simp [step, hm, startRecord, startField, hc.1, hc.2.1, hc.2.2, hr, hb, push, hf]
        rw [List.foldl_cons, h1, foldl_inField rfl hrest]
        exact .inl ⟨by simp, rfl, rfl, .inr (.inl rfl)⟩

/-- the fields after the first one, and the end of line -/
theorem read_fields {ts : List Text} (hne : ts ≠ []) (ht : ∀ t ∈ ts, CleanText t) {s : CsvState}
    (hm : s.mode = .startField) (hf : s.field = []) :
    (writeFields ts ++ ['\n']).foldl step s =
      ⟨.startRecord, [], [], s.lines ++ [s.line ++ ts]⟩ := by
  induction ts generalizing s with
  | nil => exact absurd rfl hne
  | cons t ts ih =>
    have h1 := read_field (ht t (by simp)) hm hf
    cases ts with
    | nil =>
      rw [writeFields, List.foldl_append, List.foldl_cons, List.foldl_nil,
        h1.newline (ht t (by simp))]
    | cons t' ts =>
      rw [writeFields, List.append_assoc, List.foldl_append, List.cons_append, List.foldl_cons,
        h1.comma (ht t (by simp)), ih (by simp) (fun x hx => ht x (by simp [hx])) rfl rfl]
      · simp
      · simp

/-- a whole line -/
theorem read_line {ts : List Text} (h : CleanLine ts) (lines : List (List Text)) :
    (writeLine ts).foldl step ⟨.startRecord, [], [], lines⟩ =
      ⟨.startRecord, [], [], lines ++ [ts]⟩ := by
  rw [writeLine]
  split
  · next he => subst he; rfl
  · next he =>
    cases ts with
    | nil => exact absurd rfl h.nonempty
    | cons t ts =>
      have hct := h.clean t (by simp)
      have hfirst := read_first (s := ⟨.startRecord, [], [], lines⟩) hct rfl rfl
      cases ts with
      | nil =>
        rw [writeFields, List.foldl_append]
        rcases hfirst with h1 | ⟨rfl, -⟩ | ⟨h1, h2, -⟩
        · rw [List.foldl_cons, List.foldl_nil, h1.newline hct]
          rfl
        · exact absurd rfl he
        · exact absurd ⟨t, rfl, h1, h2⟩ h.notBlank
      | cons t' ts =>
        rw [writeFields, List.append_assoc, List.foldl_append, List.cons_append, List.foldl_cons]
        · have hcomma : ((writeField t).foldl step ⟨.startRecord, [], [], lines⟩).step ',' =
              ⟨.startField, [], [t], lines⟩ := by
            rcases hfirst with h1 | ⟨rfl, h1⟩ | ⟨-, -, h1⟩
            · rw [h1.comma hct]
              rfl
            · rw [h1]
              rfl
            · rw [h1]
              simp [step, inField, endField, truncate_clean hct]
          rw [hcomma, read_fields (by simp) (fun x hx => h.clean x (by simp [hx])) rfl rfl]
          rfl
        · simp

theorem read_lines {rows : List (List Text)} (h : ∀ r ∈ rows, CleanLine r)
    (lines : List (List Text)) :
    (rows.map writeLine).flatten.foldl step ⟨.startRecord, [], [], lines⟩ =
      ⟨.startRecord, [], [], lines ++ rows⟩ := by
  induction rows generalizing lines with
  | nil => simp
  | cons r rows ih =>
    rw [List.map_cons, List.flatten_cons, List.foldl_append, read_line (h r (by simp)),
      ih fun x hx => h x (by simp [hx])]
    simp

end CsvState

/-- lines written are read back -/
theorem csvLines_write {rows : List (List Text)} (h : ∀ r ∈ rows, CleanLine r)
    (hb : ∀ t ts rest, rows = (t :: ts) :: rest → ¬ StartsWithBom t) :
    csvLines (rows.map writeLine).flatten = .ok rows := by
  have hd : dropBom (rows.map writeLine).flatten = (rows.map writeLine).flatten := by
    cases rows with
    | nil => rfl
    | cons r rest =>
      cases r with
      | nil => exact absurd rfl (h [] (by simp)).nonempty
      | cons t ts =>
        have hbt := hb t ts rest rfl
        have : ∃ c u, writeLine (t :: ts) = c :: u ∧ c ≠ '\uFEFF' := by
          rw [writeLine]
          split
          · exact ⟨_, _, rfl, by decide⟩
          · have : writeFields (t :: ts) ++ ['\n'] =
                writeField t ++ (writeFields (t :: ts) ++ ['\n']).drop (writeField t).length := by
              cases ts with
              | nil => simp [writeFields]
              | cons t' ts => rw [writeFields] <;> simp
            rw [this]
            rw [writeField]
            split
            · exact ⟨_, _, rfl, by decide⟩
            · next hq =>
              cases t with
              | nil =>
                cases ts with
                | nil => exact ⟨_, _, rfl, by decide⟩
                | cons t' ts =>
                  refine ⟨',', writeFields (t' :: ts) ++ ['\n'], ?_, by decide⟩
                  rw [writeFields]
                  · simp [writeField, needsQuote]
                  · simp
              | cons c t =>
                refine ⟨c, _, rfl, ?_⟩
                rintro rfl
                exact hbt ⟨t, rfl⟩
        obtain ⟨c, u, e, hc⟩ := this
        rw [List.map_cons, List.flatten_cons, e, List.cons_append, dropBom, if_neg hc]
  rw [csvLines, hd, CsvState.read_lines h]
  rfl

end Trumania
