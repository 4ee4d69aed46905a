import Verif.Model.FileSystem

/-!
# CSV files as written by `DataFrame.to_csv` and read by `pd.read_csv`

The writer is that of CPython 3.9 `Modules/_csv.c` with the options of pandas (QUOTE_MINIMAL, line
terminator "\n"). The reader is the tokenizer of pandas 1.4 (`pandas/_libs/src/parser/tokenizer.c`)
with its default options. Cells are texts: the formatting of values when writing and the inference of
types when reading are outside this file.
-/

namespace Trumania

/-! ### Writer -/

/-- a field is quoted if it contains the delimiter, the quote or the line terminator
(`_csv.c`, join_append_data) -/
def needsQuote (t : Text) : Bool := t.any fun c => decide (c = ',' ∨ c = '"' ∨ c = '\n')

/-- quotes are doubled -/
def escapeQuotes : Text → Text
  | [] => []
  | c :: t => if c = '"' then '"' :: '"' :: escapeQuotes t else c :: escapeQuotes t

/-- one field -/
def writeField (t : Text) : Text :=
  if needsQuote t then '"' :: (escapeQuotes t ++ ['"']) else t

/-- the fields of a line, separated by the delimiter -/
def writeFields : List Text → Text
  | [] => []
  | [t] => writeField t
  | t :: ts => writeField t ++ ',' :: writeFields ts

/-- one line; a line made of a single empty field is written `""` (`_csv.c`, csv_writerow) -/
def writeLine (ts : List Text) : Text :=
  if ts = [[]] then ['"', '"', '\n'] else writeFields ts ++ ['\n']

/-- `to_csv(index=False)` of a table of texts; `header` tells if the names of the columns are
written -/
def writeCsv (header : Bool) (cols : List Text) (rows : List (List Text)) : Text :=
  (if header then writeLine cols else []) ++ (rows.map writeLine).flatten

/-! ### Reader -/

/-- states of the tokenizer (`tokenizer.h`, ParserState) that the default options can reach -/
inductive CsvMode where
  | startRecord
  | whitespaceLine
  | startField
  | inField
  | inQuoted
  | quoteInQuoted
  | eatCrnl
  | eatCrnlNop
deriving DecidableEq, Repr

/-- tokenizer: the field and the line being read, and the lines already read -/
structure CsvState where
  mode : CsvMode
  field : Text
  line : List Text
  lines : List (List Text)
deriving DecidableEq, Repr

/-- a C string ends at its first NUL -/
def cutNul : Text → Text
  | [] => []
  | c :: t => if c = '\x00' then [] else c :: cutNul t

namespace CsvState

/-- `end_field`: the words are C strings, hence cut at the first NUL -/
def endField (s : CsvState) : CsvState :=
  { s with field := [], line := s.line ++ [cutNul s.field] }

/-- `end_line` -/
def endLine (s : CsvState) : CsvState :=
  { s with mode := .startRecord, line := [], lines := s.lines ++ [s.line] }

/-- `PUSH_CHAR` -/
def push (s : CsvState) (c : Char) : CsvState := { s with field := s.field ++ [c] }

/-- case IN_FIELD -/
def inField (s : CsvState) (c : Char) : CsvState :=
  if c = '\n' then s.endField.endLine
  else if c = '\r' then { s.endField with mode := .eatCrnl }
  else if c = ',' then { s.endField with mode := .startField }
  else { s.push c with mode := .inField }

/-- case START_FIELD -/
def startField (s : CsvState) (c : Char) : CsvState :=
  if c = '\n' then s.endField.endLine
  else if c = '\r' then { s.endField with mode := .eatCrnl }
  else if c = '"' then { s with mode := .inQuoted }
  else if c = ',' then { s.endField with mode := .startField }
  else { s.push c with mode := .inField }

/-- case START_RECORD: empty lines are skipped; lines of blanks are set apart -/
def startRecord (s : CsvState) (c : Char) : CsvState :=
  if c = '\n' then { s with mode := .startRecord }
  else if c = '\r' then { s with mode := .eatCrnlNop }
  else if c = ' ' ∨ c = '\t' then { s.push c with mode := .whitespaceLine }
  else s.startField c

/-- the loop body of `tokenize_bytes`. In a line of blanks, the blanks read so far are kept in
`field`: when another character comes, the C code goes back to the start of the line and reads them
again as a field. -/
def step (s : CsvState) (c : Char) : CsvState :=
  match s.mode with
  | .startRecord => s.startRecord c
  | .whitespaceLine =>
    if c = '\n' then { s with mode := .startRecord, field := [] }
    else if c = '\r' then { s with mode := .eatCrnlNop, field := [] }
    else if c = ' ' ∨ c = '\t' then s.push c
    else s.inField c
  | .startField => s.startField c
  | .inField => s.inField c
  | .inQuoted => if c = '"' then { s with mode := .quoteInQuoted } else s.push c
  | .quoteInQuoted =>
    if c = '\n' then s.endField.endLine
    else if c = '\r' then { s.endField with mode := .eatCrnl }
    else if c = '"' then { s.push c with mode := .inQuoted }
    else if c = ',' then { s.endField with mode := .startField }
    else { s.push c with mode := .inField }
  | .eatCrnl => if c = '\n' then s.endLine else s.endLine.startRecord c
  | .eatCrnlNop => if c = '\n' then { s with mode := .startRecord } else s.startRecord c

/-- `parser_handle_eof` -/
def finish (s : CsvState) : Py (List (List Text)) :=
  match s.mode with
  | .startRecord | .whitespaceLine | .eatCrnlNop => .ok s.lines
  | .inQuoted => .error .valueError
  | .eatCrnl => .ok s.endLine.lines
  | .startField | .inField | .quoteInQuoted => .ok s.endField.endLine.lines

end CsvState

/-- a byte order mark at the start of the file is dropped -/
def dropBom : Text → Text
  | c :: t => if c = '\uFEFF' then t else c :: t
  | [] => []

/-- the lines of fields of a file -/
def csvLines (t : Text) : Py (List (List Text)) :=
  CsvState.finish ((dropBom t).foldl CsvState.step ⟨.startRecord, [], [], []⟩)

/-- `pd.read_csv(file, index_col=None)`: names of the columns and rows. `EmptyDataError` is a
`ValueError`. The completion of short lines and the handling of long ones are not modelled: lines of
another length than the first are rejected. -/
def readCsv (t : Text) : Py (List Text × List (List Text)) := do
  match ← csvLines t with
  | [] => .error .valueError
  | cols :: rows =>
    if rows.all fun r => r.length == cols.length then .ok (cols, rows) else .error .valueError

end Trumania
