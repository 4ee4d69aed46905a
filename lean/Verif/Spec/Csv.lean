import Verif.Model.Csv

/-!
# Vocabulary of the properties on CSV files
-/

namespace Trumania
namespace Spec

/-- a text without carriage return nor NUL -/
def CleanText (t : Text) : Prop := ∀ c ∈ t, c ≠ '\r' ∧ c ≠ '\x00'

/-- a line that looks blank in the file: one field, made of spaces and tabs only -/
def BlankLine (ts : List Text) : Prop := ∃ t, ts = [t] ∧ t ≠ [] ∧ ∀ c ∈ t, c = ' ' ∨ c = '\t'

/-- the lines that the file format can carry: at least one field, clean texts, not blank -/
structure CleanLine (ts : List Text) : Prop where
  nonempty : ts ≠ []
  clean : ∀ t ∈ ts, CleanText t
  notBlank : ¬ BlankLine ts

/-- the text starts with a byte order mark -/
def StartsWithBom (t : Text) : Prop := ∃ r, t = '\uFEFF' :: r

end Spec
end Trumania
