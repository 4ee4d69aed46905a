import Verif.Model.Persistence
import Verif.Spec.Csv

/-!
# Vocabulary of the properties on saved objects
-/

namespace Trumania

/-- The contract on the texts of pandas: a number is read back from its text (exactly: the rounding of
floats is not modelled) and looks like nothing else. -/
structure TextFormat.Lawful (F : TextFormat) : Prop where
  parse_num : ∀ q, F.parse (F.num q) = some q
  isNa_num : ∀ q, F.isNa (F.num q) = false
  bool_num : ∀ q, F.bool? (F.num q) = none
  clean_num : ∀ q, Spec.CleanText (F.num q)
  visible_num : ∀ q, ∃ c ∈ F.num q, c ≠ ' ' ∧ c ≠ '\t'
  isNa_empty : F.isNa [] = true
  bool_true : F.bool? "True".toList = some true
  bool_false : F.bool? "False".toList = some false
  isNa_true : F.isNa "True".toList = false
  isNa_false : F.isNa "False".toList = false
  parse_true : F.parse "True".toList = none
  parse_false : F.parse "False".toList = none
  parse_zero : F.parse "0".toList = some 0
  isNa_zero : F.isNa "0".toList = false
  bool_zero : F.bool? "0".toList = none

namespace Spec

/-- a text that a CSV file keeps as it is, in a column of texts -/
def KeptText (F : TextFormat) (s : String) : Prop := CleanText s.toList ∧ F.isNa s.toList = false

/-- ids that keep their type in a CSV file: numbers only, or texts only, one at least of the texts not
looking like a number -/
def KeptIds (F : TextFormat) (ids : List Val) : Prop :=
  (∀ v ∈ ids, ∃ q, v = .num q) ∨
  ((∀ v ∈ ids, ∃ s, v = .str s ∧ KeptText F s) ∧ ∃ s, .str s ∈ ids ∧ F.parse s.toList = none)

end Spec
end Trumania
