import Mathlib.Data.String.Basic

/-! Specification of well formed phone numbers (C07). -/

namespace Trumania.MsisdnGen

/-- A phone number of the generator: country code, one of the prefixes, then exactly `len` digits.
(Specification, independent of the generator.) -/
def WellFormed (cc : String) (pref : List String) (len : Nat) (s : String) : Prop :=
  ∃ p ∈ pref, ∃ ds : List Char, ds.length = len ∧ (∀ c ∈ ds, c.isDigit = true) ∧
    s = cc ++ p ++ String.ofList ds

end Trumania.MsisdnGen
