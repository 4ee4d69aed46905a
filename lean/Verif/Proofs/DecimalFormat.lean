import Verif.Spec.Persistence
import Verif.Proofs.Ids
import Mathlib.Data.List.TakeDrop

/-!
# A concrete text format

Numbers are written in decimal, as `-12` or `1/3`. Only used to show that the contract on text formats
is inhabited, and in the examples: on integers it is the format of pandas.
-/

namespace Trumania
namespace Decimal

/-- digits only, at least one -/
def parseNat (t : Text) : Option Nat :=
  if t ≠ [] ∧ t.all Char.isDigit then some (dval t) else none

/-- optional sign, then digits -/
def parseInt : Text → Option Int
  | '-' :: t => (parseNat t).map fun (n : Nat) => -(n : Int)
  | t => (parseNat t).map fun (n : Nat) => (n : Int)

/-- integer, then optional denominator -/
def parse (t : Text) : Option Rat :=
  match t.span (fun c => decide (c ≠ '/')) with
  | (a, []) => (parseInt a).map fun (z : Int) => (z : Rat)
  | (a, _ :: d) => (parseInt a).bind fun z => (parseNat d).map fun (n : Nat) => (z : Rat) / (n : Rat)

def show_ (q : Rat) : Text :=
  pyStr q.num ++ (if q.den = 1 then [] else '/' :: Nat.toDigits 10 q.den)

/-- the texts that pandas takes for missing values -/
def naTexts : List Text :=
  ["", "#N/A", "#N/A N/A", "#NA", "-1.#IND", "-1.#QNAN", "-NaN", "-nan", "1.#IND", "1.#QNAN", "<NA>", "N/A",
    "NA", "NULL", "NaN", "n/a", "nan", "null"].map String.toList

def bool? (t : Text) : Option Bool :=
  if t = "True".toList ∨ t = "TRUE".toList ∨ t = "true".toList then some true
  else if t = "False".toList ∨ t = "FALSE".toList ∨ t = "false".toList then some false
  else none

def format : TextFormat where
  num := show_
  list l := "[]".toList ++ List.replicate l.length ','
  parse := parse
  bool? := bool?
  isNa t := decide (t ∈ naTexts)

theorem parseNat_digits (n : Nat) : parseNat (Nat.toDigits 10 n) = some n := by
  rw [parseNat, if_pos, dval_toDigits]
  refine ⟨Nat.toDigits_ne_nil, ?_⟩
  rw [List.all_eq_true]
  intro c hc
  exact isDigit_toDigits hc

theorem digit_ne {c d : Char} (hc : c.isDigit = true) (hd : d.isDigit = false) : c ≠ d := by
  rintro rfl; rw [hc] at hd; cases hd

theorem parseInt_pyStr (z : Int) : parseInt (pyStr z) = some z := by
  cases z with
  | ofNat n =>
    have h1 : parseInt (Nat.toDigits 10 n) =
        (parseNat (Nat.toDigits 10 n)).map fun (n : Nat) => (n : Int) := by
      unfold parseInt
      split
      · next t ht =>
        have := isDigit_toDigits (n := n) (c := '-') (by rw [ht]; simp)
        simp at this
      · rfl
    rw [pyStr, h1, parseNat_digits]; rfl
  | negSucc n =>
    rw [pyStr, parseInt, parseNat_digits]
    simp [Int.negSucc_eq]

theorem pyStr_chars {z : Int} {c : Char} (h : c ∈ pyStr z) : c = '-' ∨ c.isDigit = true := by
  cases z with
  | ofNat n => exact .inr (isDigit_toDigits h)
  | negSucc n =>
    rcases List.mem_cons.1 h with h | h
    · exact .inl h
    · exact .inr (isDigit_toDigits h)

theorem show_chars {q : Rat} {c : Char} (h : c ∈ show_ q) : c = '-' ∨ c = '/' ∨ c.isDigit = true := by
  rcases List.mem_append.1 h with h | h
  · rcases pyStr_chars h with h | h
    · exact .inl h
    · exact .inr (.inr h)
  · split at h
    · cases h
    · rcases List.mem_cons.1 h with h | h
      · exact .inr (.inl h)
      · exact .inr (.inr (isDigit_toDigits h))

theorem pyStr_has_digit (z : Int) : ∃ c ∈ pyStr z, c.isDigit = true := by
  have h : ∀ n, ∃ c ∈ Nat.toDigits 10 n, c.isDigit = true := by
    intro n
    obtain ⟨c, t, h⟩ := List.exists_cons_of_ne_nil (Nat.toDigits_ne_nil (b := 10) (n := n))
    exact ⟨c, by rw [h]; simp, isDigit_toDigits (n := n) (by rw [h]; simp)⟩
  cases z with
  | ofNat n => exact h n
  | negSucc n =>
    obtain ⟨c, hc, hd⟩ := h (n + 1)
    exact ⟨c, List.mem_cons_of_mem _ hc, hd⟩

theorem span_all {p : Char → Bool} {a b : Text} (ha : ∀ c ∈ a, p c = true)
    (hb : ∀ c ∈ b.head?, p c = false) : (a ++ b).span p = (a, b) := by
  rw [List.span_eq_takeWhile_dropWhile]
  congr 1
  · rw [List.takeWhile_append_of_pos ha]
    cases b with
    | nil => simp
    | cons c b => rw [List.takeWhile_cons, hb c (by simp)]; simp
  · rw [List.dropWhile_append_of_pos ha]
    cases b with
    | nil => simp
    | cons c b => rw [List.dropWhile_cons, hb c (by simp)]; simp

theorem parse_show (q : Rat) : parse (show_ q) = some q := by
  have ha : ∀ c ∈ pyStr q.num, decide (c ≠ '/') = true := by
    intro c hc
    rcases pyStr_chars hc with rfl | h
    · rfl
    · simpa using digit_ne h (by decide)
  rw [parse, show_]
  by_cases hd : q.den = 1
  · rw [if_pos hd, span_all ha (by simp)]
    simp only [parseInt_pyStr, Option.map_some]
    congr 1
    have := Rat.num_div_den q
    rw [hd] at this
    simpa using this
  · rw [if_neg hd, span_all ha (by simp)]
    simp only [parseInt_pyStr, Option.bind_some, parseNat_digits, Option.map_some]
    rw [Rat.num_div_den]

/-- a number has a digit, texts without digit are no numbers -/
theorem show_has_digit (q : Rat) : ∃ c ∈ show_ q, c.isDigit = true := by
  obtain ⟨c, hc, hd⟩ := pyStr_has_digit q.num
  exact ⟨c, List.mem_append_left _ hc, hd⟩

theorem show_ne {q : Rat} {t : Text}
    (h : (t.any fun c => decide (c ≠ '-' ∧ c ≠ '/' ∧ c.isDigit = false)) = true ∨
      (t.all fun c => !c.isDigit) = true) : show_ q ≠ t := by
  rintro rfl
  rcases h with h | h
  · obtain ⟨c, hc, hp⟩ := List.any_eq_true.1 h
    have hp := of_decide_eq_true hp
    rcases show_chars hc with h | h | h
    · exact hp.1 h
    · exact hp.2.1 h
    · rw [hp.2.2] at h; cases h
  · obtain ⟨c, hc, hd⟩ := show_has_digit q
    have := List.all_eq_true.1 h c hc
    rw [hd] at this; cases this

theorem lawful : format.Lawful where
  parse_num := parse_show
  isNa_num q := by
    have : show_ q ∉ naTexts := by
      intro h
      have hall : ∀ t ∈ naTexts, (t.any fun c => decide (c ≠ '-' ∧ c ≠ '/' ∧ c.isDigit = false)) = true ∨
          (t.all fun c => !c.isDigit) = true := by decide +kernel
      exact show_ne (hall _ h) rfl
    simpa [format] using this
  bool_num q := by
    have h : ∀ t ∈ ["True".toList, "TRUE".toList, "true".toList, "False".toList, "FALSE".toList,
        "false".toList], show_ q ≠ t := by
      have hall : ∀ t ∈ ["True".toList, "TRUE".toList, "true".toList, "False".toList, "FALSE".toList,
        "false".toList], (t.any fun c => decide (c ≠ '-' ∧ c ≠ '/' ∧ c.isDigit = false)) = true := by
        decide +kernel
      intro t ht
      exact show_ne (.inl (hall t ht))
    show bool? (show_ q) = none
    rw [bool?, if_neg, if_neg]
    · rintro (e | e | e)
      · exact h _ (by simp) e
      · exact h _ (by simp) e
      · exact h _ (by simp) e
    · rintro (e | e | e)
      · exact h _ (by simp) e
      · exact h _ (by simp) e
      · exact h _ (by simp) e
  clean_num q c hc := by
    rcases show_chars hc with rfl | rfl | h
    · decide
    · decide
    · exact ⟨digit_ne h (by decide), digit_ne h (by decide)⟩
  visible_num q := by
    obtain ⟨c, hc, hd⟩ := show_has_digit q
    exact ⟨c, hc, digit_ne hd (by decide), digit_ne hd (by decide)⟩
  isNa_empty := by decide +kernel
  bool_true := by decide +kernel
  bool_false := by decide +kernel
  isNa_true := by decide +kernel
  isNa_false := by decide +kernel
  parse_true := by decide +kernel
  parse_false := by decide +kernel
  parse_zero := by decide +kernel
  isNa_zero := by decide +kernel
  bool_zero := by decide +kernel

end Decimal
end Trumania
