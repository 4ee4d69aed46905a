import Verif.Model.Util
import Verif.Proofs.Basic
import Mathlib.Tactic.Ring
import Mathlib.Tactic.Linarith
import Mathlib.Data.List.Lex
import Mathlib.Data.String.Basic

/-! Helper lemmas on decimal rendering and zero padding. -/

namespace Trumania

/-- value of a string of decimal digits -/
def dval : List Char → Nat
  | [] => 0
  | c :: cs => (c.toNat - 48) * 10 ^ cs.length + dval cs

theorem dval_append (a b : List Char) : dval (a ++ b) = dval a * 10 ^ b.length + dval b := by
  induction a with
  | nil => simp [dval]
  | cons c cs ih => simp only [List.cons_append, dval, ih, List.length_append, pow_add]; ring

theorem dval_replicate_zero (k : Nat) : dval (List.replicate k '0') = 0 := by
  induction k with
  | zero => rfl
  | succ k ih =>
    have h : '0'.toNat - 48 = 0 := by decide
    rw [List.replicate_succ, dval, ih, h, Nat.zero_mul]

theorem dval_toDigits (n : Nat) : dval (Nat.toDigits 10 n) = n := by
  induction n using Nat.strongRecOn with
  | ind n ih =>
    rw [Nat.toDigits_eq_if (by decide)]
    split
    · simp only [dval, List.length_nil, pow_zero, mul_one, add_zero]
      exact Nat.toNat_digitChar_sub_48_of_lt_ten ‹_›
    · have hlt : n / 10 < n := Nat.div_lt_self (by omega) (by decide)
      rw [dval_append, ih _ hlt]
      simp only [dval, List.length_nil, List.length_cons, zero_add, pow_zero, pow_one, mul_one,
        add_zero]
      rw [Nat.toNat_digitChar_sub_48_of_lt_ten (Nat.mod_lt _ (by decide))]
      omega

theorem isDigit_toDigits {n : Nat} {c : Char} (h : c ∈ Nat.toDigits 10 n) : c.isDigit = true :=
  Nat.isDigit_of_mem_toDigits (by decide) (by decide) h

theorem isDigit_bounds {c : Char} (h : c.isDigit = true) : 48 ≤ c.toNat ∧ c.toNat ≤ 57 := by
  simp only [Char.isDigit, Bool.and_eq_true, decide_eq_true_eq, ge_iff_le, UInt32.le_iff_toNat_le] at h
  exact h

theorem isDigit_ne_minus {c : Char} (h : c.isDigit = true) : c ≠ '-' := by
  rintro rfl; exact absurd h (by decide)

theorem isDigit_ne_plus {c : Char} (h : c.isDigit = true) : c ≠ '+' := by
  rintro rfl; exact absurd h (by decide)

/-- zero padding of an unsigned string of digits -/
theorem zfill_digits {s : List Char} (hs : ∀ c ∈ s, c.isDigit = true) (w : Nat) :
    zfill s w = List.replicate (w - s.length) '0' ++ s := by
  cases s with
  | nil => simp [zfill]
  | cons c cs =>
    have := hs c (by simp)
    rw [zfill, if_neg]
    rintro (h | h)
    · exact isDigit_ne_minus this h
    · exact isDigit_ne_plus this h

theorem zfill_nat (n w : Nat) :
    zfill (pyStr (n : Int)) w =
      List.replicate (w - (Nat.toDigits 10 n).length) '0' ++ Nat.toDigits 10 n :=
  zfill_digits (fun _ h => isDigit_toDigits h) w

/-- value of a signed decimal -/
def sval : List Char → Int
  | '-' :: cs => -(dval cs : Int)
  | cs => dval cs

theorem sval_zfill (x : Int) (w : Nat) : sval (zfill (pyStr x) w) = x := by
  cases x with
  | ofNat n =>
    have : zfill (pyStr (Int.ofNat n)) w =
        List.replicate (w - (Nat.toDigits 10 n).length) '0' ++ Nat.toDigits 10 n := zfill_nat n w
    rw [this]
    have hd : ∀ c ∈ List.replicate (w - (Nat.toDigits 10 n).length) '0' ++ Nat.toDigits 10 n,
        c.isDigit = true := by
      intro c hc
      rcases List.mem_append.1 hc with h | h
      · rw [(List.mem_replicate.1 h).2]; rfl
      · exact isDigit_toDigits h
    have hv : dval (List.replicate (w - (Nat.toDigits 10 n).length) '0' ++ Nat.toDigits 10 n) = n := by
      rw [dval_append, dval_replicate_zero, dval_toDigits]; simp
    revert hd hv
    generalize List.replicate (w - (Nat.toDigits 10 n).length) '0' ++ Nat.toDigits 10 n = s
    intro hd hv
    unfold sval
    split
    · exact absurd rfl (isDigit_ne_minus (hd '-' (by simp)))
    · rw [hv]; rfl
  | negSucc n =>
    simp only [pyStr, zfill, true_or, if_true, sval]
    rw [dval_append, dval_replicate_zero, dval_toDigits]
    simp [Int.negSucc_eq]

theorem zfill_pyStr_injective {x y : Int} {w : Nat}
    (h : zfill (pyStr x) w = zfill (pyStr y) w) : x = y := by
  rw [← sval_zfill x w, h, sval_zfill]

theorem buildId_injective {pre : String} {w : Nat} {x y : Int}
    (h : buildId pre w x = buildId pre w y) : x = y := by
  have : (buildId pre w x).toList = (buildId pre w y).toList := by rw [h]
  simp only [buildId, String.toList_append, String.toList_ofList] at this
  exact zfill_pyStr_injective (List.append_cancel_left this)

theorem dval_lt {s : List Char} (hs : ∀ c ∈ s, c.isDigit = true) : dval s < 10 ^ s.length := by
  induction s with
  | nil => simp [dval]
  | cons c cs ih =>
    have hc := isDigit_bounds (hs c (by simp))
    have := ih (fun d hd => hs d (by simp [hd]))
    rw [dval, List.length_cons, pow_succ]
    have h9 : (c.toNat - 48) * 10 ^ cs.length ≤ 9 * 10 ^ cs.length :=
      Nat.mul_le_mul_right _ (by omega)
    omega

/-- digit strings of equal length compare like their values -/
theorem lex_of_dval_lt {s t : List Char} (hs : ∀ c ∈ s, c.isDigit = true)
    (ht : ∀ c ∈ t, c.isDigit = true) (hl : s.length = t.length) (h : dval s < dval t) : s < t := by
  induction s generalizing t with
  | nil =>
    cases t with
    | nil => simp at h
    | cons => simp at hl
  | cons c cs ih =>
    cases t with
    | nil => simp at hl
    | cons d ds =>
      have hl' : cs.length = ds.length := by simpa using hl
      have hc := isDigit_bounds (hs c (by simp))
      have hd := isDigit_bounds (ht d (by simp))
      have hcs := dval_lt (fun x hx => hs x (List.mem_cons_of_mem _ hx) : ∀ x ∈ cs, _)
      have hds := dval_lt (fun x hx => ht x (List.mem_cons_of_mem _ hx) : ∀ x ∈ ds, _)
      rw [dval, dval, hl'] at h
      rw [hl'] at hcs
      rw [List.cons_lt_cons_iff]
      rcases Nat.lt_trichotomy c.toNat d.toNat with hlt | heq | hgt
      · left
        rw [Char.lt_def, UInt32.lt_iff_toNat_lt]; exact hlt
      · right
        have : c = d := Char.toNat_inj.1 heq
        subst this
        exact ⟨rfl, ih (fun x hx => hs x (List.mem_cons_of_mem _ hx))
          (fun x hx => ht x (List.mem_cons_of_mem _ hx)) hl' (by omega)⟩
      · exfalso
        have h1 : (d.toNat - 48 + 1) * 10 ^ ds.length ≤ (c.toNat - 48) * 10 ^ ds.length :=
          Nat.mul_le_mul_right _ (by omega)
        rw [Nat.add_mul] at h1
        omega

theorem toDigits_length_le {n w : Nat} (hw : 0 < w) (h : n < 10 ^ w) :
    (Nat.toDigits 10 n).length ≤ w :=
  (Nat.length_toDigits_le_iff (by decide) hw).2 h

/-- a fitting counter is rendered with exactly `w` digits -/
theorem zfill_nat_length {n w : Nat} (hw : 0 < w) (h : n < 10 ^ w) :
    (zfill (pyStr (n : Int)) w).length = w := by
  have := toDigits_length_le hw h
  rw [zfill_nat]; simp; omega

theorem zfill_nat_digits {n w : Nat} : ∀ c ∈ zfill (pyStr (n : Int)) w, c.isDigit = true := by
  intro c hc
  rw [zfill_nat] at hc
  rcases List.mem_append.1 hc with h | h
  · rw [(List.mem_replicate.1 h).2]; rfl
  · exact isDigit_toDigits h

theorem zfill_nat_dval {n w : Nat} : dval (zfill (pyStr (n : Int)) w) = n := by
  rw [zfill_nat, dval_append, dval_replicate_zero, dval_toDigits]; simp

theorem arange_nodup (s n : Int) : (arange s n).Nodup := by
  rw [arange]
  exact List.nodup_range.map (fun a b h => by omega)

theorem arange_append (s : Int) {n m : Int} (hn : 0 ≤ n) (hm : 0 ≤ m) :
    arange s n ++ arange (s + n) m = arange s (n + m) := by
  simp only [arange]
  rw [Int.toNat_add hn hm, List.range_add, List.map_append, List.map_map]
  congr 1
  apply List.map_congr_left
  intro a _
  simp [Int.toNat_of_nonneg hn]; ring

end Trumania
