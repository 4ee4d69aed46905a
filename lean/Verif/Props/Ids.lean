import Verif.Model.Generators
import Verif.Proofs.Ids

/-!
# Properties C04, C05, C06 (sequential ids)
-/

namespace Trumania

theorem pyInt_nonneg {q : Rat} (h : 0 ≤ q) : 0 ≤ pyInt q := by
  rw [pyInt, if_pos h]
  exact Rat.le_floor_iff.2 (by simpa using h)

/-- total of the truncated sizes of a history -/
def totalSize (sizes : List Rat) : Int := (sizes.map pyInt).sum

theorem totalSize_nonneg {sizes : List Rat} (h : ∀ q ∈ sizes, 0 ≤ q) : 0 ≤ totalSize sizes := by
  induction sizes with
  | nil => simp [totalSize]
  | cons q qs ih =>
    have := pyInt_nonneg (h q (by simp))
    have := ih (fun r hr => h r (by simp [hr]))
    simp only [totalSize, List.map_cons, List.sum_cons] at *
    omega

theorem generates_params (g : SeqGen) (sizes : List Rat) :
    (g.generates sizes).2 = { g with counter := g.counter + totalSize sizes } := by
  induction sizes generalizing g with
  | nil => simp [SeqGen.generates, totalSize]
  | cons n ns ih =>
    simp only [SeqGen.generates, ih, SeqGen.generate, totalSize, List.map_cons, List.sum_cons]
    congr 1; omega

/-- **C04** the ids of all the calls, put end to end, are the ids of the consecutive counters
starting at the generator's counter. -/
theorem C04_sequential_ids_consecutive (g : SeqGen) (sizes : List Rat) (h : ∀ q ∈ sizes, 0 ≤ q) :
    (g.generates sizes).1.flatten =
      (arange g.counter (totalSize sizes)).map (buildId g.pre g.maxLength) := by
  induction sizes generalizing g with
  | nil => simp [SeqGen.generates, totalSize, arange]
  | cons n ns ih =>
    have hn := pyInt_nonneg (h n (by simp))
    have hns := totalSize_nonneg (fun r hr => h r (List.mem_cons_of_mem _ hr))
    simp only [SeqGen.generates, List.flatten_cons]
    rw [ih _ (fun r hr => h r (List.mem_cons_of_mem _ hr))]
    simp only [SeqGen.generate, build_ids]
    rw [← List.map_append, arange_append _ hn hns]
    simp [totalSize]

/-- **C04** over any history of `generate` calls (sizes may be floats, as allowed by the code),
no id is ever returned twice, and each call returns `int(size)` ids. -/
theorem C04_sequential_ids_unique (g : SeqGen) (sizes : List Rat) (h : ∀ q ∈ sizes, 0 ≤ q) :
    (g.generates sizes).1.flatten.Nodup ∧
    (g.generates sizes).1.map List.length = sizes.map (fun q => (pyInt q).toNat) := by
  constructor
  · rw [C04_sequential_ids_consecutive g sizes h]
    exact (arange_nodup _ _).map (fun a b hab => buildId_injective hab)
  · clear h
    induction sizes generalizing g with
    | nil => rfl
    | cons n ns ih =>
      simp only [SeqGen.generates, List.map_cons, ih]
      simp [SeqGen.generate, build_ids, arange]

/-- **C05** loading what was saved succeeds, and the reloaded generator emits what the original
would emit next, for ever. -/
theorem C05_reload_continues (g : SeqGen) (before : List Rat) :
    ∃ g', SeqGen.loadFrom (g.generates before).2.saveTo = .ok g' ∧
      ∀ after, (g'.generates after).1 = ((g.generates before).2.generates after).1 := by
  refine ⟨(g.generates before).2, ?_, fun _ => rfl⟩
  generalize (g.generates before).2 = g'
  obtain ⟨c, p, l⟩ := g'
  simp [SeqGen.loadFrom, SeqGen.saveTo, Dict.get, Dict.get?, Json.asInt, Json.asStr, bind_ok]

/-- **C05** ids emitted before the save and after the reload never collide; the whole history is
the one of a single generator that was never saved. -/
theorem C05_no_collision_across_reload (g g' : SeqGen) (before after : List Rat)
    (hb : ∀ q ∈ before, 0 ≤ q) (ha : ∀ q ∈ after, 0 ≤ q)
    (hl : SeqGen.loadFrom (g.generates before).2.saveTo = .ok g') :
    (g.generates before).1 ++ (g'.generates after).1 = (g.generates (before ++ after)).1 ∧
    ((g.generates before).1.flatten ++ (g'.generates after).1.flatten).Nodup := by
  have key : (g.generates before).1 ++ (g'.generates after).1
      = (g.generates (before ++ after)).1 := by
    obtain ⟨g2, h2, hg2⟩ := C05_reload_continues g before
    rw [h2] at hl
    cases hl
    rw [hg2]
    clear h2 hg2 ha hb
    induction before generalizing g with
    | nil => rfl
    | cons n ns ih =>
      simp only [SeqGen.generates, List.cons_append]
      rw [ih]
  refine ⟨key, ?_⟩
  rw [← List.flatten_append, key]
  exact (C04_sequential_ids_unique g _ (by
    intro q hq; rcases List.mem_append.1 hq with h | h
    · exact hb q h
    · exact ha q h)).1

/-- **C06** ids of counters below `10 ^ max_length` have the same length, and sort like the
counters (strings are compared lexicographically). -/
theorem C06_ids_sorted (pre : String) (w : Nat) (hw : 0 < w) (x y : Nat)
    (hx : x < 10 ^ w) (hy : y < 10 ^ w) :
    (buildId pre w x).length = pre.length + w ∧
    (buildId pre w x < buildId pre w y ↔ x < y) := by
  have hlt : ∀ a b : Nat, a < 10 ^ w → b < 10 ^ w → a < b → buildId pre w a < buildId pre w b := by
    intro a b ha hb hab
    rw [String.lt_iff]
    simp only [buildId, String.toList_append, String.toList_ofList]
    apply List.append_left_lt
    exact lex_of_dval_lt zfill_nat_digits zfill_nat_digits
      (by rw [zfill_nat_length hw ha, zfill_nat_length hw hb])
      (by rw [zfill_nat_dval, zfill_nat_dval]; exact hab)
  refine ⟨?_, ⟨fun h => ?_, hlt x y hx hy⟩⟩
  · rw [← String.length_toList]
    simp only [buildId, String.toList_append, String.toList_ofList, List.length_append,
      zfill_nat_length hw hx, String.length_toList]
  · rcases Nat.lt_trichotomy x y with h' | h' | h'
    · exact h'
    · subst h'; exact absurd h (lt_irrefl _)
    · exact absurd h (lt_asymm (hlt y x hy hx h'))

/-- **C06** the bound is needed: past `10 ^ max_length` the order breaks. -/
theorem C06_order_breaks_past_max_length :
    ∃ (w x y : Nat), x < y ∧ ¬ (buildId "id_" w x < buildId "id_" w y) :=
  ⟨1, 9, 10, by decide, by decide⟩

/-! ### Non-vacuity -/

example : (SeqGen.generates ⟨-1, "id_", 3⟩ [2, 5/2]).1 =
    [["id_-01", "id_000"], ["id_001", "id_002"]] := by decide +kernel

end Trumania
