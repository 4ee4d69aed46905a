import Verif.Proofs.Persistence
import Verif.Proofs.DecimalFormat

/-!
# C64: a relationship saved to a CSV file and loaded again
-/

namespace Trumania
namespace Relationship
open Spec
variable {σ : Type} {F : TextFormat}

theorem get_relations_new (R : Rng σ) (env : Orders) (seed : Int) :
    (Relationship.new R seed).get_relations env = [] := by
  simp [get_relations, Relationship.new]

/-- **C64** (partial) A relationship that has relations, whose ids are all numbers or all texts that
look like neither numbers nor missing values, is loaded from its file with the same seed and the same
relations; its random numbers restart from the seed. Missing from the full property: the other
relationships (see the counterexamples). -/
theorem C64_reloaded_partial (hF : F.Lawful) (R : Rng σ) (env env' env₀ env₁ : Orders)
    {r : Relationship σ} (hne : r.get_relations env₀ ≠ [])
    (hk : KeptIds F (((r.get_relations env₀).map fun x => x.1) ++
      (r.get_relations env₀).map fun x => x.2.1)) :
    ∃ r', loadText F R env' (r.saveText F env) = .ok r' ∧ r'.seed = r.seed ∧
      r'.state = R.seed r.seed ∧ (r'.get_relations env₁).Perm (r.get_relations env₀) := by
  have hp : (r.get_relations env).Perm (r.get_relations env₀) := by
    rw [get_relations_perm_iff]
    intro f
    rw [get_relations_none_rowsOf]
  have hne' : r.get_relations env ≠ [] := fun h => hne (by rw [h] at hp; exact hp.nil_eq.symm)
  have hk' : KeptIds F (((r.get_relations env).map fun x => x.1) ++
      (r.get_relations env).map fun x => x.2.1) := by
    have hm : ∀ v, v ∈ ((r.get_relations env).map fun x => x.1) ++
      ((r.get_relations env).map fun x => x.2.1) ↔ v ∈ ((r.get_relations env₀).map fun x => x.1) ++
      (r.get_relations env₀).map fun x => x.2.1 := fun v =>
      ((hp.map _).append (hp.map _)).mem_iff
    simpa only [KeptIds, hm] using hk
  rw [loadText_saveText hF R env env' hne' hk']
  have hsz : WellSized (.relations ((r.get_relations env).map fun x => x.1)
      ((r.get_relations env).map fun x => x.2.1) (.list ((r.get_relations env).map fun x => x.2.2))) := by
    simp [WellSized]
  obtain ⟨r', h1, h2, h3, h4, h5⟩ := addCall_spec (Reachable.new (R := R) r.seed).gwf _ env' hsz
  refine ⟨r', h1, h2, h3, ?_⟩
  have := C16_step R (Reachable.new r.seed) h1 env₀ env₁
  refine this.trans ?_
  refine List.Perm.trans (List.Perm.of_eq ?_) hp
  have h0 : (Relationship.new R r.seed).get_relations env₀ = [] := get_relations_new R env₀ r.seed
  rw [h0, List.nil_append, added_relations, addedRows, Weights.expand]
  generalize r.get_relations env = L
  induction L with
  | nil => rfl
  | cons x L ih => simpa using ih

/-! ### Cases -/

/-- relations written in a new relationship, saved, loaded and listed -/
def exampleReload (froms tos : List Val) (weights : List Rat) : Py (Int × List (Val × Val × Rat)) := do
  let r ← (Relationship.new Rng.counter 7).add_relations Orders.a froms tos (.list weights)
  let r' ← loadText Decimal.format Rng.counter Orders.b (r.saveText Decimal.format Orders.a)
  .ok (r'.seed, r'.get_relations Orders.a)

/-- the hypotheses hold of ids made of texts, even if some of them look like numbers -/
example : KeptIds Decimal.format [.str "alice", .str "12", .str "b,c"] := by
  refine .inr ⟨?_, "alice", by simp, by decide +kernel⟩
  intro v hv
  simp only [List.mem_cons, List.not_mem_nil, or_false] at hv
  rcases hv with rfl | rfl | rfl
  · exact ⟨_, rfl, by simp [CleanText], by decide +kernel⟩
  · exact ⟨_, rfl, by simp [CleanText], by decide +kernel⟩
  · exact ⟨_, rfl, by simp [CleanText], by decide +kernel⟩

/-- and of numbers -/
example : KeptIds Decimal.format [.num 3, .num (-1)] := .inl (by
  intro v hv
  simp only [List.mem_cons, List.not_mem_nil, or_false] at hv
  rcases hv with rfl | rfl <;> exact ⟨_, rfl⟩)

example : exampleReload [.str "alice", .str "12", .str "alice"] [.str "b,c", .str "alice", .str "12"]
    [1, 1/2, 3] = .ok (7, [(.str "alice", .str "12", 3), (.str "alice", .str "b,c", 1),
      (.str "12", .str "alice", 1/2)]) := by decide +kernel

/-- **C64** counterexample: ids that are texts made of digits come back as numbers. -/
theorem C64_counterexample_digits :
    exampleReload [.str "12"] [.str "007"] [1] = .ok (7, [(.num 12, .num 7, 1)]) := by decide +kernel

/-- **C64** counterexample: numbers come back as texts if other ids are texts. -/
theorem C64_counterexample_mixed :
    exampleReload [.str "alice"] [.num 5] [1] = .ok (7, [(.str "alice", .str "5", 1)]) := by
  decide +kernel

/-- **C64** counterexample: an id `null` comes back as a missing value. -/
theorem C64_counterexample_na :
    exampleReload [.str "bob", .str "carol"] [.str "null", .str "bob"] [1, 2] =
      .ok (7, [(.str "carol", .str "bob", 2), (.str "bob", .na, 1)]) := by decide +kernel

/-- **C64** counterexample: a relationship without relation is saved, but its file cannot be loaded. -/
theorem C64_counterexample_empty (hF : F.Lawful) (R : Rng σ) (env env' : Orders) (seed : Int) :
    loadText F R env' ((Relationship.new R seed).saveText F env) = .error .keyError := by
  have hrows : (Relationship.new R seed).savedRows F env = [(Item.seed F seed).row F] := by
    rw [savedRows, get_relations_new]
    rfl
  have hread : readCsv ((Relationship.new R seed).saveText F env) =
      .ok (["param".toList, [], [], "value".toList], [(Item.seed F seed).row F]) := by
    rw [saveText, hrows]
    apply C63_roundtrip_partial
    · refine ⟨by simp, by simp [CleanText], ?_⟩
      rintro ⟨t, ht, -⟩; simp at ht
    · rintro t ts h
      cases h
      rintro ⟨r, hr⟩
      simp at hr
    · intro row hm
      rw [List.mem_singleton] at hm
      subst hm
      exact cleanLine_row hF (by simp [Item.seed, CleanText]) (hF.clean_num _) (hF.clean_num _)
    · intro row hm
      rw [List.mem_singleton] at hm
      subst hm; rfl
  have hent : entriesOf F [(Item.seed F seed).row F] = [((Item.seed F seed).row F, .num seed)] := by
    have := TextFormat.infer_num hF (vs := [.num (seed : Rat)]) (by simp)
    rw [List.map_singleton] at this
    have h3 : [(Item.seed F seed).row F].map (field 3) = [F.val (.num seed)] := rfl
    rw [entriesOf, h3, this]
    rfl
  rw [loadText, hread, bind_ok]
  simp only [hent]
  simp [Item.seed, Item.row, field, TextFormat.toInt, pivotOf, bind_ok]

end Relationship
end Trumania
