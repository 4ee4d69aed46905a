import Verif.Props.Columns
import Verif.Props.GeneratorSizes
import Verif.Proofs.HelloBuild

/-!
# C47: the lists of `generate(named_as, quantity_field)`, for the operation itself
-/

namespace Trumania
open Spec
variable {σ : Type} {env : Env σ (AnyGen σ)} {R : Rng σ} {w w' : World σ (AnyGen σ)}

/-- **C47** The operation with a quantity field, when it returns: the field holds whole numbers that are not negative, the
generator is called once for their sum, each row gets a list of exactly its quantity of values, and these lists one after the
other are the values generated, each used once. -/
theorem C47_operation (hs : env.sem = AnyGen.sem R) {g : GenRef} (hg : KeepsLengths g) {field : String} {data : Frame}
    {cells : List Cell} (h : Ops.randomCells env g (some field) data w = .ok cells w') :
    ∃ (qties : List Nat) (col flat : List Cell) (lists : List (List Val)), data.col field = .ok col ∧
      List.Forall₂ HoldsCount col qties ∧ World.generate env g (qties.sum : Rat) w = .ok flat w' ∧
      cells = lists.map Cell.list ∧ lists.map List.length = qties ∧ lists.flatten.map Cell.scalar = flat := by
  rw [Ops.randomCells] at h
  obtain ⟨qties, w1, h1, h⟩ := Act.bind_eq_ok.1 h
  obtain ⟨k1, rfl⟩ := Act.ofPy_eq_ok.1 h1
  obtain ⟨col, hc, hq⟩ := bind_eq_ok.1 k1
  obtain ⟨flat, w2, h2, h⟩ := Act.bind_eq_ok.1 h
  obtain ⟨vals, w3, h3, h⟩ := Act.bind_eq_ok.1 h
  obtain ⟨k3, rfl⟩ := Act.ofPy_eq_ok.1 h3
  obtain ⟨rfl, rfl⟩ := Act.pure_eq_ok.1 h
  have e := Hello.asVal_scalars k3
  have hl : vals.length = qties.sum := by
    have := World.call_length hs hg (q := .size (qties.sum : Rat)) (n := qties.sum) rfl h2
    rwa [e, List.length_map] at this
  obtain ⟨f1, f2⟩ := sliceBulk_spec vals qties hl
  exact ⟨qties, col, flat, _, hc, (mapM_ok_iff.1 hq).imp fun _ _ => asNat_ok, h2, rfl, f1, by rw [f2, e]⟩

/-- three rows that ask for 2, 0 and 1 values of a constant -/
example : Ops.randomCells env (.constant (.num 7)) (some "Q") ⟨["Q"], [⟨.num 0, [.num 2]⟩, ⟨.num 1, [.num 0]⟩,
    ⟨.num 2, [.num 1]⟩]⟩ w = .ok [.list [.num 7, .num 7], .list [], .list [.num 7]] w := rfl

end Trumania
