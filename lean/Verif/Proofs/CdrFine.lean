import Verif.Spec.Cdr
import Verif.Proofs.Cdr
import Verif.Proofs.Stock

/-! Helper lemmas: the operations of the six stories of test_cdr.py, and what they leave alone. -/

namespace Trumania
namespace Cdr
open Spec World
variable {σ γ : Type} {env : Env σ γ} {F : Nat → Prop} {fmt : Int → Cell} {c : Cast}

/-- a built-in operation that changes no relationship, and resets or forces members only of stories in `F` -/
def Fine (env : Env σ γ) (F : Nat → Prop) (op : Op (World σ γ)) : Prop :=
  BuiltIn env F F op ∧ Apart env (fun _ => True) op

theorem Fine.adder {name : String} {op : Op (World σ γ)} (h : ColumnAdder env name op) : Fine env F op :=
  ⟨.adder h, .adder h⟩

theorem Fine.lookup (pop : Nat) (i : String) (sel : Dict String String) : Fine env F (Ops.lookup pop i sel) :=
  ⟨.lookup _ _ _, .lookup _ _ _⟩

theorem Fine.selectOne (rel : Nat) (f n : String) (o d : Bool) (wt : Option (Dict Val Rat)) :
    Fine env F (Ops.selectOne env rel f n o false d wt) := ⟨.selectOne _ _ _ _ _ _ _, .selectOne _ _ _ _ _ _ _ (by simp)⟩

theorem Fine.selectAll (rel : Nat) (f n : String) : Fine env F (Ops.selectAll env rel f n) :=
  ⟨.selectAll _ _ _, .selectAll _ _ _⟩

theorem Fine.attrUpdate (pop : Nat) (n i s : String) : Fine env F (Ops.attrUpdate pop n i s) :=
  ⟨.effect (.attrUpdate _ _ _ _), .attrUpdate _ _ _ _⟩

theorem Fine.force (story : Nat) (hF : F story) (i : String) (cond : Option String) : Fine env F (Ops.forceActNext story i cond) :=
  ⟨.effect (.forceActNext _ _ _ hF), .forceActNext _ _ _⟩

theorem Fine.reset (story : Nat) (hF : F story) (i : Option String) : Fine env F (Ops.resetTimers env story i) :=
  ⟨.effect (.resetTimers _ _ hF), .resetTimers _ _⟩

theorem Fine.transit (story : Nat) (i : String) (src : Ops.StateSource) (cond : Option String) :
    Fine env F (Ops.transitToState story i src cond) :=
  ⟨.effect (.transitToState _ _ _ _), .transitToState _ _ _ _⟩

theorem Fine.back (story : Nat) : Fine env F (Ops.maybeBackToDefault env story) :=
  ⟨.effect (.maybeBackToDefault _), .maybeBackToDefault _⟩

theorem Fine.logger (id : String) (cols ex : List String) : Fine env F (Ops.fieldLogger id cols ex) :=
  ⟨.fieldLogger _ _ _, .fieldLogger _ _ _⟩

theorem Fine.apply (sources names : List String) (f : Frame → Py Frame)
    (hf : ∀ d r, f d = .ok r → r.index = d.index) : Fine env F (Ops.applyFrame sources names f) :=
  ⟨.applyFrame _ _ _ fun d r hd h => by rw [hf d r h]; exact hd, .applyFrame _ _ _⟩

theorem Fine.nested {ops : List (Op (World σ γ))} (h : ∀ op ∈ ops, Fine env F op) : Fine env F (nested env ops) :=
  ⟨.chain _ fun op hop => (h op hop).1, .chain _ fun op hop => (h op hop).2⟩

theorem abFields_fine (t : Talk) : ∀ op ∈ abFields env fmt t, Fine env F op := by
  intro op hop
  simp only [abFields, List.mem_cons, List.not_mem_nil, or_false] at hop
  rcases hop with rfl | rfl | rfl | rfl | rfl | rfl | rfl | rfl
  · exact .adder (.timestamp _ _)
  · exact .selectOne _ _ _ _ _ _
  · exact .selectAll _ _ _
  · exact .lookup _ _ _
  · exact .selectAll _ _ _
  · exact .lookup _ _ _
  · exact .apply _ _ _ fun d r h => (selectSims_ok h).1.1
  · exact .apply _ _ _ fun d r h => (cdrType_ok h).1.1

theorem cellStatus_fine (t : Talk) : ∀ op ∈ cellStatus env t, Fine env F op := by
  intro op hop
  simp only [cellStatus, List.mem_cons, List.not_mem_nil, or_false] at hop
  rcases hop with rfl | rfl | rfl | rfl | rfl | rfl | rfl
  · exact .lookup _ _ _
  · exact .lookup _ _ _
  · exact .lookup _ _ _
  · exact .lookup _ _ _
  · exact .adder (.randomValuesFromField _ _)
  · exact .adder (.randomValuesFromField _ _)
  · exact .apply _ _ _ fun d r h => (callStatus_ok h).1.1

theorem updateAccounts_fine (t : Talk) : ∀ op ∈ (updateAccounts t : List (Op (World σ γ))), Fine env F op := by
  intro op hop
  simp only [updateAccounts, List.mem_cons, List.not_mem_nil, or_false] at hop
  rcases hop with rfl | rfl
  · exact .adder (.applySeries _ _)
  · exact .attrUpdate _ _ _ _

theorem triggerTopups_fine (t : Talk) (h : F t.topups) : ∀ op ∈ triggerTopups env t, Fine env F op := by
  intro op hop
  simp only [triggerTopups, List.mem_cons, List.not_mem_nil, or_false] at hop
  rcases hop with rfl | rfl
  · exact .adder (.randomValuesFromField _ _)
  · exact .force _ h _ _

theorem getBursty_fine (t : Talk) (h1 : F t.calls) (h2 : F t.sms) : ∀ op ∈ getBursty env t, Fine env F op := by
  intro op hop
  simp only [getBursty, List.mem_cons, List.not_mem_nil, or_false] at hop
  rcases hop with rfl | rfl | rfl | rfl | rfl | rfl | rfl | rfl
  · exact .adder (.randomValuesFromField _ _)
  · exact .transit _ _ _ _
  · exact .transit _ _ _ _
  · exact .adder (.randomValuesFromField _ _)
  · exact .transit _ _ _ _
  · exact .transit _ _ _ _
  · exact .reset _ h1 _
  · exact .reset _ h2 _

theorem chain_fine (hr : F c.repair) (hc : F c.t.calls) (hs : F c.t.sms) {i : Nat} {ops : List (Op (World σ γ))}
    (hi : (c.chains env fmt)[i]? = some ops) (ht : F c.t.topups ∨ i ≠ 4 ∧ i ≠ 5) : ∀ op ∈ ops, Fine env F op := by
  intro op hop
  have hi : i = 0 ∧ ops = Uganda.breakDownOps env c.u fmt c.down c.repair ∨
      i = 1 ∧ ops = Uganda.repairOps env c.u fmt c.repair ∨
      i = 2 ∧ ops = mobilityOps env fmt c.mobility c.t.subs c.places ∨
      i = 3 ∧ ops = topupOps env fmt c.t.topups c.t.sims c.agents ∨
      F c.t.topups ∧ ops = callOps env fmt c.t ∨ F c.t.topups ∧ ops = smsOps env fmt c.t := by
    match i, ht with
    | 0, _ | 1, _ | 2, _ | 3, _ => cases hi; simp
    | 4, ht => cases hi; simp_all
    | 5, ht => cases hi; simp_all
    | k + 6, _ => cases hi
  rcases hi with ⟨-, rfl⟩ | ⟨-, rfl⟩ | ⟨-, rfl⟩ | ⟨-, rfl⟩ | ⟨ht, rfl⟩ | ⟨ht, rfl⟩ <;>
    simp only [Uganda.breakDownOps, Uganda.repairOps, mobilityOps, topupOps, callOps, smsOps, List.mem_cons,
      List.not_mem_nil, or_false] at hop
  · rcases hop with rfl | rfl | rfl | rfl | rfl | rfl
    · exact .adder (.randomValues _ _)
    · exact .attrUpdate _ _ _ _
    · exact .reset _ hr _
    · exact .adder (.timestamp _ _)
    · exact .logger _ _ _
    · exact .back _
  · rcases hop with rfl | rfl | rfl | rfl | rfl
    · exact .adder (.randomValues _ _)
    · exact .attrUpdate _ _ _ _
    · exact .adder (.timestamp _ _)
    · exact .logger _ _ _
    · exact .back _
  · rcases hop with rfl | rfl | rfl | rfl | rfl | rfl
    · exact .lookup _ _ _
    · exact .selectOne _ _ _ _ _ _
    · exact .attrUpdate _ _ _ _
    · exact .adder (.timestamp _ _)
    · exact .logger _ _ _
    · exact .back _
  · rcases hop with rfl | rfl | rfl | rfl | rfl | rfl | rfl | rfl
    · exact .lookup _ _ _
    · exact .selectOne _ _ _ _ _ _
    · exact .adder (.randomValues _ _)
    · exact .adder (.applySeries _ _)
    · exact .attrUpdate _ _ _ _
    · exact .adder (.timestamp _ _)
    · exact .logger _ _ _
    · exact .back _
  · rcases hop with rfl | rfl | rfl | rfl | rfl | rfl | rfl | rfl | rfl | rfl
    · exact .nested (abFields_fine _)
    · exact .nested (cellStatus_fine _)
    · exact .adder (.randomValues _ _)
    · exact .adder (.randomValues _ _)
    · exact .apply _ _ _ fun d r h => (callValue_ok h).1.1
    · exact .nested (updateAccounts_fine _)
    · exact .nested (triggerTopups_fine _ ht)
    · exact .nested (getBursty_fine _ hc hs)
    · exact .logger _ _ _
    · exact .back _
  · rcases hop with rfl | rfl | rfl | rfl | rfl | rfl | rfl | rfl | rfl
    · exact .nested (abFields_fine _)
    · exact .nested (cellStatus_fine _)
    · exact .adder (.randomValues _ _)
    · exact .apply _ _ _ fun d r h => (smsValue_ok h).1.1
    · exact .nested (updateAccounts_fine _)
    · exact .nested (triggerTopups_fine _ ht)
    · exact .nested (getBursty_fine _ hc hs)
    · exact .logger _ _ _
    · exact .back _

theorem chains_fine : ∀ ops ∈ c.chains env fmt, ∀ op ∈ ops, Fine env (fun _ => True) op := by
  intro ops hops
  obtain ⟨i, hi⟩ := List.mem_iff_getElem?.1 hops
  exact chain_fine trivial trivial trivial hi (.inl trivial)

end Cdr
end Trumania
