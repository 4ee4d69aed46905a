import Verif.Proofs.OpsRespect
import Verif.Proofs.Population

/-! The built-in operations change populations through their methods only. -/

namespace Trumania
open Spec World
variable {σ γ : Type} {env : Env σ γ} {F Z : Nat → Prop}

/-- the populations of `w'` are those of `w` after some calls -/
def PopsCalled (env : Env σ γ) (w w' : World σ γ) : Prop :=
  List.Forall₂ (PopCalls env.R) w.pops w'.pops

theorem forall₂_refl {α : Type} {R : α → α → Prop} (hR : ∀ a, R a a) (l : List α) :
    List.Forall₂ R l l := by
  induction l with
  | nil => exact .nil
  | cons a l ih => exact .cons (hR a) ih

theorem forall₂_trans {α : Type} {R : α → α → Prop} (hR : ∀ a b c, R a b → R b c → R a c)
    {l m n : List α} (h1 : List.Forall₂ R l m) (h2 : List.Forall₂ R m n) : List.Forall₂ R l n := by
  induction h1 generalizing n with
  | nil => cases h2; exact .nil
  | cons h _ ih =>
    cases h2 with
    | cons h' t' => exact .cons (hR _ _ _ h h') (ih t')

theorem forall₂_set {α : Type} {R : α → α → Prop} (hR : ∀ a, R a a) {l : List α} {k : Nat} {a b : α}
    (h : l[k]? = some a) (hab : R a b) : List.Forall₂ R l (l.set k b) := by
  induction l generalizing k with
  | nil => simp at h
  | cons x l ih =>
    cases k with
    | zero =>
      obtain rfl : x = a := by simpa using h
      exact .cons hab (forall₂_refl hR l)
    | succ k => exact .cons (hR x) (ih (by simpa using h))

theorem PopsCalled.refl (w : World σ γ) : PopsCalled env w w := forall₂_refl (fun _ => .refl) _

theorem PopsCalled.of_eq {w w' : World σ γ} (h : w'.pops = w.pops) : PopsCalled env w w' := by
  rw [PopsCalled, h]
  exact forall₂_refl (fun _ => .refl) _

theorem PopsCalled.trans {w1 w2 w3 : World σ γ} (h1 : PopsCalled env w1 w2)
    (h2 : PopsCalled env w2 w3) : PopsCalled env w1 w3 :=
  forall₂_trans (fun _ _ _ => Relation.ReflTransGen.trans) h1 h2

theorem generate_pops {g : GenRef} {n : Rat} {w w' : World σ γ}
    {cells : List Cell} (h : World.generate env g n w = .ok cells w') : w'.pops = w.pops := by
  obtain ⟨l, -, rfl⟩ := call_rest h
  rfl

theorem observe_pops {g : GenRef} {obs : List Cell} {w w' : World σ γ}
    {cells : List Cell} (h : World.observe env g obs w = .ok cells w') : w'.pops = w.pops := by
  obtain ⟨l, -, rfl⟩ := call_rest h
  rfl

theorem columnAdder_pops {name : String} {op : Op (World σ γ)}
    (hop : ColumnAdder env name op) {data : Frame} {out : Frame × Logs} {w w' : World σ γ}
    (h : op data w = .ok out w') : w'.pops = w.pops := by
  cases hop with
  | randomValues g q =>
    obtain ⟨o, h1, -⟩ := addColumns_eq_ok.1 h
    obtain ⟨v, w1, h2, h3⟩ := Act.bind_eq_ok.1 h1
    obtain ⟨-, rfl⟩ := Act.ofPy_eq_ok.1 h3
    cases q with
    | none => exact generate_pops h2
    | some f =>
      obtain ⟨_, w1, g1, g2⟩ := Act.bind_eq_ok.1 h2
      obtain ⟨_, w2, g3, g4⟩ := Act.bind_eq_ok.1 g2
      obtain ⟨_, w3, g5, g6⟩ := Act.bind_eq_ok.1 g4
      obtain ⟨-, rfl⟩ := Act.ofPy_eq_ok.1 g1
      obtain ⟨-, rfl⟩ := Act.ofPy_eq_ok.1 g5
      obtain ⟨-, rfl⟩ := Act.pure_eq_ok.1 g6
      exact generate_pops g3
  | randomValuesFromField g f =>
    obtain ⟨o, h1, -⟩ := addColumns_eq_ok.1 h
    obtain ⟨_, w1, h0, h2⟩ := Act.bind_eq_ok.1 h1
    obtain ⟨v, w2, h4, h3⟩ := Act.bind_eq_ok.1 h2
    obtain ⟨-, rfl⟩ := Act.ofPy_eq_ok.1 h0
    obtain ⟨-, rfl⟩ := Act.ofPy_eq_ok.1 h3
    exact observe_pops h4
  | timestamp r f =>
    obtain ⟨o, h1, -⟩ := addColumns_eq_ok.1 h
    obtain ⟨wa, w1, h0, h2⟩ := Act.bind_eq_ok.1 h1
    obtain ⟨⟨d, c⟩, w2, h4, h3⟩ := Act.bind_eq_ok.1 h2
    obtain ⟨_, w3, h5, h6⟩ := Act.bind_eq_ok.1 h3
    obtain ⟨-, rfl⟩ := Act.ofPy_eq_ok.1 h6
    obtain ⟨e4, rfl⟩ := Act.ofPy_eq_ok.1 h4
    cases h0
    cases h5
    rfl
  | neighbourhoodSize rel f =>
    obtain ⟨o, h1, -⟩ := addColumns_eq_ok.1 h
    obtain ⟨_, w1, h2, h3⟩ := Act.bind_eq_ok.1 h1
    obtain ⟨_, w2, h4, h5⟩ := Act.bind_eq_ok.1 h3
    obtain ⟨-, rfl⟩ := Act.ofPy_eq_ok.1 h2
    obtain ⟨-, rfl⟩ := getRel_eq_ok.1 h4
    obtain ⟨-, rfl⟩ := Act.ofPy_eq_ok.1 h5
    rfl
  | applySeries s f =>
    obtain ⟨o, h1, -⟩ := addColumns_eq_ok.1 h
    obtain ⟨-, rfl⟩ := Act.ofPy_eq_ok.1 h1
    rfl

theorem onRel_pops {rel : Nat} {f : Relationship σ → Frame → Py (Relationship σ)} {data : Frame}
    {out : Frame × Logs} {w w' : World σ γ} (h : Ops.onRel rel f data w = .ok out w') :
    w'.pops = w.pops := by
  obtain ⟨h, -⟩ := sideEffect_eq_ok.1 h
  split at h
  · obtain ⟨-, rfl⟩ := Act.pure_eq_ok.1 h
    rfl
  · obtain ⟨r, w1, h1, h⟩ := Act.bind_eq_ok.1 h
    obtain ⟨r', w2, h2, h⟩ := Act.bind_eq_ok.1 h
    obtain ⟨-, rfl⟩ := getRel_eq_ok.1 h1
    obtain ⟨-, rfl⟩ := Act.ofPy_eq_ok.1 h2
    have h3 := setRel_eq_ok.1 h
    subst h3
    rfl

/-- what a method of an attribute does -/
theorem onAttribute_eq_ok {pop : Nat} {name : String} {f : Attribute → Py Attribute}
    {w w' : World σ γ} {u : Unit} : Ops.onAttribute pop name f w = .ok u w' ↔
    ∃ p a a', w.pops[pop]? = some p ∧ p.attributes.get? name = some a ∧ f a = .ok a' ∧
      w' = { w with pops := w.pops.set pop { p with attributes := p.attributes.set name a' } } := by
  constructor
  · intro h
    obtain ⟨p, w1, h1, h⟩ := Act.bind_eq_ok.1 h
    obtain ⟨a, w2, h2, h⟩ := Act.bind_eq_ok.1 h
    obtain ⟨a', w3, h3, h⟩ := Act.bind_eq_ok.1 h
    obtain ⟨e1, rfl⟩ := getPop_eq_ok.1 h1
    obtain ⟨e2, rfl⟩ := Act.ofPy_eq_ok.1 h2
    obtain ⟨e3, rfl⟩ := Act.ofPy_eq_ok.1 h3
    exact ⟨p, a, a', e1, Population.get_eq_ok.1 e2, e3, setPop_eq_ok.1 h⟩
  · rintro ⟨p, a, a', h1, h2, h3, rfl⟩
    refine Act.bind_eq_ok.2 ⟨p, w, getPop_eq_ok.2 ⟨h1, rfl⟩, ?_⟩
    refine Act.bind_eq_ok.2 ⟨a, w, Act.ofPy_eq_ok.2 ⟨Population.get_eq_ok.2 h2, rfl⟩, ?_⟩
    refine Act.bind_eq_ok.2 ⟨a', w, Act.ofPy_eq_ok.2 ⟨h3, rfl⟩, ?_⟩
    exact setPop_eq_ok.2 rfl

theorem resetTimers_pops {i : Nat} {ids? : Option (List Val)} {w w' : World σ γ} {u : Unit}
    (h : World.resetTimers env i ids? w = .ok u w') : w'.pops = w.pops := by
  obtain ⟨t, t', w2, h2, h3, rfl⟩ := resetTimers_eq_ok.1 h
  exact (resetStory_ok h3).2.1.pops

theorem sideEffect_pops {op : Op (World σ γ)} (hop : SideEffect env F Z op) {data : Frame}
    {out : Frame × Logs} {w w' : World σ γ} (h : op data w = .ok out w') :
    PopsCalled env w w' := by
  cases hop with
  | relAdd rel f i => exact .of_eq (onRel_pops h)
  | relAddGrouped rel f i => exact .of_eq (onRel_pops h)
  | relRemove rel f i => exact .of_eq (onRel_pops h)
  | attrUpdate pop name i c =>
    obtain ⟨h, -⟩ := sideEffect_eq_ok.1 h
    split at h
    · obtain ⟨-, rfl⟩ := Act.pure_eq_ok.1 h
      exact .refl _
    · obtain ⟨_, w1, h1, h⟩ := Act.bind_eq_ok.1 h
      obtain ⟨_, w2, h2, h⟩ := Act.bind_eq_ok.1 h
      obtain ⟨-, rfl⟩ := Act.ofPy_eq_ok.1 h1
      obtain ⟨-, rfl⟩ := Act.ofPy_eq_ok.1 h2
      obtain ⟨p, a, a', e1, e2, e3, rfl⟩ := onAttribute_eq_ok.1 h
      exact forall₂_set (fun _ => .refl) e1
        (.single (.updateAttribute (Dict.get?_mem e2) e3))
  | attrAdd pop name i a sub =>
    obtain ⟨h, -⟩ := sideEffect_eq_ok.1 h
    split at h
    · obtain ⟨-, rfl⟩ := Act.pure_eq_ok.1 h
      exact .refl _
    · obtain ⟨_, w1, h1, h⟩ := Act.bind_eq_ok.1 h
      obtain ⟨_, w2, h2, h⟩ := Act.bind_eq_ok.1 h
      obtain ⟨_, w3, h3, h⟩ := Act.bind_eq_ok.1 h
      obtain ⟨-, rfl⟩ := Act.ofPy_eq_ok.1 h1
      obtain ⟨-, rfl⟩ := Act.ofPy_eq_ok.1 h2
      obtain ⟨-, rfl⟩ := Act.ofPy_eq_ok.1 h3
      obtain ⟨p, a, a', e1, e2, e3, rfl⟩ := onAttribute_eq_ok.1 h
      exact forall₂_set (fun _ => .refl) e1
        (.single (.addAttribute (Dict.get?_mem e2) e3))
  | popUpdate pop i copy =>
    obtain ⟨h, -⟩ := sideEffect_eq_ok.1 h
    obtain ⟨f, w1, h1, h⟩ := Act.bind_eq_ok.1 h
    obtain ⟨p, w2, h2, h⟩ := Act.bind_eq_ok.1 h
    obtain ⟨p', w3, h3, h⟩ := Act.bind_eq_ok.1 h
    obtain ⟨-, rfl⟩ := Act.ofPy_eq_ok.1 h1
    obtain ⟨e2, rfl⟩ := getPop_eq_ok.1 h2
    obtain ⟨e3, rfl⟩ := Act.ofPy_eq_ok.1 h3
    have h3 := setPop_eq_ok.1 h
    subst h3
    exact forall₂_set (fun _ => .refl) e2 (.single (.update f e3))
  | forceActNext story i cond hF =>
    obtain ⟨h, -⟩ := sideEffect_eq_ok.1 h
    split at h
    · obtain ⟨-, rfl⟩ := Act.pure_eq_ok.1 h
      exact .refl _
    · obtain ⟨_, w1, h1, h⟩ := Act.bind_eq_ok.1 h
      obtain ⟨_, w2, h2, h⟩ := Act.bind_eq_ok.1 h
      obtain ⟨-, rfl⟩ := Act.ofPy_eq_ok.1 h1
      obtain ⟨-, rfl⟩ := Act.ofPy_eq_ok.1 h2
      obtain ⟨s, s', h3, h4, rfl⟩ := onStory_eq_ok.1 h
      exact .of_eq rfl
  | resetTimers story i hZ =>
    obtain ⟨h, -⟩ := sideEffect_eq_ok.1 h
    obtain ⟨_, w1, h1, h⟩ := Act.bind_eq_ok.1 h
    obtain ⟨-, rfl⟩ := Act.ofPy_eq_ok.1 h1
    exact .of_eq (resetTimers_pops h)
  | transitToState story i src cond =>
    obtain ⟨h, -⟩ := sideEffect_eq_ok.1 h
    obtain ⟨_, w1, h1, h⟩ := Act.bind_eq_ok.1 h
    obtain ⟨_, w2, h2, h⟩ := Act.bind_eq_ok.1 h
    obtain ⟨-, rfl⟩ := Act.ofPy_eq_ok.1 h1
    obtain ⟨-, rfl⟩ := Act.ofPy_eq_ok.1 h2
    obtain ⟨s, s', h3, h4, rfl⟩ := onStory_eq_ok.1 h
    exact .of_eq rfl
  | maybeBackToDefault story =>
    obtain ⟨h, -⟩ := sideEffect_eq_ok.1 h
    obtain ⟨s, s', h3, h4, rfl⟩ := onStory_eq_ok.1 h
    exact .of_eq rfl

theorem runOps_pops {logSet : SetOrder String} {ops : List (Op (World σ γ))}
    (hops : ∀ op ∈ ops, ∀ {data : Frame} {out : Frame × Logs} {w w' : World σ γ},
      op data w = .ok out w' → PopsCalled env w w')
    {acc out : Frame × Logs} {w w' : World σ γ}
    (h : runOps logSet acc ops w = .ok out w') : PopsCalled env w w' := by
  induction ops generalizing acc w with
  | nil =>
    rw [runOps, Act.pure_eq_ok] at h
    obtain ⟨-, rfl⟩ := h
    exact .refl _
  | cons op ops ih =>
    rw [runOps, Act.bind_eq_ok] at h
    obtain ⟨acc1, w1, h1, h2⟩ := h
    obtain ⟨supp, h3, -⟩ := executeOperation_eq_ok h1
    exact (hops op (by simp) h3).trans (ih (fun o ho => hops o (by simp [ho])) h2)

/-- the built-in operations act on populations through their methods only -/
theorem builtIn_pops {op : Op (World σ γ)} (hop : BuiltIn env F Z op) :
    ∀ {data : Frame} {out : Frame × Logs} {w w' : World σ γ}, op data w = .ok out w' →
      PopsCalled env w w' := by
  induction hop with
  | adder hop => exact fun h => .of_eq (columnAdder_pops hop h)
  | effect hop => exact fun h => sideEffect_pops hop h
  | fieldLogger logId cols exploded =>
    intro data out w w' h
    obtain ⟨_, w1, h1, h⟩ := Act.bind_eq_ok.1 h
    obtain ⟨-, rfl⟩ := Act.ofPy_eq_ok.1 h1
    obtain ⟨-, rfl⟩ := Act.pure_eq_ok.1 h
    exact .refl _
  | dropRow field =>
    intro data out w w' h
    obtain ⟨rfl, -⟩ := transform_eq_ok.1 h
    exact .refl _
  | applyFrame sources namedAs f hf =>
    intro data out w w' h
    obtain ⟨o, h1, -⟩ := addColumns_eq_ok.1 h
    obtain ⟨-, rfl⟩ := Act.ofPy_eq_ok.1 h1
    exact .refl _
  | selectOne rel f name o p d weight =>
    intro data out w w' h
    obtain ⟨_, _, _, _, -, -, -, rfl, -⟩ := selectOne_eq_ok h
    exact .of_eq rfl
  | selectAll rel f name =>
    intro data out w w' h
    obtain ⟨_, _, -, -, rfl, -⟩ := selectAll_eq_ok h
    exact .refl _
  | selectMany rel f name q p d =>
    intro data out w w' h
    obtain ⟨_, _, _, _, _, -, -, -, -, rfl, -⟩ := selectMany_eq_ok h
    exact .of_eq rfl
  | lookup pop i sel =>
    intro data out w w' h
    obtain ⟨o, h1, -⟩ := addColumns_eq_ok.1 h
    obtain ⟨p, w1, h2, h3⟩ := Act.bind_eq_ok.1 h1
    obtain ⟨-, rfl⟩ := getPop_eq_ok.1 h2
    obtain ⟨-, rfl⟩ := Act.ofPy_eq_ok.1 h3
    exact .refl _
  | chain ops _ ih =>
    intro data out w w' h
    exact runOps_pops ih h

/-- an execution changes populations through its operations only -/
theorem execute_pops {ops : List (Op (World σ γ))} (hops : ∀ op ∈ ops, BuiltIn env F Z op) {i : Nat}
    {w w' : World σ γ} {logs : Logs} (h : execute env ops i w = .ok logs w') :
    PopsCalled env w w' := by
  simp only [execute, Act.bind_eq_ok, onStory_eq_ok, getStory_eq_ok, Act.pure_eq_ok] at h
  obtain ⟨_, _, ⟨s, _, hs, h1, rfl⟩, _, _, ⟨hs0, rfl⟩, lg, w2, hrun, _, _,
    ⟨s2, s', hs2, htick, rfl⟩, rfl, rfl⟩ := h
  show List.Forall₂ (PopCalls env.R) w.pops w2.pops
  rw [runActive.eq_def] at hrun
  split at hrun
  · obtain ⟨-, rfl⟩ := Act.pure_eq_ok.1 hrun
    exact forall₂_refl (fun _ => .refl) _
  · obtain ⟨⟨d, l⟩, w1, h3, hrun⟩ := Act.bind_eq_ok.1 hrun
    obtain ⟨_, w3, hre, hrun⟩ := Act.bind_eq_ok.1 hrun
    obtain ⟨-, rfl⟩ := Act.pure_eq_ok.1 hrun
    have hg1 := runOps_pops (fun o ho => builtIn_pops (hops o ho)) h3
    have : w3.pops = w1.pops := by
      rw [reschedule] at hre
      obtain ⟨t, w4, h5, hre⟩ := Act.bind_eq_ok.1 hre
      obtain ⟨-, rfl⟩ := getStory_eq_ok.1 h5
      split at hre
      · exact resetTimers_pops hre
      · obtain ⟨t, t', -, -, rfl⟩ := onStory_eq_ok.1 hre
        rfl
    rw [this]
    exact hg1

end Trumania
