import Verif.Model.Generators
import Verif.Proofs.Basic
import Mathlib.Tactic.Linarith

/-!
# Properties C47 (bulk values), C50 (triggers), C65 (numpy generator reload), C68 (seeds)
-/

namespace Trumania

/-! ### C47 -/

theorem sliceBulk_spec {α : Type} (vals : List α) (qties : List Nat) (h : vals.length = qties.sum) :
    (sliceBulk vals qties).map List.length = qties ∧ (sliceBulk vals qties).flatten = vals := by
  induction qties generalizing vals with
  | nil =>
    simp only [List.sum_nil, List.length_eq_zero_iff] at h
    simp [sliceBulk, h]
  | cons q qs ih =>
    simp only [List.sum_cons] at h
    obtain ⟨h1, h2⟩ := ih (vals.drop q) (by simp; omega)
    simp only [sliceBulk, List.map_cons, h1, List.flatten_cons, h2, List.take_append_drop]
    simp; omega

/-- **C47** for a generator returning as many values as asked, each row gets exactly its quantity
of values, and the lists concatenated in row order are exactly the generated values. -/
theorem C47_bulk_values {α τ : Type} (gen : τ → Nat → Py (List α × τ)) (s s' : τ)
    (qties : List Nat) (vals : List α) (hg : gen s qties.sum = .ok (vals, s'))
    (hlen : vals.length = qties.sum) :
    ∃ lists, bulkValues gen s qties = .ok (lists, s') ∧ lists.map List.length = qties ∧
      lists.flatten = vals :=
  ⟨sliceBulk vals qties, by rw [bulkValues, hg]; rfl, sliceBulk_spec vals qties hlen⟩

/-- successive calls of a generator, each from the state left by the one before -/
inductive Spec.Successive {α τ : Type} (gen : τ → Nat → Py (List α × τ)) :
    τ → List Nat → List (List α) → τ → Prop where
  | none (s) : Successive gen s [] [] s
  | more {s s1 s2 n ns v vs} : gen s n = .ok (v, s1) → Successive gen s1 ns vs s2 →
      Successive gen s (n :: ns) (v :: vs) s2

/-- **C47** the dependent bulk generator gives each observation what the element generator answers to its
quantity, called one row after the other. -/
theorem C47_dependent_bulk {α τ : Type} (gen : τ → Nat → Py (List α × τ)) (s s' : τ) (qties : List Nat)
    (lists : List (List α)) :
    bulkGenerate gen s qties = .ok (lists, s') ↔ Spec.Successive gen s qties lists s' := by
  induction qties generalizing s lists with
  | nil =>
    constructor
    · intro h; cases h; exact .none _
    · rintro ⟨⟩; rfl
  | cons q qs ih =>
    simp only [bulkGenerate, bind_eq_ok]
    constructor
    · rintro ⟨⟨v, s1⟩, h1, ⟨vs, s2⟩, h2, hfin⟩
      cases hfin
      exact .more h1 ((ih _ _).1 h2)
    · rintro (_ | ⟨h1, h2⟩)
      exact ⟨_, h1, _, (ih _ _).2 h2, rfl⟩

/-- **C47** each observation gets exactly its quantity of values, if the element generator gives as many
values as asked. -/
theorem C47_dependent_bulk_counts {α τ : Type} (gen : τ → Nat → Py (List α × τ))
    (hgen : ∀ s n v s', gen s n = .ok (v, s') → v.length = n) (s s' : τ) (qties : List Nat)
    (lists : List (List α)) (h : bulkGenerate gen s qties = .ok (lists, s')) :
    lists.map List.length = qties := by
  rw [C47_dependent_bulk] at h
  induction h with
  | none s => rfl
  | more h1 _ ih => rw [List.map_cons, ih, hgen _ _ _ _ h1]

example : (bulkGenerate (fun (s n : Nat) => .ok ((List.range n).map (· + s), s + n)) 10
    [2, 0, 3]).map (·.1) = .ok [[10, 11], [], [12, 13, 14]] := by decide +kernel

example : (bulkValues (fun (s n : Nat) => .ok ((List.range n).map (· + s), s + n)) 10
    [2, 0, 3]).map (·.1) = .ok [[10, 11], [], [12, 13, 14]] := by decide +kernel

/-! ### C50 -/

/-- **C50** one boolean per observation; never triggered where the probability is `<= 0`, always
where it is `>= 1`. -/
theorem C50_trigger_certainties {σ : Type} (R : Rng σ) (mapper : List Rat → List Rat) (s s' : σ)
    (obs : List Rat) (out : List Bool) (h : triggerGenerate R mapper s obs = .ok (out, s')) :
    List.Forall₂ (fun p b => (p ≤ 0 → b = false) ∧ (1 ≤ p → b = true)) (mapper obs) out ∧
      out.length = obs.length := by
  simp only [triggerGenerate] at h
  split at h
  · rename_i hlen
    cases h
    have hr := R.uniform_range s obs.length
    have hl := R.uniform_length s obs.length
    refine ⟨?_, by simp [hlen, hl]⟩
    generalize (R.uniform s obs.length).1 = us at hlen hr hl
    generalize mapper obs = ps at hlen
    clear hl
    induction us generalizing ps with
    | nil =>
      rw [List.length_nil, List.length_eq_zero_iff] at hlen
      subst hlen
      simp
    | cons u us ih =>
      cases ps with
      | nil => simp at hlen
      | cons p ps =>
        have hu := hr u (by simp)
        simp only [List.zipWith_cons_cons, List.forall₂_cons]
        refine ⟨⟨fun hp => ?_, fun hp => ?_⟩,
          ih (fun x hx => hr x (by simp [hx])) _ (by simpa using hlen)⟩
        · rw [decide_eq_false_iff_not]; linarith
        · rw [decide_eq_true_eq]; linarith
  · cases h

/-- **C50** with a mapper that keeps the number of values, generation never raises. -/
theorem C50_trigger_total {σ : Type} (R : Rng σ) (mapper : List Rat → List Rat) (s : σ)
    (obs : List Rat) (hm : (mapper obs).length = obs.length) :
    ∃ r, triggerGenerate R mapper s obs = .ok r := by
  simp only [triggerGenerate]
  rw [if_pos (by rw [hm, R.uniform_length])]
  exact ⟨_, rfl⟩

example : (triggerGenerate Rng.counter (fun l => l.map (· / 10)) 3 [0, 10, 4, 9]).map (·.1) =
    .ok [false, true, false, true] := by decide +kernel

/-! ### C65 -/

namespace NumpyGen
variable {σ μ α : Type}

/-- what a lone generator object of state `s` emits for a history of calls -/
def Spec.emits (draw : μ → σ → Nat → List α × σ) (m : μ) : σ → List Nat → List (List α)
  | _, [] => []
  | s, n :: ns => (draw m s n).1 :: emits draw m (draw m s n).2 ns

/-- state after a history of calls -/
def Spec.after (draw : μ → σ → Nat → List α × σ) (m : μ) : σ → List Nat → σ
  | s, [] => s
  | s, n :: ns => after draw m (draw m s n).2 ns

theorem generates_ok (draw : μ → σ → Nat → List α × σ) (h : Heap σ) (g : NumpyGen μ) (s : σ)
    (hs : h[g.methodRef]? = some s) (sizes : List Nat) :
    ∃ h', generates draw h g sizes = .ok (Spec.emits draw g.method s sizes, h') ∧
      h' = h.set g.methodRef (Spec.after draw g.method s sizes) := by
  induction sizes generalizing h s with
  | nil =>
    refine ⟨h, rfl, ?_⟩
    obtain ⟨hi, he⟩ := List.getElem?_eq_some_iff.1 hs
    rw [Spec.after, ← he, List.set_getElem_self]
  | cons n ns ih =>
    have hlt : g.methodRef < h.length := (List.getElem?_eq_some_iff.1 hs).1
    obtain ⟨h', h1, h2⟩ := ih (h.set g.methodRef (draw g.method s n).2) (draw g.method s n).2
      (by rw [List.getElem?_set_self hlt])
    refine ⟨h', ?_, ?_⟩
    · simp only [generates, generate, hs]
      rw [bind_ok]
      simp only [h1]
      rfl
    · rw [h2, List.set_set]; rfl

end NumpyGen

open NumpyGen in
/-- **C65**, partial (what does hold): a reloaded generator emits what a *new* generator of seed
1234 emits, whatever state was saved; saving it again writes the loaded state again, however much
was generated in between. Missing: it does not continue the saved sequence
(`C65_reload_counterexample`). -/
theorem C65_reload_restarts_partial {σ μ α : Type} (R : Rng σ) (draw : μ → σ → Nat → List α × σ)
    (h : Heap σ) (saved : Saved σ μ) (sizes : List Nat) :
    ∃ h', generates draw (loadFrom R h saved).2 (loadFrom R h saved).1 sizes =
        .ok (Spec.emits draw saved.method (R.seed 1234) sizes, h') ∧
      saveTo h' (loadFrom R h saved).1 = .ok saved := by
  have hs : (loadFrom R h saved).2[(loadFrom R h saved).1.methodRef]? = some (R.seed 1234) := by
    simp [loadFrom, new]
  obtain ⟨h', h1, h2⟩ := generates_ok draw _ _ _ hs sizes
  refine ⟨h', h1, ?_⟩
  rw [h2]
  simp [saveTo, loadFrom, new]

open NumpyGen in
/-- **C65** (a generator that is not reloaded does continue its sequence after a save: the save
itself does not disturb it) -/
theorem C65_save_is_faithful {σ μ α : Type} (R : Rng σ) (draw : μ → σ → Nat → List α × σ)
    (h : Heap σ) (method : μ) (seed : Int) (sizes : List Nat) :
    ∃ h', generates draw (new R h method seed).2 (new R h method seed).1 sizes =
        .ok (Spec.emits draw method (R.seed seed) sizes, h') ∧
      saveTo h' (new R h method seed).1 =
        .ok { method := method, state := Spec.after draw method (R.seed seed) sizes } := by
  have hs : (new R h method seed).2[(new R h method seed).1.methodRef]? = some (R.seed seed) := by
    simp [new]
  obtain ⟨h', h1, h2⟩ := generates_ok draw _ _ _ hs sizes
  refine ⟨h', h1, ?_⟩
  rw [h2]
  simp [saveTo, new]

open NumpyGen in
/-- **C65** is false: there are a seed and a history after which the reloaded generator does not
emit what the saved one would have emitted next. -/
theorem C65_reload_counterexample :
    ¬ ∀ (seed : Int) (before after : List Nat) (h1 : Heap Nat) (v1 : List (List Nat))
        (saved : Saved Nat Unit),
      let draw := fun (_ : Unit) (s n : Nat) => Rng.counter.randint s 1000000 n
      let g := new Rng.counter [] () seed
      generates draw g.2 g.1 before = .ok (v1, h1) → saveTo h1 g.1 = .ok saved →
      let g2 := loadFrom Rng.counter h1 saved
      (generates draw h1 g.1 after).map (·.1) = (generates draw g2.2 g2.1 after).map (·.1) := by
  intro h
  have := h 5 [2] [3] [7] [[5, 6]] { method := (), state := 7 } (by decide +kernel)
    (by decide +kernel)
  revert this
  decide +kernel

/-! ### C68 -/

/-- **C68** `seed_provider` yields an infinite sequence determined by the state of
`RandomState(master_seed)`, with all seeds between 1 and 2^31 - 2. -/
theorem C68_seeds {σ : Type} (R : Rng σ) (master : Int) :
    ∃ f : Nat → Int, (∀ n, seeds R (R.seed master) n = .ok ((List.range n).map f)) ∧
      ∀ i, 1 ≤ f i ∧ f i ≤ 2147483646 := by
  generalize R.seed master = s
  have hnext : ∀ s, ∃ x s', nextSeed R s = .ok (x, s') ∧ 1 ≤ x ∧ x ≤ 2147483646 := by
    intro s
    have hl := R.randint_length s (2 ^ 31 - 1 - 1) 1
    have hr := R.randint_range s (2 ^ 31 - 1 - 1) 1 (by decide)
    rw [nextSeed]
    generalize R.randint s (2 ^ 31 - 1 - 1) 1 = r at hl hr
    obtain ⟨l, s'⟩ := r
    match l, hl with
    | [x], _ =>
      have := hr x (by simp)
      exact ⟨_, _, rfl, by omega, by omega⟩
  choose x s' h1 h2 h3 using hnext
  refine ⟨fun i => x (s'^[i] s), ?_, fun i => ⟨h2 _, h3 _⟩⟩
  intro n
  induction n generalizing s with
  | zero => rfl
  | succ n ih =>
    rw [seeds, h1, bind_ok]
    simp only [ih (s' s)]
    rw [List.range_succ_eq_map, List.map_cons, List.map_map]
    rfl

example : seeds Rng.counter (Rng.counter.seed 5) 3 = .ok [6, 7, 8] := by decide +kernel

end Trumania
