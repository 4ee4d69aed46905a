import Verif.Proofs.Act
import Verif.Spec.Gen

/-! Helper lemmas on calls of generators. -/

namespace Trumania
namespace World
variable {σ γ : Type} {env : Env σ γ}

/-- the world with another state of generator `i` -/
def withGen (w : World σ γ) (i : Nat) (g : γ) : World σ γ :=
  { w with clock := { w.clock with listeners := w.clock.listeners.set i g } }

theorem withGen_gens (w : World σ γ) (i : Nat) (g : γ) : (w.withGen i g).gens = w.gens.set i g := rfl

theorem bulkLoop_steps {P : World σ γ → World σ γ → Prop} (refl : ∀ w, P w w)
    (trans : ∀ a b c, P a b → P b c → P a c) {f : Rat → Act (World σ γ) (List Cell)}
    (hf : ∀ n w w' v, f n w = .ok v w' → P w w') {obs : List Cell} {w w' : World σ γ}
    {cells : List Cell} (h : bulkLoop f obs w = .ok cells w') : P w w' := by
  induction obs generalizing w cells with
  | nil =>
    obtain ⟨-, rfl⟩ := Act.pure_eq_ok.1 h
    exact refl w
  | cons c obs ih =>
    rw [bulkLoop] at h
    obtain ⟨n, w1, h1, h⟩ := Act.bind_eq_ok.1 h
    obtain ⟨-, rfl⟩ := Act.ofPy_eq_ok.1 h1
    obtain ⟨v, w2, h2, h⟩ := Act.bind_eq_ok.1 h
    obtain ⟨vals, w3, h3, h⟩ := Act.bind_eq_ok.1 h
    obtain ⟨-, rfl⟩ := Act.ofPy_eq_ok.1 h3
    obtain ⟨rest, w4, h4, h⟩ := Act.bind_eq_ok.1 h
    obtain ⟨-, rfl⟩ := Act.pure_eq_ok.1 h
    exact trans _ _ _ (hf _ _ _ _ h2) (ih h4)

theorem isArray_eq_ok {g : GenRef} {b : Bool} {w w' : World σ γ} (h : isArray env g w = .ok b w') :
    w' = w := by
  cases g with
  | ref i =>
    obtain ⟨a, w1, h1, h⟩ := Act.bind_eq_ok.1 h
    obtain ⟨-, rfl⟩ := getGen_eq_ok.1 h1
    exact (Act.pure_eq_ok.1 h).2.symm
  | _ => exact (Act.pure_eq_ok.1 h).2.symm

theorem throw_ne_ok {α : Type} {e : Err} {w w' : World σ γ} {a : α} :
    ¬ (throw e : Act (World σ γ) α) w = .ok a w' := by
  intro h; cases h

/-- a successful call changes the world by successive draws from the generators it refers to -/
theorem call_steps_in {S : Nat → Prop} {P : World σ γ → World σ γ → Prop} (refl : ∀ w, P w w)
    (trans : ∀ a b c, P a b → P b c → P a c)
    (hgen : ∀ w i g n v g', S i → w.gens[i]? = some g → env.sem.generate g n = .ok (v, g') →
      P w (w.withGen i g'))
    (hobs : ∀ w i g obs v g', S i → w.gens[i]? = some g → env.sem.observe g obs = .ok (v, g') →
      P w (w.withGen i g'))
    {g : GenRef} (hS : ∀ i ∈ Spec.refs g, S i) {q : Request} {w w' : World σ γ} {cells : List Cell}
    (h : call env g q w = .ok cells w') : P w w' := by
  induction g generalizing q w w' cells with
  | constant v =>
    cases q with
    | size n => obtain ⟨-, rfl⟩ := Act.pure_eq_ok.1 h; exact refl w
    | series obs => obtain ⟨-, rfl⟩ := Act.pure_eq_ok.1 h; exact refl w
    | samples array obs => exact absurd h throw_ne_ok
  | ref i =>
    cases q with
    | size n =>
      obtain ⟨a, w1, h1, h⟩ := Act.bind_eq_ok.1 h
      obtain ⟨g1, rfl⟩ := getGen_eq_ok.1 h1
      obtain ⟨⟨v, a'⟩, w2, h2, h⟩ := Act.bind_eq_ok.1 h
      obtain ⟨g2, rfl⟩ := Act.ofPy_eq_ok.1 h2
      obtain ⟨_, w3, h3, h⟩ := Act.bind_eq_ok.1 h
      obtain ⟨-, rfl⟩ := Act.pure_eq_ok.1 h
      rw [setGen_eq_ok.1 h3]
      exact hgen _ _ _ _ _ _ (hS i (by simp [Spec.refs])) g1 g2
    | series obs =>
      obtain ⟨a, w1, h1, h⟩ := Act.bind_eq_ok.1 h
      obtain ⟨g1, rfl⟩ := getGen_eq_ok.1 h1
      obtain ⟨⟨v, a'⟩, w2, h2, h⟩ := Act.bind_eq_ok.1 h
      obtain ⟨g2, rfl⟩ := Act.ofPy_eq_ok.1 h2
      obtain ⟨_, w3, h3, h⟩ := Act.bind_eq_ok.1 h
      obtain ⟨-, rfl⟩ := Act.pure_eq_ok.1 h
      rw [setGen_eq_ok.1 h3]
      exact hobs _ _ _ _ _ _ (hS i (by simp [Spec.refs])) g1 g2
    | samples array obs =>
      obtain ⟨a, w1, h1, h⟩ := Act.bind_eq_ok.1 h
      obtain ⟨g1, rfl⟩ := getGen_eq_ok.1 h1
      obtain ⟨_, w0, h0, h⟩ := Act.bind_eq_ok.1 h
      obtain ⟨-, rfl⟩ := Act.ofPy_eq_ok.1 h0
      obtain ⟨⟨v, a'⟩, w2, h2, h⟩ := Act.bind_eq_ok.1 h
      obtain ⟨g2, rfl⟩ := Act.ofPy_eq_ok.1 h2
      obtain ⟨_, w3, h3, h⟩ := Act.bind_eq_ok.1 h
      obtain ⟨-, rfl⟩ := Act.pure_eq_ok.1 h
      rw [setGen_eq_ok.1 h3]
      exact hobs _ _ _ _ _ _ (hS i (by simp [Spec.refs])) g1 g2
  | mapped g f ih =>
    cases q with
    | size n =>
      obtain ⟨v, w1, h1, h⟩ := Act.bind_eq_ok.1 h
      obtain ⟨-, rfl⟩ := Act.ofPy_eq_ok.1 h
      exact ih hS h1
    | series obs => exact absurd h throw_ne_ok
    | samples array obs => exact absurd h throw_ne_ok
  | mappedVect g f ih =>
    cases q with
    | size n =>
      obtain ⟨v, w1, h1, h⟩ := Act.bind_eq_ok.1 h
      obtain ⟨-, rfl⟩ := Act.ofPy_eq_ok.1 h
      exact ih hS h1
    | series obs => exact absurd h throw_ne_ok
    | samples array obs => exact absurd h throw_ne_ok
  | flatmapped g dep ih1 ih2 =>
    cases q with
    | size n =>
      obtain ⟨v, w1, h1, h⟩ := Act.bind_eq_ok.1 h
      obtain ⟨b, w2, h2, h3⟩ := Act.bind_eq_ok.1 h
      rw [isArray_eq_ok h2] at h3
      exact trans _ _ _ (ih1 (fun i hi => hS i (List.mem_append_left _ hi)) h1)
        (ih2 (fun i hi => hS i (List.mem_append_right _ hi)) h3)
    | series obs => exact absurd h throw_ne_ok
    | samples array obs => exact absurd h throw_ne_ok
  | bulk g ih =>
    cases q with
    | size n => exact absurd h throw_ne_ok
    | series obs =>
      exact bulkLoop_steps refl trans (fun n w w' v h => ih hS h) h
    | samples array obs =>
      exact bulkLoop_steps refl trans (fun n w w' v h => ih hS h) h

theorem call_steps {P : World σ γ → World σ γ → Prop} (refl : ∀ w, P w w)
    (trans : ∀ a b c, P a b → P b c → P a c)
    (hgen : ∀ w i g n v g', w.gens[i]? = some g → env.sem.generate g n = .ok (v, g') →
      P w (w.withGen i g'))
    (hobs : ∀ w i g obs v g', w.gens[i]? = some g → env.sem.observe g obs = .ok (v, g') →
      P w (w.withGen i g'))
    {g : GenRef} {q : Request} {w w' : World σ γ} {cells : List Cell}
    (h : call env g q w = .ok cells w') : P w w' :=
  call_steps_in (S := fun _ => True) refl trans (fun w i g n v g' _ => hgen w i g n v g')
    (fun w i g n v g' _ => hobs w i g n v g') (fun _ _ => trivial) h

/-- generators that are not referred to do not change -/
theorem call_gens_other {g : GenRef} {q : Request} {w w' : World σ γ} {cells : List Cell} {i : Nat}
    (hi : i ∉ Spec.refs g) (h : call env g q w = .ok cells w') : w'.gens[i]? = w.gens[i]? := by
  refine (call_steps_in (S := fun j => j ≠ i) (P := fun w w' => w'.gens[i]? = w.gens[i]?)
    (fun _ => rfl) (fun _ _ _ h1 h2 => h2.trans h1) ?_ ?_ (fun j hj => ?_) h)
  · intro w j g n v g' hj _ _
    rw [withGen_gens, List.getElem?_set_ne hj]
  · intro w j g n v g' hj _ _
    rw [withGen_gens, List.getElem?_set_ne hj]
  · rintro rfl; exact hi hj

/-- only the generators change, and their number stays the same -/
theorem call_rest {g : GenRef} {q : Request} {w w' : World σ γ} {cells : List Cell}
    (h : call env g q w = .ok cells w') : ∃ l : List γ, l.length = w.clock.listeners.length ∧
      w' = { w with clock := { w.clock with listeners := l } } := by
  refine call_steps (P := fun w w' => ∃ l : List γ, l.length = w.clock.listeners.length ∧
      w' = { w with clock := { w.clock with listeners := l } }) ?_ ?_ ?_ ?_ h
  · exact fun w => ⟨_, rfl, rfl⟩
  · rintro a b c ⟨l, h1, rfl⟩ ⟨l', h2, rfl⟩
    exact ⟨l', h2.trans h1, rfl⟩
  · exact fun w i g n v g' _ _ => ⟨_, by simp, rfl⟩
  · exact fun w i g n v g' _ _ => ⟨_, by simp, rfl⟩

end World
end Trumania
