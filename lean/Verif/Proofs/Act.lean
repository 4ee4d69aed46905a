import Verif.Model.World
import Verif.Proofs.Basic

/-! Helper lemmas on actions. -/

namespace Trumania
namespace Act
variable {W α β : Type}

theorem bind_eq_ok {x : Act W α} {f : α → Act W β} {w w'' : W} {b : β} :
    (x >>= f) w = .ok b w'' ↔ ∃ a w', x w = .ok a w' ∧ f a w' = .ok b w'' := by
  simp only [bind, EStateM.bind]
  cases x w with
  | error e s => simp
  | ok a s => simp

theorem bind_ok {x : Act W α} {f : α → Act W β} {w w' : W} {a : α} (h : x w = .ok a w') :
    (x >>= f) w = f a w' := by
  simp only [bind, EStateM.bind, h]

theorem bind_err {x : Act W α} {f : α → Act W β} {w w' : W} {e : Err} (h : x w = .error e w') :
    (x >>= f) w = .error e w' := by
  simp only [bind, EStateM.bind, h]

theorem pure_eq_ok {a b : α} {w w' : W} :
    (pure a : Act W α) w = .ok b w' ↔ a = b ∧ w = w' := by
  simp only [pure, EStateM.pure, EStateM.Result.ok.injEq]

theorem pure_apply (a : α) (w : W) : (pure a : Act W α) w = .ok a w := rfl

theorem ofPy_eq_ok {x : Py α} {a : α} {w w' : W} :
    (ofPy x : Act W α) w = .ok a w' ↔ x = .ok a ∧ w = w' := by
  cases x with
  | error e => simp [ofPy, throw, throwThe, MonadExceptOf.throw, EStateM.throw]
  | ok b => simp [ofPy, pure, EStateM.pure]

theorem ofPy_ok {x : Py α} {a : α} (h : x = .ok a) (w : W) : (ofPy x : Act W α) w = .ok a w :=
  ofPy_eq_ok.2 ⟨h, rfl⟩

theorem ofPy_error {x : Py α} {e : Err} (h : x = .error e) (w : W) :
    (ofPy x : Act W α) w = .error e w := by
  subst h; rfl

end Act

namespace World
variable {σ γ : Type}

theorem fetch_eq_ok {α : Type} {l : World σ γ → List α} {i : Nat} {a : α} {w w' : World σ γ} :
    fetch l i w = .ok a w' ↔ (l w)[i]? = some a ∧ w = w' := by
  rw [fetch]
  split
  · rename_i h; simp [h]
  · rename_i h; simp [h]

theorem getStory_eq_ok {i : Nat} {s : Story σ} {w w' : World σ γ} :
    getStory i w = .ok s w' ↔ w.stories[i]? = some s ∧ w = w' := fetch_eq_ok

theorem getGen_eq_ok {i : Nat} {g : γ} {w w' : World σ γ} :
    getGen i w = .ok g w' ↔ w.gens[i]? = some g ∧ w = w' := fetch_eq_ok

theorem getRel_eq_ok {i : Nat} {r : Relationship σ} {w w' : World σ γ} :
    getRel i w = .ok r w' ↔ w.rels[i]? = some r ∧ w = w' := fetch_eq_ok

theorem getPop_eq_ok {i : Nat} {p : Population} {w w' : World σ γ} :
    getPop i w = .ok p w' ↔ w.pops[i]? = some p ∧ w = w' := fetch_eq_ok

theorem setStory_eq_ok {i : Nat} {s : Story σ} {u : Unit} {w w' : World σ γ} :
    setStory i s w = .ok u w' ↔ w' = { w with stories := w.stories.set i s } := by
  simp [setStory, modify, modifyGet, MonadStateOf.modifyGet, EStateM.modifyGet, eq_comm]

theorem setGen_eq_ok {i : Nat} {g : γ} {u : Unit} {w w' : World σ γ} :
    setGen i g w = .ok u w' ↔
      w' = { w with clock := { w.clock with listeners := w.clock.listeners.set i g } } := by
  simp [setGen, modify, modifyGet, MonadStateOf.modifyGet, EStateM.modifyGet, eq_comm]

theorem setRel_eq_ok {i : Nat} {r : Relationship σ} {u : Unit} {w w' : World σ γ} :
    setRel i r w = .ok u w' ↔ w' = { w with rels := w.rels.set i r } := by
  simp [setRel, modify, modifyGet, MonadStateOf.modifyGet, EStateM.modifyGet, eq_comm]

theorem setPop_eq_ok {i : Nat} {p : Population} {u : Unit} {w w' : World σ γ} :
    setPop i p w = .ok u w' ↔ w' = { w with pops := w.pops.set i p } := by
  simp [setPop, modify, modifyGet, MonadStateOf.modifyGet, EStateM.modifyGet, eq_comm]

theorem onStory_eq_ok {i : Nat} {f : Story σ → Py (Story σ)} {u : Unit} {w w' : World σ γ} :
    onStory i f w = .ok u w' ↔ ∃ s s', w.stories[i]? = some s ∧ f s = .ok s' ∧
      w' = { w with stories := w.stories.set i s' } := by
  simp only [onStory, Act.bind_eq_ok, getStory_eq_ok, Act.ofPy_eq_ok, setStory_eq_ok]
  constructor
  · rintro ⟨s, w1, ⟨h1, rfl⟩, s', w2, ⟨h2, rfl⟩, rfl⟩
    exact ⟨s, s', h1, h2, rfl⟩
  · rintro ⟨s, s', h1, h2, rfl⟩
    exact ⟨s, w, ⟨h1, rfl⟩, s', w, ⟨h2, rfl⟩, rfl⟩

end World
end Trumania
