import Verif.Spec.Object
import Verif.Proofs.OpsRespect
import Verif.Proofs.Chain
import Verif.Proofs.Api

/-! Helper lemmas: the objects behind references to generators. -/

namespace Trumania
open Spec World
variable {σ γ : Type} {env : Env σ γ} {g : γ}

/-- the object number `j` was `g` -/
def Spec.BeganAt (env : Env σ γ) (g : γ) (j : Nat) (gens : List γ) : Prop :=
  ∃ x, gens[j]? = some x ∧ Descends env g x

theorem began_iff {w : World σ γ} {r : GenRef} : Began env w r g ↔ ∃ j, r = .ref j ∧ BeganAt env g j w.gens :=
  ⟨fun ⟨j, x, h1, h2, h3⟩ => ⟨j, h1, x, h2, h3⟩, fun ⟨j, h1, x, h2, h3⟩ => ⟨j, x, h1, h2, h3⟩⟩

theorem beganAt_inv (j : Nat) : GenInv env (BeganAt env g j) where
  generate gens i a n v a' h ha e := by
    obtain ⟨x, hx, hd⟩ := h
    by_cases hij : i = j
    · subst hij
      rw [ha] at hx
      cases hx
      exact ⟨a', by rw [List.getElem?_set_self (List.getElem?_eq_some_iff.1 ha).1], hd.generate e⟩
    · exact ⟨x, by rw [List.getElem?_set_ne hij]; exact hx, hd⟩
  observe gens i a obs v a' h ha e := by
    obtain ⟨x, hx, hd⟩ := h
    by_cases hij : i = j
    · subst hij
      rw [ha] at hx
      cases hx
      exact ⟨a', by rw [List.getElem?_set_self (List.getElem?_eq_some_iff.1 ha).1], hd.observe e⟩
    · exact ⟨x, by rw [List.getElem?_set_ne hij]; exact hx, hd⟩
  tick gens h := by
    obtain ⟨x, hx, hd⟩ := h
    exact ⟨_, by rw [List.getElem?_map, hx]; rfl, hd.tick⟩

/-- an operation keeps the objects -/
theorem began_op {F Z : Nat → Prop} {op : Op (World σ γ)} (hop : BuiltIn env F Z op) {data : Frame}
    {out : Frame × Logs} {w w' : World σ γ} {r : GenRef} (h : op data w = .ok out w') (hw : Began env w r g) :
    Began env w' r g := by
  obtain ⟨j, hj, hb⟩ := began_iff.1 hw
  exact began_iff.2 ⟨j, hj, apis_gens (beganAt_inv j).toGenKept
    (builtIn_respects (beganAt_inv j).toGenKept hop _ _ _ _ h) hb⟩

theorem began_runs {F Z : Nat → Prop} {ops : List (Op (World σ γ))} (hops : ∀ op ∈ ops, BuiltIn env F Z op)
    {data out : Frame} {ls : List Logs} {w w' : World σ γ} {r : GenRef} (h : Runs ops data w out ls w')
    (hw : Began env w r g) : Began env w' r g := by
  induction h with
  | nil => exact hw
  | cons h _ ih => exact ih (fun o ho => hops o (by simp [ho])) (began_op (hops _ (by simp)) h hw)

/-- what a call answers -/
theorem began_observe {w w' : World σ γ} {r : GenRef} {obs vals : List Cell} (hw : Began env w r g)
    (h : World.observe env r obs w = .ok vals w') : ∀ x ∈ obs.zip vals, Replies env g x.1 x.2 := by
  obtain ⟨j, a, rfl, ha, hd⟩ := hw
  obtain ⟨b, b', hb, e, -⟩ := observe_ref.1 h
  rw [ha] at hb
  cases hb
  exact fun x hx => ⟨a, b', obs, vals, hd, e, hx⟩

end Trumania
