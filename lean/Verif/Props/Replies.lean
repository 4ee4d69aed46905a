import Verif.Proofs.Object
import Verif.Props.Generators
import Verif.Model.AnyGen

/-!
# Answers of a trigger over its whole life (helper lemmas for C116 and C117)
-/

namespace Trumania
namespace Spec
variable {σ : Type} {env : Env σ (AnyGen σ)}

/-- a trigger remains a trigger with the same mapper -/
theorem descends_trigger (hsem : env.sem = AnyGen.sem env.R) {m : List Rat → List Rat} {s : σ} {x : AnyGen σ}
    (h : Descends env (.trigger m s) x) : ∃ s', x = .trigger m s' := by
  induction h with
  | refl => exact ⟨s, rfl⟩
  | generate _ e ih =>
    obtain ⟨s', rfl⟩ := ih
    rw [hsem] at e
    cases e
  | observe _ e ih =>
    obtain ⟨s', rfl⟩ := ih
    rw [hsem] at e
    change AnyGen.observe env.R (.trigger m s') _ = _ at e
    rw [AnyGen.observe] at e
    obtain ⟨vals, -, e⟩ := bind_eq_ok.1 e
    obtain ⟨⟨bs, s2⟩, -, e⟩ := bind_eq_ok.1 e
    cases e
    exact ⟨s2, rfl⟩
  | tick _ ih =>
    obtain ⟨s', rfl⟩ := ih
    rw [hsem]
    exact ⟨s', rfl⟩

/-- what it answers: never `true` where the probability is at most 0, always where it is at least 1 -/
theorem replies_trigger (hsem : env.sem = AnyGen.sem env.R) {m : List Rat → List Rat} {f : Rat → Rat}
    (hm : ∀ l, m l = l.map f) {s : σ} {h v : Cell} (hr : Replies env (.trigger m s) h v) :
    ∃ (q : Rat) (b : Bool), h = .num q ∧ v = .bool b ∧ (f q ≤ 0 → b = false) ∧ (1 ≤ f q → b = true) := by
  obtain ⟨x, x', obs, vals, hx, e, hz⟩ := hr
  obtain ⟨s', rfl⟩ := descends_trigger hsem hx
  rw [hsem] at e
  change AnyGen.observe env.R (.trigger m s') _ = _ at e
  rw [AnyGen.observe] at e
  obtain ⟨ns, h1, e⟩ := bind_eq_ok.1 e
  obtain ⟨⟨bs, s2⟩, h2, e⟩ := bind_eq_ok.1 e
  cases e
  obtain ⟨h3, -⟩ := C50_trigger_certainties _ _ _ _ _ _ h2
  rw [mapM_ok_iff] at h1
  rw [hm, List.forall₂_map_left_iff] at h3
  rw [List.zip_map_right, List.mem_map] at hz
  obtain ⟨⟨c, b⟩, hz, hc⟩ := hz
  cases hc
  have : ∀ {l : List Cell} {k : List Rat} {d : List Bool}, List.Forall₂ (fun a b => a.asNum = Except.ok b) l k →
      List.Forall₂ (fun p b => (f p ≤ 0 → b = false) ∧ (1 ≤ f p → b = true)) k d → (c, b) ∈ l.zip d →
      ∃ q, c.asNum = .ok q ∧ (f q ≤ 0 → b = false) ∧ (1 ≤ f q → b = true) := by
    intro l k d hl hd hz
    induction hl generalizing d with
    | nil => cases hd; cases hz
    | cons ha _ ih =>
      cases hd with
      | cons hb hd =>
        rcases List.mem_cons.1 hz with e | hz
        · cases e
          exact ⟨_, ha, hb⟩
        · exact ih hd hz
  obtain ⟨q, h4, h5, h6⟩ := this h1 h3 hz
  refine ⟨q, b, ?_, rfl, h5, h6⟩
  rw [Cell.asNum.eq_def] at h4
  split at h4
  · cases h4
    rfl
  · cases h4

end Spec
end Trumania
