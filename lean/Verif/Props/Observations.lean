import Verif.Props.GeneratorSizes

/-!
# C75: one value per observation, for the generators as a circus calls them
-/

namespace Trumania
variable {σ : Type} {env : Env σ (AnyGen σ)} {R : Rng σ} {w w' : World σ (AnyGen σ)} {cells : List Cell}

theorem call_observations (hs : env.sem = AnyGen.sem R) {g : GenRef} {q : World.Request} {obs : List Cell}
    (hq : q = .series obs ∨ ∃ array, q = .samples array obs) (h : World.call env g q w = .ok cells w') :
    cells.length = obs.length := by
  cases g with
  | constant v =>
    rcases hq with rfl | ⟨array, rfl⟩
    · exact World.call_length hs (g := .constant v) trivial (q := .series obs) rfl h
    · rw [World.call] at h; cases h
  | ref i =>
    rcases hq with rfl | ⟨array, rfl⟩
    · exact World.call_length hs (g := .ref i) trivial (q := .series obs) rfl h
    · exact World.call_length hs (g := .ref i) trivial (q := .samples array obs) rfl h
  | bulk g =>
    rcases hq with rfl | ⟨array, rfl⟩ <;> rw [World.call] at h <;> exact World.bulkLoop_length h
  | mapped g f => rcases hq with rfl | ⟨array, rfl⟩ <;> rw [World.call] at h <;> first | cases h | simp
  | mappedVect g f => rcases hq with rfl | ⟨array, rfl⟩ <;> rw [World.call] at h <;> first | cases h | simp
  | flatmapped g dep => rcases hq with rfl | ⟨array, rfl⟩ <;> rw [World.call] at h <;> first | cases h | simp

/-- **C75** The generators as a circus calls them, the constants included: whenever a call with observations returns, there
is one value per observation, whether they are a series or the values of another generator (`flatmap`). -/
theorem C75_in_circus (hs : env.sem = AnyGen.sem R) (g : GenRef) (obs : List Cell) :
    (World.call env g (.series obs) w = .ok cells w' → cells.length = obs.length) ∧
    ∀ array, World.call env g (.samples array obs) w = .ok cells w' → cells.length = obs.length :=
  ⟨call_observations hs (.inl rfl), fun array => call_observations hs (.inr ⟨array, rfl⟩)⟩

/-- the case of a constant: it returns, with three values for three observations -/
example : World.call env (.constant (.num 5)) (.series [.num 1, .num 2, .num 3]) w = .ok [.num 5, .num 5, .num 5] w := rfl

end Trumania
