import Verif.Model.World

/-!
# Vocabulary of the properties on derived generators
-/

namespace Trumania
namespace Spec

/-- the functions given to `map(f_vect=...)` keep the number of values -/
def KeepsLengths : GenRef → Prop
  | .ref _ => True
  | .constant _ => True
  | .mapped g _ => KeepsLengths g
  | .mappedVect g f => KeepsLengths g ∧ ∀ l l', f l = .ok l' → l'.length = l.length
  | .flatmapped g dep => KeepsLengths g ∧ KeepsLengths dep
  | .bulk g => KeepsLengths g

/-- the generator objects an expression calls -/
def refs : GenRef → List Nat
  | .ref i => [i]
  | .constant _ => []
  | .mapped g _ => refs g
  | .mappedVect g _ => refs g
  | .flatmapped g dep => refs g ++ refs dep
  | .bulk g => refs g

/-- successive calls of generators, with what they returned -/
inductive Calls {σ γ : Type} (env : Env σ γ) :
    World σ γ → List (GenRef × World.Request × List Cell) → World σ γ → Prop where
  | none (w) : Calls env w [] w
  | more {w w1 w2 g q cells rest} : World.call env g q w = .ok cells w1 → Calls env w1 rest w2 →
      Calls env w ((g, q, cells) :: rest) w2

/-- all the values in some cells, in order -/
def values (cells : List Cell) : List Val :=
  cells.flatMap fun
    | .scalar v => [v]
    | .list vs => vs

/-- a number that is not negative -/
def IsCount (c : Cell) : Prop := ∃ q : Rat, 0 ≤ q ∧ c = Cell.num q

/-- calls that pass on what generator `i` gives: of `i` itself, of a bulk generator on `i`, or of
`sizes.flatmap(DependentBulkGenerator(i))`, where `sizes` does not use `i` and gives no negative size -/
inductive HandsOut {σ γ : Type} (env : Env σ γ) (i : Nat) : GenRef → World.Request → Prop where
  | own {n : Rat} : 0 ≤ n → HandsOut env i (.ref i) (.size n)
  | bulk {obs : List Cell} : (∀ c ∈ obs, IsCount c) → HandsOut env i (.bulk (.ref i)) (.series obs)
  | flatmap {s : GenRef} {n : Rat} : i ∉ refs s →
      (∀ w cells w', World.call env s (.size n) w = .ok cells w' → ∀ c ∈ cells, IsCount c) →
      HandsOut env i (.flatmapped s (.bulk (.ref i))) (.size n)

/-- the values a history passed on from generator `i` -/
def handedOut (i : Nat) (hist : List (GenRef × World.Request × List Cell)) : List Val :=
  hist.flatMap fun c => if i ∈ refs c.1 then values c.2.2 else []

end Spec
end Trumania
