import Verif.Model.Rng

/-!
# Model of `FakerGenerator` (trumania/core/random_generators.py:324-338)

All the `Faker` objects of a program draw from one shared `random.Random`, which the class method
`Faker.seed` seeds (`Generator.seed` of the library): the state is not in the generator.
-/

namespace Trumania

/-- a method of a `Faker` object, with its arguments: one value drawn from the shared stream -/
abbrev FakerMethod (σ : Type) := σ → Val × σ

/-- what a program does with Faker generators: the construction of one with its seed
(random_generators.py:329-335), or a call to `generate(size)` of one, given by its method
(random_generators.py:337-338) -/
inductive FakerEvent (σ : Type) where
  | new (seed : Int)
  | generate (method : FakerMethod σ) (size : Nat)

namespace FakerGen
variable {σ : Type}

/-- `[self.method(**self.fakerKwargs) for _ in range(size)]` (random_generators.py:338) -/
def draws (m : FakerMethod σ) : Nat → σ → List Val × σ
  | 0, s => ([], s)
  | n + 1, s =>
    let (v, s) := m s
    let (vs, s) := draws m n s
    (v :: vs, s)

/-- one event on the shared stream: the values it gives, and the stream afterwards -/
def step (R : Rng σ) (s : σ) : FakerEvent σ → List Val × σ
  | .new seed => ([], R.seed seed)
  | .generate m n => draws m n s

/-- the values given by each of the successive events -/
def run (R : Rng σ) (s : σ) : List (FakerEvent σ) → List (List Val) × σ
  | [] => ([], s)
  | e :: es =>
    let (v, s) := step R s e
    let (vs, s) := run R s es
    (v :: vs, s)

end FakerGen
end Trumania
