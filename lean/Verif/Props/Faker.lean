import Verif.Model.Faker
import Verif.Spec.Instances

/-!
# Property C103 (Faker generators)
-/

namespace Trumania
open FakerGen
variable {σ : Type} (R : Rng σ)

theorem draws_length (m : FakerMethod σ) (n : Nat) (s : σ) : (draws m n s).1.length = n := by
  induction n generalizing s with
  | zero => rfl
  | succ n ih => simp only [draws, List.length_cons, ih]

theorem run_append (s : σ) (es fs : List (FakerEvent σ)) :
    run R s (es ++ fs) = ((run R s es).1 ++ (run R (run R s es).2 fs).1, (run R (run R s es).2 fs).2) := by
  induction es generalizing s with
  | nil => rfl
  | cons e es ih => simp only [List.cons_append, run, ih]

/-- the number of values an event asks for -/
def Spec.fakerAsked : FakerEvent σ → Nat
  | .new _ => 0
  | .generate _ n => n

/-- **C103** each call gives as many values as asked, and a construction gives none. -/
theorem C103_sizes (s : σ) (es : List (FakerEvent σ)) :
    (run R s es).1.map List.length = es.map Spec.fakerAsked := by
  induction es generalizing s with
  | nil => rfl
  | cons e es ih =>
    simp only [run, List.map_cons, ih]
    congr 1
    cases e with
    | new seed => rfl
    | generate m n => exact draws_length m n s

/-- **C103** the values drawn after the construction of a Faker generator depend on its seed and on what is
done since, and on nothing that happened before. -/
theorem C103_repeatable_partial (s s' : σ) (before before' after : List (FakerEvent σ)) (seed : Int) :
    (run R s (before ++ .new seed :: after)).1.drop before.length =
      (run R s' (before' ++ .new seed :: after)).1.drop before'.length := by
  have hl : ∀ (s : σ) (l : List (FakerEvent σ)), (run R s l).1.length = l.length := by
    intro s l
    have := congrArg List.length (C103_sizes R s l)
    simpa using this
  have key : ∀ (s : σ) (l : List (FakerEvent σ)),
      (run R s (l ++ .new seed :: after)).1.drop l.length = [] :: (run R (R.seed seed) after).1 := by
    intro s l
    rw [run_append]
    simp only
    rw [List.drop_left' (hl s l)]
    rfl
  rw [key, key]

/-- **C103** the values are those of one stream: two calls in a row give what one call of the total size
would give, whichever generators of that method are called. -/
theorem C103_one_stream (m : FakerMethod σ) (a b : Nat) (s : σ) :
    (run R s [.generate m a, .generate m b]).1.flatten = (draws m (a + b) s).1 := by
  have key : ∀ (a : Nat) (s : σ), draws m (a + b) s =
      ((draws m a s).1 ++ (draws m b (draws m a s).2).1, (draws m b (draws m a s).2).2) := by
    intro a
    induction a with
    | zero => intro s; simp [draws]
    | succ a ih =>
      intro s
      rw [Nat.add_right_comm]
      simp only [draws, ih, List.cons_append]
  rw [key]
  simp [run, step]

/-- **C103** constructing another generator with the same seed makes the first one repeat its values: the
stream is shared. -/
theorem C103_second_generator_rewinds (s : σ) (seed : Int) (m : FakerMethod σ) (n : Nat) :
    (run R s [.new seed, .generate m n, .new seed, .generate m n]).1 =
      [[], (draws m n (R.seed seed)).1, [], (draws m n (R.seed seed)).1] := rfl

/-- **C103** the values of a generator do not depend on its own seed only: constructing another one, or
drawing from it, changes them. -/
theorem C103_counterexample : ∃ (m : FakerMethod Nat) (other : FakerMethod Nat),
    ((run Rng.counter 0 [.new 1, .generate m 2]).1.getLast? = some [.num 1, .num 2]) ∧
    ((run Rng.counter 0 [.new 1, .new 5, .generate m 2]).1.getLast? = some [.num 5, .num 6]) ∧
    ((run Rng.counter 0 [.new 1, .generate other 1, .generate m 2]).1.getLast? =
      some [.num 2, .num 3]) :=
  ⟨fun s => (.num s, s + 1), fun s => (.str "x", s + 1), by decide +kernel⟩

end Trumania
