import Verif.Outcome
import Verif.Vec3
import Mathlib.Algebra.Order.Floor.Ring
/-
Model of the random numbers: a Mersenne twister `std::mt19937` with `std::uniform_real_distribution` and
`std::uniform_int_distribution`. What an engine gives is an arbitrary infinite sequence of numbers from [0, 1); theorems hold
for all such sequences. An integer from 0, ..., n - 1 is made from such a number u as ⌊u n⌋, so that all values are possible.
-/
namespace Rampack

/-- The numbers from [0, 1) which an engine is going to give. -/
abbrev Tape := Nat → ℝ

namespace Tape

/-- The engine after giving `n` numbers. -/
def drop (t : Tape) (n : Nat) : Tape := fun k => t (n + k)

/-- The numbers are from [0, 1). -/
def Ok (t : Tape) : Prop := ∀ n, 0 ≤ t n ∧ t n < 1

/-- The numbers are from (0, 1): an exact zero, which `std::uniform_real_distribution(0, 1)` may give, does not occur. -/
def Positive (t : Tape) : Prop := ∀ n, 0 < t n ∧ t n < 1

end Tape

/-- `std::uniform_real_distribution<double>(a, b)` applied to a number from [0, 1). -/
def uniformReal (a b u : ℝ) : ℝ := u * (b - a) + a

/-- `std::uniform_int_distribution<std::size_t>(0, n - 1)`: the value and the engine afterwards. For `n = 0` the upper bound is
`n - 1 = 2^64 - 1` and what is then read with such an index is out of range. -/
noncomputable def uniformInt (n : Nat) (t : Tape) : Outcome (Nat × Tape) :=
  if n = 0 then .ub else .ok (⌊t 0 * n⌋₊, t.drop 1)

/-- `v.normalized()`; src/geometry/Vector.tpp. The result for the zero vector, which consists of NaN's, is not a number. -/
noncomputable def normalize (v : Vec3 ℝ) : Outcome (Vec3 ℝ) :=
  if v.norm = 0 then .ub else .ok ⟨v.x / v.norm, v.y / v.norm, v.z / v.norm⟩

/-- The `k`-th candidate for the axis in the loops `do axis = {...} while (axis.norm2() > 1);`. -/
def axisCandidate (t : Tape) (k : Nat) : Vec3 ℝ :=
  ⟨uniformReal (-1) 1 (t (3 * k)), uniformReal (-1) 1 (t (3 * k + 1)), uniformReal (-1) 1 (t (3 * k + 2))⟩

open Classical in
/-- A random axis: the first candidate within the unit ball; src/core/move_samplers/RotationSampler.cpp:24-26,
RototranslationSampler.cpp:39-41. If there is no such candidate, the loop does not end. -/
noncomputable def sampleAxis (t : Tape) : Outcome (Vec3 ℝ × Tape) :=
  if h : ∃ k, (axisCandidate t k).norm2 ≤ 1 then .ok (axisCandidate t (Nat.find h), t.drop (3 * Nat.find h + 3)) else .diverge

end Rampack
