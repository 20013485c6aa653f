import Mathlib.Analysis.SpecialFunctions.Exp
import Verif.Packing.PropSpec
/-
What the Metropolis rule is, what reverse moves are.
-/
namespace Rampack.Spec

open Rampack

/-- Acceptance of a proposed change with the number `u` from (0, 1). `dE` is the change of energy, `T` the temperature, `bias` what is
added to the exponent (nothing for moves of molecules, `N log(V'/V) - p (V' - V) / T` for volume changes). `N0` and `N1` are the
numbers of overlaps before and after, `K` the number of those which forbid the change when overlaps are not being counted. An
overlap is an infinite energy: a change giving more of them is refused; when they are being counted, a change giving fewer is
accepted. -/
def Metropolis (hard counting : Bool) (N0 N1 K : ℕ) (dE bias T u : ℝ) : Prop :=
  if hard = true ∧ counting = true ∧ N1 < N0 then True
  else if hard = true ∧ counting = true ∧ N0 < N1 then False
  else if hard = true ∧ counting = false ∧ 0 < K then False
  else u ≤ Real.exp (bias - dE / T)

/-- The packing `P'` is one with the given molecules and box, and otherwise like `P`. -/
structure Proposed (I : Interaction) (P P' : Packing) (shapes : List Shape) (b : Box) : Prop where
  reachable : Packing.Reachable P' I
  mols : mols P' = shapes
  box : P'.box = b
  walls : P'.hasWall = P.hasWall
  counting : P'.overlapCounting = P.overlapCounting

/-- Random numbers mirrored at the given places: `u` becomes `1 - u`. This does not change probabilities. -/
def mirror (J : Finset ℕ) (t : ℕ → ℝ) : ℕ → ℝ := fun n => if n ∈ J then 1 - t n else t n

/-- The same up to a lattice vector of the box. -/
def SamePlace (b : Box) (p q : Vec3 ℝ) : Prop := ∃ n : Vec3 ℤ, p = q + lattice b n

end Rampack.Spec
