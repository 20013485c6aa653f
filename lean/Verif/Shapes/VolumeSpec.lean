import Verif.Shapes.HardSpec
import Mathlib.MeasureTheory.Measure.Lebesgue.VolumeOfBalls
/-
The volume of a body.
-/
namespace Rampack.Spec

open Rampack Shapes MeasureTheory

/-- The points of a body as a set of triples of numbers. -/
def points (B : Vec3 ℝ → Prop) : Set ((ℝ × ℝ) × ℝ) := {p | B ⟨p.1.1, p.1.2, p.2⟩}

/-- The volume of the body: the Lebesgue measure of the set of its points. -/
def HasVolume (B : Vec3 ℝ → Prop) (v : ℝ) : Prop := 0 ≤ v ∧ volume (points B) = ENNReal.ofReal v

/-- The body made of balls. -/
def Balls3 (data : List SphereData) (p : Vec3 ℝ) : Prop := ∃ d ∈ data, SphereData.Inside d p

end Rampack.Spec
