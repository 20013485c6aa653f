import Verif.Lattice.LegacyOrthorhombic
import Verif.Lattice.OrthorhombicSpec
/-
What is expected of orthorhombic arrangements of legacy input files.
-/
namespace Rampack.Orthorhombic.Spec

/-- All components are positive. -/
def Positive (v : Vec3 ℝ) : Prop := 0 < v.x ∧ 0 < v.y ∧ 0 < v.z

/-- If layers are antipolar, their number along the polar axis is even. -/
def EvenLayers (M : Model) (counts : Vec3 Nat) : Prop := M.antiferro = true → Even (layer M counts.x counts.y counts.z)

/-- What is asked for, with the box which is to be the result. -/
inductive Asked (M : Model) (n : Nat) : Sizes → Option (Vec3 ℝ) → Vec3 ℝ → Prop
  /-- The smallest cubic lattice in the given box. -/
  | default {box : Vec3 ℝ} {m : Nat} (box_positive : Positive box) (place : n ≤ m * m * m ∧ (m - 1) * (m - 1) * (m - 1) < n) (layers : EvenLayers M ⟨m, m, m⟩) :
      Asked M n .default (some box) box
  /-- A lattice which fills the given box. -/
  | counts {box : Vec3 ℝ} {counts : Vec3 Nat} (box_positive : Positive box) (place : n ≤ counts.x * counts.y * counts.z) (layers : EvenLayers M counts) :
      Asked M n (.counts counts) (some box) box
  /-- A lattice in the middle of the given box. -/
  | cells {box cell : Vec3 ℝ} {counts : Vec3 Nat} (cell_positive : Positive cell) (place : n ≤ counts.x * counts.y * counts.z) (layers : EvenLayers M counts)
      (margin : ((counts.x : ℝ) - 1) * cell.x < box.x ∧ ((counts.y : ℝ) - 1) * cell.y < box.y ∧ ((counts.z : ℝ) - 1) * cell.z < box.z) :
      Asked M n (.cells cell counts) (some box) box
  /-- A lattice whose cells make the box. -/
  | auto {cell : Vec3 ℝ} {counts : Vec3 Nat} (cell_positive : Positive cell) (place : n ≤ counts.x * counts.y * counts.z) (layers : EvenLayers M counts) :
      Asked M n (.cells cell counts) none ⟨(counts.x : ℝ) * cell.x, (counts.y : ℝ) * cell.y, (counts.z : ℝ) * cell.z⟩

end Rampack.Orthorhombic.Spec
