import Verif.Geometry.Rotation
import Verif.Shapes.Hard
import Mathlib.Analysis.SpecialFunctions.Pow.Real
/-
Model of orthorhombic arrangements: /repo/src/core/lattice/OrthorhombicArrangingModel.cpp.

Simplification: real numbers are used for floating point ones, so that the cubic root is exact. `std::size_t` does not overflow.
-/
namespace Rampack.Orthorhombic

/-- `OrthorhombicArrangingModel`; OrthorhombicArrangingModel.h:24-30. Of polarizations only the antiferroelectric one matters, of clinicities only the anticlinic one. -/
structure Model where
  antiferro : Bool
  polarAxis : Fin 3
  anticlinic : Bool
  tiltAxis : Fin 3
  tiltAngle : ℝ

/-- An element of `std::array<..., 3>`, as in `indices[this->polarAxisNum]`; OrthorhombicArrangingModel.cpp:38, 62-63, 71. -/
def item {α : Type} (v : Vec3 α) : Fin 3 → α
  | 0 => v.x
  | 1 => v.y
  | 2 => v.z

/-- `Matrix<3, 3>::rotation(angles[0], angles[1], angles[2])` where only one of the angles is not zero; OrthorhombicArrangingModel.cpp:64-66, 73-75. -/
noncomputable def turn (axis : Fin 3) (angle : ℝ) : Mat3 :=
  match axis with
  | 0 => Mat3.rotation angle 0 0
  | 1 => Mat3.rotation 0 angle 0
  | 2 => Mat3.rotation 0 0 angle

/-- `offset[i]`; OrthorhombicArrangingModel.cpp:40-44. -/
noncomputable def offset (count : Nat) (cell box : ℝ) : ℝ := (box - ((count - 1 : Nat) : ℝ) * cell) / 2

/-- The body of the loops; OrthorhombicArrangingModel.cpp:56-77. -/
noncomputable def place (M : Model) (counts : Vec3 Nat) (cell box : Vec3 ℝ) (i : Vec3 Nat) : Shape :=
  let translation : Vec3 ℝ := ⟨(i.x : ℝ) * cell.x + offset counts.x cell.x box.x, (i.y : ℝ) * cell.y + offset counts.y cell.y box.y,
    (i.z : ℝ) * cell.z + offset counts.z cell.z box.z⟩
  let rotation := if M.antiferro && item i M.polarAxis % 2 == 1 then turn M.polarAxis Real.pi else 1
  let layerTiltAngle := if M.anticlinic && item i M.polarAxis % 2 == 1 then -M.tiltAngle else M.tiltAngle
  ⟨translation, turn M.tiltAxis layerTiltAngle * rotation⟩

/-- The order in which indices are visited by the three loops; OrthorhombicArrangingModel.cpp:50-52. -/
def triples (counts : Vec3 Nat) : List (Vec3 Nat) :=
  (List.range counts.x).flatMap fun i => (List.range counts.y).flatMap fun j => (List.range counts.z).map fun k => ⟨i, j, k⟩

/-- The loops with the early return; OrthorhombicArrangingModel.cpp:46-84. -/
def loop (shape : Vec3 Nat → Shape) (n : Nat) : List (Vec3 Nat) → Nat → List Shape → List Shape
  | [], _, result => result
  | i :: is, idx, result => if idx ≥ n then result else loop shape n is (idx + 1) (result ++ [shape i])

/-- `arrange` with numbers of cells; OrthorhombicArrangingModel.cpp:27-84. -/
noncomputable def arrange (M : Model) (n : Nat) (counts : Vec3 Nat) (cell box : Vec3 ℝ) : Outcome (List Shape) := do
  Outcome.require (decide (n > 0)) "Expects(numOfParticles > 0)"
  Outcome.require (decide (counts.x > 0 ∧ counts.y > 0 ∧ counts.z > 0)) "Expects(particlesInLine > 0)"
  Outcome.require (decide (cell.x > 0 ∧ cell.y > 0 ∧ cell.z > 0)) "Expects(cellDimensions > 0)"
  Outcome.require (decide (box.x > 0 ∧ box.y > 0 ∧ box.z > 0)) "Expects(boxDimensions > 0)"
  Outcome.require (!M.antiferro || item counts M.polarAxis % 2 == 0) "Even number of layers is needed for polar axis"
  Outcome.require (decide (offset counts.x cell.x box.x > 0 ∧ offset counts.y cell.y box.y > 0 ∧ offset counts.z cell.z box.z > 0)) "Expects(offset[i] > 0)"
  return loop (place M counts cell box) n (triples counts) 0 []

/-- `std::ceil(std::cbrt(numOfParticles))`; OrthorhombicArrangingModel.cpp:17. -/
noncomputable def inLine (n : Nat) : Nat := Nat.ceil ((n : ℝ) ^ ((1 : ℝ) / 3))

/-- `arrange` with dimensions of the box; OrthorhombicArrangingModel.cpp:11-25. -/
noncomputable def arrangeBox (M : Model) (n : Nat) (box : Vec3 ℝ) : Outcome (List Shape) := do
  Outcome.require (decide (n > 0)) "Expects(numOfParticles > 0)"
  Outcome.require (decide (box.x > 0 ∧ box.y > 0 ∧ box.z > 0)) "Expects(dimensions > 0)"
  let m := inLine n
  arrange M n ⟨m, m, m⟩ ⟨box.x / (m : ℝ), box.y / (m : ℝ), box.z / (m : ℝ)⟩ box

end Rampack.Orthorhombic
