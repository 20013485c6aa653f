import Verif.Lattice.Orthorhombic
/-
Model of how orthorhombic arrangements of legacy input files are made: /repo/src/frontend/legacy/ArrangementFactory.cpp.

Simplifications: numbers are those which have been read from the text, which is not modelled; minimal distances of the format with `spacing` are any positive
numbers. Real numbers are used for floating point ones; a
division by zero, which is infinity in the code, is zero here, but the number of cells is refused afterwards in both cases.
-/
namespace Rampack.Orthorhombic

/-- The end of the text of the arrangement; ArrangementFactory.cpp:17-23. -/
inductive Sizes where
  | default
  | counts (counts : Vec3 Nat)
  | cells (cell : Vec3 ℝ) (counts : Vec3 Nat)

/-- `parse_box_dimensions`; ArrangementFactory.cpp:26-43. `none` is `auto`, for which dimensions are zero. -/
noncomputable def boxDimensions : Option (Vec3 ℝ) → Outcome (Vec3 ℝ)
  | none => .ok ⟨0, 0, 0⟩
  | some d => do
    Outcome.require (decide (d.x > 0 ∧ d.y > 0 ∧ d.z > 0)) "Some dimensions are not positive"
    return d

/-- `boxDimensions != std::array<double, 3>{0, 0, 0}`; ArrangementFactory.cpp:106, 174, 189. -/
noncomputable def isGiven (box : Vec3 ℝ) : Bool := decide (¬(box.x = 0 ∧ box.y = 0 ∧ box.z = 0))

/-- The check of the size of the lattice and the arrangement; ArrangementFactory.cpp:195-198. -/
noncomputable def arrangeSizes (M : Model) (n : Nat) (counts : Vec3 Nat) (cell box : Vec3 ℝ) : Outcome (Vec3 ℝ × List Shape) := do
  Outcome.require (decide ((counts.x : ℝ) * counts.y * counts.z ≥ n)) "Lattice is not big enough for a given number of particles"
  let shapes ← arrange M n counts cell box
  return (box, shapes)

/-- `arrange_orthorhombic_shapes` after the model has been read, with `parse_default` and `parse_explicit_sizes`; ArrangementFactory.cpp:99-110, 162-199, 216-223. The box and molecules are
returned. -/
noncomputable def arrangeShapes (M : Model) (n : Nat) (sizes : Sizes) (box : Vec3 ℝ) : Outcome (Vec3 ℝ × List Shape) :=
  match sizes with
  | .default => do
    Outcome.require (isGiven box) "Default arrangement unsupported for automatic box size"
    let shapes ← arrangeBox M n box
    return (box, shapes)
  | .counts counts => do
    Outcome.require (isGiven box) "Implicit cell sizes are not available for automatic box dimensions"
    arrangeSizes M n counts ⟨box.x / (counts.x : ℝ), box.y / (counts.y : ℝ), box.z / (counts.z : ℝ)⟩ box
  | .cells cell counts => do
    Outcome.require (decide (cell.x > 0 ∧ cell.y > 0 ∧ cell.z > 0)) "Some cell dimensions are not positive"
    arrangeSizes M n counts cell (if isGiven box then box else ⟨cell.x * (counts.x : ℝ), cell.y * (counts.y : ℝ), cell.z * (counts.z : ℝ)⟩)

/-- `parse_spacing`; ArrangementFactory.cpp:137-160. `distances` is the result of `find_minimal_distances`. Dimensions of the box which were there before are overwritten. -/
noncomputable def arrangeSpacing (M : Model) (n : Nat) (spacing : ℝ) (counts : Vec3 Nat) (distances : Outcome (Vec3 ℝ)) : Outcome (Vec3 ℝ × List Shape) := do
  Outcome.require (decide (spacing > 0)) "Spacing is not > 0"
  Outcome.require (decide ((counts.x : ℝ) * counts.y * counts.z ≥ n)) "Lattice is not big enough for a given number of particles"
  let d ← distances
  let cell : Vec3 ℝ := ⟨d.x + spacing, d.y + spacing, d.z + spacing⟩
  let box : Vec3 ℝ := ⟨cell.x * (counts.x : ℝ), cell.y * (counts.y : ℝ), cell.z * (counts.z : ℝ)⟩
  let shapes ← arrange M n counts cell box
  return (box, shapes)

/-- `arrangePacking` for orthorhombic arrangements; ArrangementFactory.cpp:242-246. -/
noncomputable def arrangePacking (M : Model) (n : Nat) (sizes : Sizes) (box : Option (Vec3 ℝ)) : Outcome (Vec3 ℝ × List Shape) := do
  let dimensions ← boxDimensions box
  arrangeShapes M n sizes dimensions

end Rampack.Orthorhombic
