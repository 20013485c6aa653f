import Verif.Lattice.Distance
/-
Model of the optimisation of cells: /repo/src/core/lattice/CellOptimizationTransformer.cpp.
-/
namespace Rampack

noncomputable section

namespace CellOptimizationTransformer

/-- `CellOptimizationTransformer`; CellOptimizationTransformer.h:22-30. -/
structure Transformer where
  axisOrder : List Char
  spacings : Vec3 ℝ

/-- The constructor; CellOptimizationTransformer.cpp:49-55. -/
def create (axisOrder : List Char) (spacings : Vec3 ℝ) : Outcome Transformer := do
  let _ ← parseAxisOrder axisOrder
  return ⟨axisOrder, spacings⟩

/-- `newHeights[i] + this->spacings[i] * dim[i]`; CellOptimizationTransformer.cpp:34, 40. -/
def spacedHeight (T : Transformer) (heights : Vec3 ℝ) (dims : Vec3 Nat) (i : Fin 3) : ℝ :=
  heights.get i + T.spacings.get i * (dims.get i : ℝ)

/-- `scaleFactor`; CellOptimizationTransformer.cpp:40. -/
def scaleFactor (T : Transformer) (heights : Vec3 ℝ) (dims : Vec3 Nat) (i : Fin 3) : ℝ :=
  spacedHeight T heights dims i / heights.get i

/-- The box after adding the spacings; CellOptimizationTransformer.cpp:31-43. -/
def space (T : Transformer) (b : Box) (dims : Vec3 Nat) : Outcome Box := do
  Outcome.require (decide (∀ i, spacedHeight T b.heights dims i > 0)) "Negative spacing has too large magnitude"
  Box.ofSides (scaleFactor T b.heights dims 0 • b.sides.x) (scaleFactor T b.heights dims 1 • b.sides.y)
    (scaleFactor T b.heights dims 2 • b.sides.z)

/-- `transform`; CellOptimizationTransformer.cpp:15-47. A packing is made with one thread by default (Packing.h:155). -/
def transform (T : Transformer) (I : Interaction) (L : Lattice) : Outcome Lattice := do
  Outcome.require I.hasHard "Interaction must have a hard component to perform distance optimization"
  Outcome.require L.isNormalized "Relative coordinates in unit cell must be in range [0, 1)"
  let B ← L.latticeBox
  let g ← L.generate
  let P ← Packing.create B g I 1
  let P' ← DistanceOptimizer.shrinkPacking P I T.axisOrder
  let newBox ← space T P'.box L.dims
  let cellBox ← L.box.transform (newBox.dims * P.box.dims.inverse)
  return L.setBox cellBox

end CellOptimizationTransformer

end

end Rampack
