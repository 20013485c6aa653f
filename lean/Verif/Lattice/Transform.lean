import Verif.Lattice.Model
import Verif.Geometry.Rotation
import Verif.Shapes.Axes
/-
Model of transformations of lattices: /repo/src/core/lattice/{LatticeTraits, LayerWiseTransformer, LayerRotationTransformer, ColumnarTransformer,
FlipRandomizingTransformer, RotationRandomizingTransformer}.

Axes are indices 0, 1, 2 (`axisToIndex`). Random numbers are inputs: functions of what the number is drawn for, since each is drawn once.
-/
namespace Rampack

noncomputable section

/-- The search for a bin and adding an index to it: `std::find_if`, `emplace_back`, `push_back`; LatticeTraits.cpp:41-50, 72-81. -/
def addToBin {α : Type} (near : α → α → Bool) (x : α) (n : Nat) : List (α × List Nat) → List (α × List Nat)
  | [] => [(x, [n])]
  | b :: l => if near b.1 x then (b.1, b.2 ++ [n]) :: l else b :: addToBin near x n l

/-- The loop over molecules of the cell; LatticeTraits.cpp:37-51, 68-82. -/
def bins {α : Type} (near : α → α → Bool) (keys : List α) : List (α × List Nat) := keys.zipIdx.foldl (fun l p => addToBin near p.1 p.2 l) []

/-- `std::abs(bin.first - axisPosElem) < EPSILON`; LatticeTraits.cpp:41-44. -/
def nearLayer (y x : ℝ) : Bool := decide (|y - x| < 1 / 10 ^ 10)

/-- The two comparisons of coordinates; LatticeTraits.cpp:72-75. -/
def nearColumn (y x : ℝ × ℝ) : Bool := decide (|y.1 - x.1| < 1 / 10 ^ 10) && decide (|y.2 - x.2| < 1 / 10 ^ 10)

/-- `getLayerAssociation`; LatticeTraits.cpp:31-58. Coordinates of layers are different, so the sorted sequence does not depend on the method of sorting. -/
def layerAssociation (axis : Fin 3) (cell : List Shape) : List (ℝ × List Nat) :=
  (bins nearLayer (cell.map fun s => s.pos.get axis)).mergeSort fun a b => decide (a.1 ≤ b.1)

/-- `getColumnAssociation`; LatticeTraits.cpp:60-84. -/
def columnAssociation (axis : Fin 3) (cell : List Shape) : List ((ℝ × ℝ) × List Nat) :=
  bins nearColumn (cell.map fun s => (s.pos.get (axis + 1), s.pos.get (axis + 2)))

namespace LayerWise

/-- The loop `while (n1 % n2 != 0) n1 += n1_0;`, at most `fuel` times; LayerWiseTransformer.cpp:107-108. -/
def lcmLoop (n0 n2 : Nat) : Nat → Nat → Outcome Nat
  | 0, _ => .diverge
  | fuel + 1, n1 => if n1 % n2 ≠ 0 then lcmLoop n0 n2 fuel (n1 + n0) else .ok n1

/-- `LCM`; LayerWiseTransformer.cpp:99-110. Overflow of `std::size_t` is left out. -/
def lcm (n1 n2 : Nat) : Outcome Nat := do
  Outcome.require (decide (n1 > 0)) "Expects(n1 > 0)"
  Outcome.require (decide (n2 > 0)) "Expects(n2 > 0)"
  if n1 < n2 then lcmLoop n2 n1 n1 n2 else lcmLoop n1 n2 n2 n1

/-- A molecule of the replica `i` in the joint cell; LayerWiseTransformer.cpp:88-93. -/
def replica (axis : Fin 3) (factor i : Nat) (s : Shape) : Shape := ⟨s.pos.put axis ((s.pos.get axis + i) / factor), s.rot⟩

/-- Molecules of the joint cell; LayerWiseTransformer.cpp:84-94. -/
def replicas (axis : Fin 3) (factor : Nat) (cell : List Shape) : List Shape := (List.range factor).flatMap fun i => cell.map (replica axis factor i)

/-- Layers of the joint cell; LayerWiseTransformer.cpp:60-75. Their coordinates are not used afterwards and are left out. -/
def replicaLayers (factor size : Nat) (layers : List (ℝ × List Nat)) : List (List Nat) :=
  (List.range factor).flatMap fun i => layers.map fun l => l.2.map (· + i * size)

/-- The box of the joint cell; LayerWiseTransformer.cpp:79-81. -/
def jointBox (axis : Fin 3) (factor : Nat) (b : Box) : Outcome Box :=
  let s := b.sides.put axis ((factor : ℝ) • b.sides.get axis)
  Box.ofSides s.x s.y s.z

/-- Indices of molecules with numbers of their layers, in the order of the loops; LayerWiseTransformer.cpp:25-28. -/
def layerOf (layers : List (List Nat)) : List (Nat × Nat) := layers.zipIdx.flatMap fun l => l.1.map fun k => (k, l.2)

/-- `cellShape = this->transformShape(cellShape, layerIdx % requestedNumOfLayers)`; LayerWiseTransformer.cpp:29-30. -/
def transformAt (requested : Nat) (f : Nat → Shape → Outcome Shape) (cell : List Shape) (k : Nat × Nat) : Outcome (List Shape) := do
  let s ← vget cell k.1
  let s ← f (k.2 % requested) s
  vset cell k.1 s

/-- `transform`, with `recalculateUnitCell`; LayerWiseTransformer.cpp:11-36, 38-97. -/
def transform (axis : Fin 3) (requested : Nat) (f : Nat → Shape → Outcome Shape) (L : Lattice) : Outcome Lattice := do
  Outcome.require L.regular "Lattice must be regular for layerwise transforming operations"
  Outcome.require L.isNormalized "Relative coordinates in unit cell must be in range [0, 1)"
  let cell ← L.getSpecific ⟨0, 0, 0⟩
  let layers := layerAssociation axis cell
  let num ← lcm layers.length requested
  let factor := num / layers.length
  Outcome.require (decide (L.dims.get axis % factor = 0)) "Lattice dimensions should incorporate the number of layers"
  let box ← jointBox axis factor L.box
  let joint := replicaLayers factor cell.length layers
  Outcome.require (decide (joint.length % requested = 0)) "Assert(layerAssociation.size() % requestedNumOfLayers == 0)"
  let cell ← (layerOf joint).foldlM (transformAt requested f) (replicas axis factor cell)
  Lattice.create ⟨box, cell⟩ (L.dims.put axis (L.dims.get axis / factor))

/-- `LayerRotationTransformer::transformShape`; LayerRotationTransformer.cpp:19-40. -/
def rotateShape (rotationAxis : Fin 3) (angle : ℝ) (alternating : Bool) (layer : Nat) (s : Shape) : Outcome Shape := do
  Outcome.require (alternating || decide (layer = 0)) "Assert(layerIdx == 0)"
  Outcome.require (decide (layer < 2)) "layerIdx"
  let angles := (⟨0, 0, 0⟩ : Vec3 ℝ).put rotationAxis (if layer = 0 then angle else -angle)
  return s.rotate (Mat3.rotation angles.x angles.y angles.z)

/-- `LayerRotationTransformer`: `transform` with its `transformShape` and `getRequestedNumOfLayers`; LayerRotationTransformer.cpp:9-17. -/
def rotateLayers (axis rotationAxis : Fin 3) (angle : ℝ) (alternating : Bool) (L : Lattice) : Outcome Lattice :=
  transform axis (if alternating then 2 else 1) (rotateShape rotationAxis angle alternating) L

end LayerWise

namespace Columnar

/-- The two loops `while (pos >= 1.0) pos -= 1.0; while (pos < 0.0) pos += 1.0;` ColumnarTransformer.cpp:41-44. -/
def wrap (x : ℝ) : ℝ := Lattice.wrapUp (Lattice.wrapDown x)

/-- One molecule moved; ColumnarTransformer.cpp:38-45. -/
def shiftShape (axis : Fin 3) (shift : ℝ) (s : Shape) : Shape := ⟨s.pos.put axis (wrap (s.pos.get axis + shift)), s.rot⟩

/-- The molecules `ks` of a cell moved; ColumnarTransformer.cpp:37-46. Indices are those of the cell, so nothing is out of range. -/
def shiftColumn (axis : Fin 3) (shift : ℝ) (ks : List Nat) (cell : List Shape) : List Shape := ks.foldl (fun c k => c.modify k (shiftShape axis shift)) cell

/-- Cells and columns in the order of the loops; ColumnarTransformer.cpp:29-36. A column is given with its number. -/
def order (axis : Fin 3) (d : Vec3 Nat) (columns : List (List Nat)) : List (Vec3 Nat × List Nat × Nat) :=
  (List.range (d.get (axis + 1))).flatMap fun i => (List.range (d.get (axis + 2))).flatMap fun j => columns.zipIdx.flatMap fun c =>
    (List.range (d.get axis)).map fun k => ((((⟨0, 0, 0⟩ : Vec3 Nat).put (axis + 1) i).put (axis + 2) j).put axis k, c.1, c.2)

/-- `transform`; ColumnarTransformer.cpp:13-50. `shifts i j c` is the random number for the column number `c` of cells with coordinates `i` and `j`. -/
def transform (axis : Fin 3) (shifts : Nat → Nat → Nat → ℝ) (L : Lattice) : Outcome Lattice := do
  Outcome.require L.regular "Columnar transformation can only be applied to a regular lattice"
  Outcome.require L.isNormalized "Relative coordinates in unit cell must be in range [0, 1)"
  let cell ← L.getUnit
  (order axis L.dims ((columnAssociation axis cell).map Prod.snd)).foldlM
    (fun L o => L.modifySpecific o.1 (shiftColumn axis (shifts (o.1.get (axis + 1)) (o.1.get (axis + 2)) o.2.2) o.2.1)) L

end Columnar

namespace Randomizing

/-- A change of all molecules of a cell, which may fail; the loops in FlipRandomizingTransformer.cpp:19, RotationRandomizingTransformer.cpp:27-28. -/
def changeCell (f : Vec3 Nat → Nat → Shape → Outcome Shape) (L : Lattice) (i : Vec3 Nat) : Outcome Lattice := do
  let c ← L.getSpecific i
  let c ← c.zipIdx.mapM fun s => f i s.2 s.1
  L.modifySpecific i fun _ => c

/-- The loops over cells; FlipRandomizingTransformer.cpp:16-18, RotationRandomizingTransformer.cpp:24-26. -/
def changeAll (f : Vec3 Nat → Nat → Shape → Outcome Shape) (L : Lattice) : Outcome Lattice := (Lattice.allCells L.dims).foldlM (changeCell f) L

/-- One flip; FlipRandomizingTransformer.cpp:22-27. -/
def flipShape (G : Geometry) (b : Box) (flipAxis : Vec3 ℝ) (s : Shape) : Outcome Shape := do
  let a ← normalize (s.rot.mulVec flipAxis)
  let R := axisRotation a Real.pi
  let o := G.getGeometricOrigin s
  let t := -(R.mulVec o) + o
  return ⟨s.pos + b.absToRel t, R * s.rot⟩

/-- `FlipRandomizingTransformer::transform`; FlipRandomizingTransformer.cpp:8-36. `coin i k` is the random number for the molecule number `k` of the cell `i`. -/
def flips (G : Geometry) (coin : Vec3 Nat → Nat → Bool) (L : Lattice) : Outcome Lattice := do
  let a ← G.findFlipAxis Shape.default
  let N ← changeAll (fun i k s => if coin i k then flipShape G L.box a s else .ok s) L
  if L.isNormalized then N.normalize else .ok N

/-- `RotationRandomizingTransformer::Axis`; RotationRandomizingTransformer.h:25-35. Shape axes are in the order of `ShapeGeometry::Axis`. -/
inductive Axis where
  | vector (v : Vec3 ℝ)
  | primary
  | secondary
  | auxiliary
  | random

/-- The constructor; RotationRandomizingTransformer.cpp:9-19. -/
def mkAxis : Axis → Outcome Axis
  | .vector v => do
    Outcome.require (decide (v.norm2 > 1 / 10 ^ 20)) "Expects(vectorAxis.norm2() > 1e-20)"
    let n ← normalize v
    return .vector n
  | a => .ok a

/-- `theAxis`; RotationRandomizingTransformer.cpp:39-40, ShapeGeometry.cpp:104-115. -/
def shapeAxis (G : Geometry) (s : Shape) : Axis → Outcome (Vec3 ℝ)
  | .vector v => .ok v
  | .primary => G.getPrimaryAxis s >>= normalize
  | .secondary => G.getSecondaryAxis s >>= normalize
  | .auxiliary => G.getAuxiliaryAxis s >>= normalize
  | .random => .ub

/-- `rotateRandomly` with random angles and a number from [-1, 1); RotationRandomizingTransformer.cpp:31-57. -/
def rotateRandomly (G : Geometry) (a : Axis) (u : ℝ × ℝ × ℝ) (s : Shape) : Outcome Shape :=
  match a with
  | .random => .ok (s.rotate (Mat3.rotation u.1 (Real.arcsin u.2.1) u.2.2))
  | a => do
    let v ← shapeAxis G s a
    return s.rotate (axisRotation v u.1)

/-- `RotationRandomizingTransformer`: the constructor and `transform`; RotationRandomizingTransformer.cpp:9-29. -/
def rotations (G : Geometry) (a : Axis) (u : Vec3 Nat → Nat → ℝ × ℝ × ℝ) (L : Lattice) : Outcome Lattice := do
  let a ← mkAxis a
  changeAll (fun i k s => rotateRandomly G a (u i k) s) L

end Randomizing

end

end Rampack
