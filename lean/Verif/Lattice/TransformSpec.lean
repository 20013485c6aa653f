import Verif.Lattice.Transform
import Verif.Lattice.Spec
import Verif.Sim.OrientSpec
import Verif.Shapes.AxesSpec
import Verif.Geometry.RotationSpec
/-
Specification for transformations of lattices (C86, C87, C88).
-/
namespace Rampack.Spec

open Rampack

/-- Two coordinates are regarded as the same one. -/
def SameCoord (x y : ℝ) : Prop := |x - y| < 1 / 10 ^ 10

/-- Molecules of the cell can be divided into layers: coordinates close to the same one are close to each other. -/
def ClearLayers (axis : Fin 3) (cell : List Shape) : Prop :=
  ∀ s ∈ cell, ∀ t ∈ cell, ∀ u ∈ cell, SameCoord (s.pos.get axis) (t.pos.get axis) → SameCoord (t.pos.get axis) (u.pos.get axis) →
    SameCoord (s.pos.get axis) (u.pos.get axis)

/-- Molecules of the cell, given by their indices, are divided into `m` layers, numbered from 0 in the order of the coordinate. -/
structure Layering (axis : Fin 3) (cell : List Shape) (m : Nat) (layer : Nat → Nat) : Prop where
  same : ∀ {i j s t}, cell[i]? = some s → cell[j]? = some t → (layer i = layer j ↔ SameCoord (s.pos.get axis) (t.pos.get axis))
  below : ∀ {i j s t}, cell[i]? = some s → cell[j]? = some t →
    (layer i < layer j ↔ s.pos.get axis < t.pos.get axis ∧ ¬ SameCoord (s.pos.get axis) (t.pos.get axis))
  lt : ∀ i < cell.length, layer i < m
  onto : ∀ l < m, ∃ i < cell.length, layer i = l

/-- The unit vector along an axis. -/
def unitAlong (axis : Fin 3) : Vec3 ℝ := Vec3.ofFn fun b => if b = axis then 1 else 0

/-- All molecules of a lattice with the unit cell `cell`, of orientations changed by `R`, which depends on the number of the layer counted throughout the
lattice. -/
def turnedLayers (axis : Fin 3) (L : Lattice) (cell : List Shape) (m : Nat) (layer : Nat → Nat) (R : Nat → Mat3) (cells : List (Vec3 Nat)) : List Shape :=
  cells.flatMap fun i => cell.zipIdx.map fun p => ⟨L.box.relToAbs (⟨i.x, i.y, i.z⟩ + p.1.pos), R (i.get axis * m + layer p.2) * p.1.rot⟩

end Rampack.Spec

namespace Rampack.Spec

/-- Two molecules of a cell are in the same column: they have the same coordinates other than the one along the axis. -/
def SameColumn (axis : Fin 3) (s t : Shape) : Prop := ∀ b, b ≠ axis → SameCoord (s.pos.get b) (t.pos.get b)

/-- Molecules of the cell can be divided into columns. -/
def ClearColumns (axis : Fin 3) (cell : List Shape) : Prop :=
  ∀ s ∈ cell, ∀ t ∈ cell, ∀ u ∈ cell, SameColumn axis s t → SameColumn axis t u → SameColumn axis s u

/-- Numbers of columns of molecules, which are given by their indices. -/
def Columns (axis : Fin 3) (cell : List Shape) (column : Nat → Nat) : Prop :=
  ∀ i j s t, cell[i]? = some s → cell[j]? = some t → (column i = column j ↔ SameColumn axis s t)

/-- All molecules of a lattice with the unit cell `cell`, moved along the axis, without wrapping. The relative displacement, in units of the side of the cell, is
`shift i c`, where `i` is the cell and `c` is the number of the column. -/
def movedColumns (axis : Fin 3) (L : Lattice) (cell : List Shape) (column : Nat → Nat) (shift : Vec3 Nat → Nat → ℝ) (cells : List (Vec3 Nat)) : List Shape :=
  cells.flatMap fun i => cell.zipIdx.map fun p =>
    ⟨L.box.relToAbs (⟨i.x, i.y, i.z⟩ + p.1.pos.put axis (p.1.pos.get axis + shift i (column p.2))), p.1.rot⟩

end Rampack.Spec

namespace Rampack.Spec

/-- The molecule `s` of the cell `i` as it stands in the box. -/
def standing (L : Lattice) (i : Vec3 Nat) (s : Shape) : Shape := ⟨L.box.relToAbs (⟨i.x, i.y, i.z⟩ + s.pos), s.rot⟩

/-- The molecules `g` of a lattice, with cells in the order `cells`. -/
def Molecules (L : Lattice) (cells : List (Vec3 Nat)) (mol : Vec3 Nat → List Shape) (g : List Shape) : Prop :=
  cells.Nodup ∧ (∀ i, i ∈ cells ↔ InRange L.dims i) ∧ (∀ i ∈ cells, L.getSpecific i = .ok (mol i)) ∧ L.generate = .ok g ∧
    g = cells.flatMap fun i => (mol i).map (standing L i)

/-- The list of `t i k` for all molecules, where `k` is the number of a molecule of the cell `i`. -/
def forMolecules (cells : List (Vec3 Nat)) (mol : Vec3 Nat → List Shape) (t : Vec3 Nat → Nat → Shape) : List Shape :=
  cells.flatMap fun i => (List.range (mol i).length).map (t i)

/-- A shape turned upside down: by a half-turn about an axis which is perpendicular to the primary axis and goes through the geometric origin. If there is the
secondary axis, the half-turn is about it. -/
def Flipped (G : Geometry) (s t : Shape) : Prop :=
  t.pos + t.rot.mulVec G.origin = s.pos + s.rot.mulVec G.origin ∧
  (∀ a, G.primary = some a → t.rot.mulVec a = -(s.rot.mulVec a)) ∧
  (∀ b, G.secondary = some b → t.rot.mulVec b = s.rot.mulVec b) ∧
  ∃ w R, w.norm2 = 1 ∧ RotatesAbout R w Real.pi ∧ t.rot = R * s.rot

open LayerWise Randomizing in
/-- The unit vector along the axis of rotation. -/
def AxisOf (G : Geometry) (s : Shape) : Randomizing.Axis → Vec3 ℝ → Prop
  | .vector v, n => n.norm2 = 1 ∧ v = v.norm • n
  | .primary, n => ∃ a, G.primary = some a ∧ n = s.rot.mulVec a
  | .secondary, n => ∃ b, G.secondary = some b ∧ n = s.rot.mulVec b
  | .auxiliary, n => ∃ a b, G.primary = some a ∧ G.secondary = some b ∧ n = (s.rot.mulVec a).cross (s.rot.mulVec b)
  | .random, _ => False

/-- The shape has the axis of rotation. -/
def HasAxis (G : Geometry) : Randomizing.Axis → Prop
  | .vector v => v.norm2 > 1 / 10 ^ 20
  | .primary => G.primary ≠ none
  | .secondary => G.secondary ≠ none
  | .auxiliary => G.secondary ≠ none
  | .random => True

/-- A shape turned in place by the angle `u.1` about the axis, or, for the random axis, by the angles `u.1`, `arcsin u.2.1` and `u.2.2` about X, Y and Z. -/
def Turned (G : Geometry) (a : Randomizing.Axis) (u : ℝ × ℝ × ℝ) (s t : Shape) : Prop :=
  t.pos = s.pos ∧ IsRotation t.rot ∧
    match a with
    | .random => ∃ R, Reproduces ⟨u.1, Real.arcsin u.2.1, u.2.2⟩ R ∧ t.rot = R * s.rot
    | a => ∃ n R, AxisOf G s a n ∧ n.norm2 = 1 ∧ RotatesAbout R n u.1 ∧ t.rot = R * s.rot

end Rampack.Spec
