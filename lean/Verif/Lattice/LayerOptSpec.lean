import Verif.Lattice.DistanceSpec
import Verif.Lattice.TransformSpec
/-
Specification for the layer-wise optimisation of cells (C102).
-/
namespace Rampack.Spec

/-- Molecules of the cell with the coordinate along the axis replaced by `c`, which depends on the index of the molecule. -/
def atCoords (axis : Fin 3) (cell : List Shape) (c : Nat → ℝ) : List Shape :=
  cell.zipIdx.map fun p => ⟨p.1.pos.put axis (c p.2), p.1.rot⟩

/-- The lattice of `d` cells with the box `b` and the molecules `cell`, which may stick out of the cell, has overlaps. -/
def CellOverlaps (I : Interaction) (d : Vec3 Nat) (b : Box) (cell : List Shape) : Prop :=
  ∃ L L' B g P n, Lattice.create ⟨b, cell⟩ d = .ok L ∧ L.normalize = .ok L' ∧ L'.latticeBox = .ok B ∧ L'.generate = .ok g ∧
    Packing.create B g I 1 = .ok P ∧ P.countTotalOverlaps I false = .ok n ∧ 0 < n

/-- Coordinates when the layer `l` is at `x`: layers below are already at `c`, layers above are still at `c0`. -/
def layerAt (layer : Nat → Nat) (c0 c : Nat → ℝ) (l : Nat) (x : ℝ) (i : Nat) : ℝ :=
  if layer i < l then c i else if layer i = l then x else c0 i

/-- The original coordinate of a molecule. -/
noncomputable def coordOf (axis : Fin 3) (cell : List Shape) (i : Nat) : ℝ := ((cell[i]?.map fun s => s.pos.get axis).getD 0)

/-- The layer `l` has been moved towards the one below it: from its coordinate `q`, at most to the coordinate `p` at which the previous one was initially. Unless
`p` is reached, there are overlaps if it is moved further by 10^-12. It is finally moved back by 10^-12. -/
def LayerMoved (I : Interaction) (d : Vec3 Nat) (b : Box) (axis : Fin 3) (cell : List Shape) (layer : Nat → Nat) (c : Nat → ℝ) (l : Nat) : Prop :=
  ∃ i j p q x y, i < cell.length ∧ layer i + 1 = l ∧ p = coordOf axis cell i ∧ j < cell.length ∧ layer j = l ∧ q = coordOf axis cell j ∧
    p ≤ x ∧ x < y ∧ y ≤ q ∧ y - x ≤ precision ∧ (x = p ∨ CellOverlaps I d b (atCoords axis cell (layerAt layer (coordOf axis cell) c l x))) ∧
    ((¬ CellOverlaps I d b (atCoords axis cell (layerAt layer (coordOf axis cell) c l y)) ∧ ∀ k < cell.length, layer k = l → c k = y + precision) ∨
      y = q ∧ ∀ k < cell.length, layer k = l → c k = coordOf axis cell k + precision)

/-- The cell whose side along the axis is multiplied by `k`, with molecules at the same distances, has overlaps. -/
def OverlapsCompressed (I : Interaction) (d : Vec3 Nat) (b : Box) (axis : Fin 3) (cell : List Shape) (c : Nat → ℝ) (k : ℝ) : Prop :=
  ∃ b', Box.make (stretch b.dims ((⟨1, 1, 1⟩ : Vec3 ℝ).put axis k)) = .ok b' ∧ CellOverlaps I d b' (atCoords axis cell fun i => c i / k)

/-- Coordinates when layers are at the distances `c`, in units of the height `h`, from the beginning, the layer number `l` is moved by `l` spacings, and the new
height is `H`. -/
noncomputable def spacedAt (layer : Nat → Nat) (c : Nat → ℝ) (h spacing H : ℝ) (i : Nat) : ℝ := (c i * h + (layer i : ℝ) * spacing) / H

/-- Coordinates shifted, so that the first of `n` molecules and the last one are symmetric about the middle of the cell. -/
noncomputable def centredAt (n : Nat) (c : Nat → ℝ) (i : Nat) : ℝ := Int.fract (c i + (1 / 2 - (c 0 + c (n - 1)) / 2))

/-- All layers have been moved, the first one stays where it was. -/
def LayersMoved (I : Interaction) (d : Vec3 Nat) (b : Box) (axis : Fin 3) (cell : List Shape) (m : Nat) (layer : Nat → Nat) (c : Nat → ℝ) : Prop :=
  (∀ i < cell.length, layer i = 0 → c i = coordOf axis cell i) ∧ ∀ l, 0 < l → l < m → LayerMoved I d b axis cell layer c l

/-- Reasons for a refusal: there is no hard interaction; the lattice is not regular or not normalised; there are no molecules; there are overlaps; the box is too
small; there are no overlaps if the side is as short as possible; the height would not be positive because of negative spacing. -/
def LayersRefused (I : Interaction) (L : Lattice) (axis : Fin 3) (spacing : ℝ) : Prop :=
  I.hasHard = false ∨ L.regular = false ∨ L.isNormalized = false ∨ ∃ cell, L.getUnit = .ok cell ∧ (cell = [] ∨ CellOverlaps I L.dims L.box cell ∨
    ∃ B m layer c, L.latticeBox = .ok B ∧ Layering axis cell m layer ∧ LayersMoved I L.dims L.box axis cell m layer c ∧
      ((∃ a, B.heights.get a ≤ (1 + precision) * I.totalRange) ∨
        ¬ OverlapsCompressed I L.dims L.box axis cell c (I.totalRange * (1 + precision) / B.heights.get axis) ∨
        ∃ k, 0 < k ∧ k ≤ 1 ∧ k * L.box.heights.get axis + m * spacing ≤ 0))

end Rampack.Spec
