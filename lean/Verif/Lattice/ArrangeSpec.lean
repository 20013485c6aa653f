import Verif.Lattice.Arrange
import Verif.Lattice.Spec
/-
Specification for lattice arrangements (C107).
-/
namespace Rampack.Spec

/-- The number of cells of a lattice. -/
def cellCount (d : Vec3 Nat) : Nat := d.x * d.y * d.z

/-- The nearest integer, with halves rounded up. -/
def NearestInteger (x : ℝ) (k : Nat) : Prop := (k : ℝ) - 1 / 2 ≤ x ∧ x < k + 1 / 2

/-- `g` has molecules `u` in each of `d` cells of the box `B`, cell by cell in the order of `cells`. Positions of `u` are relative to the cell. -/
def FilledBox (B : Box) (d : Vec3 Nat) (u : List Shape) (cells : List (Vec3 Nat)) (g : List Shape) : Prop :=
  cells.Nodup ∧ (∀ i, i ∈ cells ↔ InRange d i) ∧
    g = cells.flatMap fun i => u.map fun s => ⟨B.relToAbs ⟨((i.x : ℝ) + s.pos.x) / d.x, ((i.y : ℝ) + s.pos.y) / d.y, ((i.z : ℝ) + s.pos.z) / d.z⟩, s.rot⟩

/-- Coordinates shifted cyclically to the left. -/
def shiftLeft (p : Vec3 ℝ) : Vec3 ℝ := ⟨p.y, p.z, p.x⟩

/-- A molecule with the default orientation. -/
def upright (p : Vec3 ℝ) : Shape := ⟨p, 1⟩

/-- For the axis z as given, for y shifted to the left once and for x twice. -/
def shiftFor (axis : Fin 3) (p : Vec3 ℝ) : Vec3 ℝ := match axis with | 2 => p | 1 => shiftLeft p | 0 => shiftLeft (shiftLeft p)

/-- Molecules of unit cells; docs/initial-arrangement.md:253-345. -/
noncomputable def documentedSites : Arrange.CellType → List Shape
  | .sc => [upright ⟨1 / 2, 1 / 2, 1 / 2⟩]
  | .bcc => [upright ⟨1 / 4, 1 / 4, 1 / 4⟩, upright ⟨3 / 4, 3 / 4, 3 / 4⟩]
  | .fcc => [upright ⟨1 / 4, 1 / 4, 1 / 4⟩, upright ⟨1 / 4, 3 / 4, 3 / 4⟩, upright ⟨3 / 4, 1 / 4, 3 / 4⟩, upright ⟨3 / 4, 3 / 4, 1 / 4⟩]
  | .hcp axis => [⟨1 / 4, 1 / 12, 1 / 4⟩, ⟨3 / 4, 7 / 12, 1 / 4⟩, ⟨1 / 4, 5 / 12, 3 / 4⟩, ⟨3 / 4, 11 / 12, 3 / 4⟩].map fun p => upright (shiftFor axis p)
  | .hexagonal axis => [⟨1 / 4, 1 / 4, 1 / 2⟩, ⟨3 / 4, 3 / 4, 1 / 2⟩].map fun p => upright (shiftFor axis p)
  | .custom shapes => shapes

/-- Sides of the box given by a number, three numbers or three vectors; docs/initial-arrangement.md:164-178. -/
noncomputable def documentedSides : Arrange.DimArg → Vec3 (Vec3 ℝ)
  | .number a => ⟨⟨a, 0, 0⟩, ⟨0, a, 0⟩, ⟨0, 0, a⟩⟩
  | .lengths l => ⟨⟨l.x, 0, 0⟩, ⟨0, l.y, 0⟩, ⟨0, 0, l.z⟩⟩
  | .vectors m => ⟨m.r0, m.r1, m.r2⟩

/-- Numbers are positive, and the volume spanned by vectors is more than 10⁻⁸. -/
def ProperDim : Arrange.DimArg → Prop
  | .number a => 0 < a
  | .lengths l => 0 < l.x ∧ 0 < l.y ∧ 0 < l.z
  | .vectors m => 1 / 10 ^ 8 < |m.det|

/-- A cell has a molecule. -/
def ProperCell (c : Arrange.CellType) : Prop := documentedSites c ≠ []

/-- There is a cell in each direction. -/
def ProperCount (n : Vec3 Nat) : Prop := 0 < n.x ∧ 0 < n.y ∧ 0 < n.z

/-- Which molecules are requested: all, or some number of them; an order of axes consists of different letters x, y, z; any shuffle may happen. -/
def ProperFill : Arrange.Fill → Prop
  | .full => True
  | .auto m => 0 < m
  | .serial m axes => 0 < m ∧ ∃ a : Vec3 (Fin 3), (a.x ≠ a.y ∧ a.x ≠ a.z ∧ a.y ≠ a.z) ∧ axes = [axisLetter a.x, axisLetter a.y, axisLetter a.z]
  | .random m shuffle => 0 < m ∧ ∀ l, (shuffle l).Perm l

/-- The number of molecules requested; all of them if none. -/
def requested : Arrange.Fill → Option Nat
  | .full => none
  | .auto m => some m
  | .serial m _ => some m
  | .random m _ => some m

end Rampack.Spec
