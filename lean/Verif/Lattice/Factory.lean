import Mathlib.Analysis.Real.Sqrt
import Verif.Lattice.Transform
/-
Model of unit cells of crystals: /repo/src/core/lattice/UnitCellFactory.cpp. Axes X, Y and Z are 0, 1 and 2. Orientations are the default ones.
-/
namespace Rampack

noncomputable section

namespace Factory

/-- `Shape({x, y, z})`. -/
def site (x y z : ℝ) : Shape := ⟨⟨x, y, z⟩, 1⟩

/-- `createScCell(const TriclinicBox &)`; UnitCellFactory.cpp:8-10. -/
def sc (b : Box) : UnitCell := ⟨b, [site (1 / 2) (1 / 2) (1 / 2)]⟩

/-- `createBccCell(const TriclinicBox &)`; UnitCellFactory.cpp:24-26. -/
def bcc (b : Box) : UnitCell := ⟨b, [site (1 / 4) (1 / 4) (1 / 4), site (3 / 4) (3 / 4) (3 / 4)]⟩

/-- `createFccCell(const TriclinicBox &)`; UnitCellFactory.cpp:33-36. -/
def fcc (b : Box) : UnitCell :=
  ⟨b, [site (1 / 4) (1 / 4) (1 / 4), site (1 / 4) (3 / 4) (3 / 4), site (3 / 4) (1 / 4) (3 / 4), site (3 / 4) (3 / 4) (1 / 4)]⟩

/-- `shift`; UnitCellFactory.cpp:54-59. -/
def shift (axis : Fin 3) : Fin 3 := match axis with | 0 => 1 | 1 => 2 | 2 => 0

/-- `newPos`; UnitCellFactory.cpp:62-66. -/
def cycled (k : Fin 3) (p : Vec3 ℝ) : Vec3 ℝ := ((p.put (0 + k) (p.get 0)).put (1 + k) (p.get 1)).put (2 + k) (p.get 2)

/-- `createHcpCell(const TriclinicBox &, Axis)`; UnitCellFactory.cpp:47-70. -/
def hcp (b : Box) (axis : Fin 3) : UnitCell :=
  ⟨b, [site 0 0 0, site (1 / 2) (1 / 2) 0, site 0 (1 / 3) (1 / 2), site (1 / 2) (5 / 6) (1 / 2)].map fun s =>
    ⟨cycled (shift axis) (s.pos + ⟨1 / 4, 1 / 12, 1 / 4⟩), s.rot⟩⟩

/-- `createHexagonalCell(const TriclinicBox &, Axis)`; UnitCellFactory.cpp:91-101. -/
def hexagonal (b : Box) (axis : Fin 3) : UnitCell :=
  match axis with
  | 0 => ⟨b, [site (1 / 2) (1 / 4) (1 / 4), site (1 / 2) (3 / 4) (3 / 4)]⟩
  | 1 => ⟨b, [site (1 / 4) (1 / 2) (1 / 4), site (3 / 4) (1 / 2) (3 / 4)]⟩
  | 2 => ⟨b, [site (1 / 4) (1 / 4) (1 / 2), site (3 / 4) (3 / 4) (1 / 2)]⟩

/-- The order of sides; UnitCellFactory.cpp:80-87, 111-118. -/
def sidesFor (axis : Fin 3) (a b c : ℝ) : Vec3 ℝ := match axis with | 0 => ⟨c, a, b⟩ | 1 => ⟨b, c, a⟩ | 2 => ⟨a, b, c⟩

/-- `createScCell(double)`; UnitCellFactory.cpp:16-18. -/
def scBalls (d : ℝ) : Outcome UnitCell := do
  let b ← Box.ofLengths ⟨d, d, d⟩
  return sc b

/-- `createBccCell(double)`; UnitCellFactory.cpp:28-31. -/
def bccBalls (d : ℝ) : Outcome UnitCell := do
  let a := 2 * d / √3
  let b ← Box.ofLengths ⟨a, a, a⟩
  return bcc b

/-- `createFccCell(double)`; UnitCellFactory.cpp:42-45. -/
def fccBalls (d : ℝ) : Outcome UnitCell := do
  let a := √2 * d
  let b ← Box.ofLengths ⟨a, a, a⟩
  return fcc b

/-- `createHcpCell(double, Axis)`; UnitCellFactory.cpp:76-89. -/
def hcpBalls (d : ℝ) (axis : Fin 3) : Outcome UnitCell := do
  let b ← Box.ofLengths (sidesFor axis d (√3 * d) (2 * √6 * d / 3))
  return hcp b axis

/-- `createHexagonalCell(double, Axis)`; UnitCellFactory.cpp:107-120. -/
def hexagonalBalls (d : ℝ) (axis : Fin 3) : Outcome UnitCell := do
  let b ← Box.ofLengths (sidesFor axis d (√3 * d) d)
  return hexagonal b axis

end Factory

end

end Rampack
