import Verif.Packing.Model
/-
Model of lattices: /repo/src/core/lattice/UnitCell.h, UnitCell.cpp, Lattice.h, Lattice.cpp, LatticeTraits.cpp, SerialPopulator.cpp, RandomPopulator.cpp.
-/
namespace Rampack

noncomputable section

/-- `UnitCell`; UnitCell.h:20-62. Positions of molecules are relative. -/
structure UnitCell where
  box : Box
  molecules : List Shape

/-- All relative coordinates are from [0, 1); UnitCell.cpp:15-21. -/
def cellNormalized (c : List Shape) : Bool :=
  c.all fun s => !((decide (s.pos.x < 0) || decide (s.pos.x ≥ 1)) || (decide (s.pos.y < 0) || decide (s.pos.y ≥ 1)) || (decide (s.pos.z < 0) || decide (s.pos.z ≥ 1)))

/-- `Lattice`; Lattice.h:30-40. The box is shared by all cells. That copies of a lattice share it too is left out: a lattice here is only changed through
itself. -/
structure Lattice where
  cells : List (List Shape)
  box : Box
  dims : Vec3 Nat
  numCells : Nat
  regular : Bool

/-- The conversion to `int`: wraps around. -/
def wrapInt (n : Int) : Int := (BitVec.ofInt 32 n).toInt

/-- The conversion of `int` to `std::size_t`: wraps around. -/
def toSize (n : Int) : Nat := (n % 2 ^ 64).toNat

/-- The number of cells, multiplied in `int`; Lattice.cpp:16. -/
def countCells (d : Vec3 Nat) : Nat := toSize (wrapInt (wrapInt (wrapInt (1 * d.x) * d.y) * d.z))

namespace Lattice

/-- The constructor; Lattice.cpp:12-17. -/
def create (c : UnitCell) (dims : Vec3 Nat) : Outcome Lattice := do
  Outcome.require (decide (0 < dims.x) && decide (0 < dims.y) && decide (0 < dims.z)) "Expects: dimensions > 0"
  return ⟨[c.molecules], c.box, dims, countCells dims, true⟩

/-- `getCellIndex`; Lattice.cpp:35-41. -/
def cellIndex (L : Lattice) (i : Vec3 Nat) : Outcome Nat := do
  Outcome.require (decide (i.x < L.dims.x)) "Expects: i < dimensions[0]"
  Outcome.require (decide (i.y < L.dims.y)) "Expects: j < dimensions[1]"
  Outcome.require (decide (i.z < L.dims.z)) "Expects: k < dimensions[2]"
  return i.x + i.y * L.dims.x + i.z * L.dims.x * L.dims.y

/-- `getSpecificCell`, `getSpecificCellMolecules`; Lattice.cpp:19-24, 88-90. -/
def getSpecific (L : Lattice) (i : Vec3 Nat) : Outcome (List Shape) :=
  if L.regular then vget L.cells 0
  else do
    let n ← L.cellIndex i
    vget L.cells n

/-- What `modifySpecificCellMolecules` does first; it is done even if the index is then refused; Lattice.cpp:27-30. `resize` to fewer cells keeps only the
first ones. -/
def unfolded (L : Lattice) : Lattice :=
  if L.regular then ⟨(L.cells ++ List.replicate (L.numCells - L.cells.length) (L.cells.headD [])).take L.numCells, L.box, L.dims, L.numCells, false⟩ else L

/-- `modifySpecificCellMolecules`, after which the list of molecules is changed by `f`; Lattice.cpp:26-33. -/
def modifySpecific (L : Lattice) (i : Vec3 Nat) (f : List Shape → List Shape) : Outcome Lattice := do
  let n ← L.unfolded.cellIndex i
  let c ← vget L.unfolded.cells n
  return ⟨L.unfolded.cells.set n (f c), L.box, L.dims, L.numCells, false⟩

/-- `getUnitCell`, `getUnitCellMolecules`; Lattice.cpp:83-86, 92-94. -/
def getUnit (L : Lattice) : Outcome (List Shape) := do
  Outcome.require L.regular "Expects: isRegular"
  vget L.cells 0

/-- `modifyUnitCellMolecules`, after which the list of molecules is changed by `f`; Lattice.cpp:96-99. -/
def modifyUnit (L : Lattice) (f : List Shape → List Shape) : Outcome Lattice := do
  Outcome.require L.regular "Expects: isRegular"
  let c ← vget L.cells 0
  return ⟨L.cells.set 0 (f c), L.box, L.dims, L.numCells, L.regular⟩

/-- `modifyCellBox`, after which the box is assigned; Lattice.h:93. -/
def setBox (L : Lattice) (b : Box) : Lattice := ⟨L.cells, b, L.dims, L.numCells, L.regular⟩

/-- `getLatticeBox`; Lattice.cpp:43-48. -/
def latticeBox (L : Lattice) : Outcome Box :=
  Box.ofSides ((L.dims.x : ℝ) • L.box.sides.x) ((L.dims.y : ℝ) • L.box.sides.y) ((L.dims.z : ℝ) • L.box.sides.z)

/-- `size`; Lattice.cpp:50-59. -/
def size (L : Lattice) : Nat :=
  if L.regular then L.numCells * (L.cells.headD []).length else L.cells.foldl (fun n c => n + c.length) 0

/-- Indices in the order of the three loops; Lattice.cpp:67-69. -/
def allCells (d : Vec3 Nat) : List (Vec3 Nat) :=
  (List.range d.x).flatMap fun i => (List.range d.y).flatMap fun j => (List.range d.z).map fun k => ⟨i, j, k⟩

/-- An index as a vector of `double`. -/
def ofCell (i : Vec3 Nat) : Vec3 ℝ := ⟨i.x, i.y, i.z⟩

/-- A molecule of a cell with the absolute position; Lattice.cpp:72-74. -/
def place (b : Box) (i : Vec3 Nat) (s : Shape) : Shape := ⟨b.relToAbs (ofCell i + s.pos), s.rot⟩

/-- `generateMolecules`; Lattice.cpp:61-81. -/
def generate (L : Lattice) : Outcome (List Shape) :=
  (allCells L.dims).foldlM (fun acc i => do
    let c ← L.getSpecific i
    return acc ++ c.map (place L.box i)) []

/-- `isNormalized`; Lattice.cpp:147-149. -/
def isNormalized (L : Lattice) : Bool := L.cells.all cellNormalized

/-- `while (posElem < 0) posElem += 1;` Lattice.cpp:116-117. -/
def wrapUp (x : ℝ) : ℝ :=
  if x < 0 then wrapUp (x + 1) else x
termination_by ⌈-x⌉.toNat
decreasing_by
  have h2 : 0 < ⌈-x⌉ := Int.ceil_pos.mpr (by linarith)
  rw [neg_add', Int.ceil_sub_one]; omega

/-- `while (posElem >= 1) posElem -= 1;` Lattice.cpp:118-119. -/
def wrapDown (x : ℝ) : ℝ :=
  if x ≥ 1 then wrapDown (x - 1) else x
termination_by ⌊x⌋.toNat
decreasing_by
  have h2 : 1 ≤ ⌊x⌋ := Int.le_floor.mpr (by push_cast; linarith)
  rw [Int.floor_sub_one]; omega

/-- One molecule in `normalizeRegular`; Lattice.cpp:113-122. -/
def wrapShape (s : Shape) : Shape := ⟨⟨wrapDown (wrapUp s.pos.x), wrapDown (wrapUp s.pos.y), wrapDown (wrapUp s.pos.z)⟩, s.rot⟩

/-- `normalizeRegular`; Lattice.cpp:111-123. -/
def normalizeRegular (L : Lattice) : Outcome Lattice := L.modifyUnit fun c => c.map wrapShape

/-- `(coord % dim + dim) % dim` in `int`, where `coord` is made from `double`, with undefined behaviour if it is out of range of `int`, if the sum overflows
or for `dim` = 0; Lattice.cpp:134-136. -/
def cellCoord (x : ℝ) (dim : Nat) : Outcome Nat :=
  let d := wrapInt dim
  let c := ⌊x⌋
  if c < -2 ^ 31 ∨ 2 ^ 31 ≤ c ∨ d = 0 ∨ 2 ^ 31 ≤ c.tmod d + d ∨ c.tmod d + d < -2 ^ 31 then .ub
  else .ok (toSize ((c.tmod d + d).tmod d))

/-- The part of the position which is within a cell: `relativeBoxPos - cellIDouble`; Lattice.cpp:128-131, 138. -/
def remainder (p : Vec3 ℝ) : Vec3 ℝ := p - ⟨(⌊p.x⌋ : ℝ), (⌊p.y⌋ : ℝ), (⌊p.z⌋ : ℝ)⟩

/-- One molecule in `normalizeIrregular`; Lattice.cpp:127-143. -/
def putMolecule (b : Box) (dims : Vec3 Nat) (N : Lattice) (s : Shape) : Outcome Lattice := do
  let x ← cellCoord (b.absToRel s.pos).x dims.x
  let y ← cellCoord (b.absToRel s.pos).y dims.y
  let z ← cellCoord (b.absToRel s.pos).z dims.z
  N.modifySpecific ⟨x, y, z⟩ fun c => c ++ [⟨remainder (b.absToRel s.pos), s.rot⟩]

/-- `normalizeIrregular`; Lattice.cpp:125-146. -/
def normalizeIrregular (L : Lattice) : Outcome Lattice := do
  let N ← create ⟨L.box, []⟩ L.dims
  let g ← L.generate
  g.foldlM (putMolecule L.box L.dims) N

/-- `normalize`; Lattice.cpp:101-109. -/
def normalize (L : Lattice) : Outcome Lattice :=
  if L.isNormalized then .ok L
  else if L.regular then L.normalizeRegular
  else L.normalizeIrregular

end Lattice

/-- `parseAxisOrder`; LatticeTraits.cpp:10-25. -/
def parseAxisOrder (s : List Char) : Outcome (Vec3 (Fin 3)) :=
  if s = ['x', 'y', 'z'] then .ok ⟨0, 1, 2⟩
  else if s = ['x', 'z', 'y'] then .ok ⟨0, 2, 1⟩
  else if s = ['y', 'x', 'z'] then .ok ⟨1, 0, 2⟩
  else if s = ['y', 'z', 'x'] then .ok ⟨1, 2, 0⟩
  else if s = ['z', 'x', 'y'] then .ok ⟨2, 0, 1⟩
  else if s = ['z', 'y', 'x'] then .ok ⟨2, 1, 0⟩
  else .throw "Malformed axis order"

/-- `i[axis] = n`. -/
def Vec3.put {α : Type} (v : Vec3 α) (a : Fin 3) (n : α) : Vec3 α := Vec3.ofFn fun b => if b = a then n else v.get b

namespace SerialPopulator

/-- Indices in the order of the three loops; SerialPopulator.cpp:16-21. -/
def order (a : Vec3 (Fin 3)) (d : Vec3 Nat) : List (Vec3 Nat) :=
  (List.range (d.get a.x)).flatMap fun n => (List.range (d.get a.y)).flatMap fun m => (List.range (d.get a.z)).map fun k =>
    (((⟨0, 0, 0⟩ : Vec3 Nat).put a.x n).put a.y m).put a.z k

/-- The loop over a cell; `true` if the function returns within it; SerialPopulator.cpp:22-30. -/
def fillCell (b : Box) (i : Vec3 Nat) (num : Nat) : List Shape → List Shape → List Shape × Bool
  | acc, [] => (acc, false)
  | acc, s :: c => if acc.length = num then (acc, true) else fillCell b i num (acc ++ [Lattice.place b i s]) c

/-- The loops over cells; SerialPopulator.cpp:18-36. -/
def fill (L : Lattice) (num : Nat) : List Shape → List (Vec3 Nat) → Outcome (List Shape)
  | acc, [] => .ok acc
  | acc, i :: is => do
    let c ← L.getSpecific i
    if (fillCell L.box i num acc c).2 then .ok (fillCell L.box i num acc c).1
    else fill L num (fillCell L.box i num acc c).1 is

/-- `populateLattice` with the axis order string from the constructor; SerialPopulator.h:26-28, SerialPopulator.cpp:9-37. -/
def populate (axes : List Char) (L : Lattice) (num : Nat) : Outcome (List Shape) := do
  let a ← parseAxisOrder axes
  Outcome.require (decide (num ≤ L.size)) "Expects: lattice.size() >= numOfShapes"
  fill L num [] (order a L.dims)

end SerialPopulator

namespace RandomPopulator

/-- `populateLattice`; RandomPopulator.cpp:12-28. `shuffle` is what `std::shuffle` does. -/
def populate (shuffle : List Nat → List Nat) (L : Lattice) (num : Nat) : Outcome (List Shape) := do
  Outcome.require (decide (num ≤ L.size)) "Expects: latticeSize >= numOfShapes"
  let g ← L.generate
  (((shuffle (List.range L.size)).take num).mergeSort fun a b => decide (a ≤ b)).mapM (vget g)

end RandomPopulator

end

end Rampack
