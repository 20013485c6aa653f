import Mathlib.Analysis.SpecialFunctions.Pow.Real
import Verif.Lattice.Factory
import Verif.Domain.Model
/-
Model of lattice arrangements given in the input file: /repo/src/frontend/LatticeDimensionsOptimizer.cpp and /repo/src/frontend/matchers/LatticeMatcher.cpp.
-/
namespace Rampack

noncomputable section

namespace LatticeDimensions

/-- The product of dimensions in `unsigned long`; LatticeDimensionsOptimizer.cpp:32. -/
def product (d : Vec3 Nat) : Nat := d.x * d.y * d.z % 2 ^ 64

/-- `(*maxDim)++`, where `std::max_element` is the first of the largest elements; the increment wraps around; LatticeDimensionsOptimizer.cpp:33-34. -/
def increment (d : Vec3 Nat) : Vec3 Nat :=
  if d.y ≤ d.x ∧ d.z ≤ d.x then ⟨(d.x + 1) % 2 ^ 64, d.y, d.z⟩
  else if d.z ≤ d.y then ⟨d.x, (d.y + 1) % 2 ^ 64, d.z⟩
  else ⟨d.x, d.y, (d.z + 1) % 2 ^ 64⟩

/-- The loop; LatticeDimensionsOptimizer.cpp:32-35. The first argument is the number of iterations after which we give up. -/
def grow : Nat → Nat → Vec3 Nat → Outcome (Vec3 Nat)
  | 0, n, d => if product d < n then .diverge else .ok d
  | fuel + 1, n, d => if product d < n then grow fuel n (increment d) else .ok d

/-- `numAllCells`; LatticeDimensionsOptimizer.cpp:13-17. -/
def numAllCells (numParticles cellSize : Nat) : Nat :=
  if numParticles % cellSize = 0 then numParticles / cellSize else numParticles / cellSize + 1

/-- `dimCalculator`: conversion of a too large `double` to `std::size_t` is undefined behaviour; LatticeDimensionsOptimizer.cpp:25-28. -/
def along (target height : ℝ) : Outcome Nat :=
  if 2 ^ 64 ≤ Domain.cround (height / target) then .ub else .ok (Domain.cround (height / target)).toNat

/-- `optimize`; LatticeDimensionsOptimizer.cpp:10-38. The remainder of division by zero is undefined behaviour. -/
def optimize (fuel numParticles cellSize : Nat) (box : Box) : Outcome (Vec3 Nat) :=
  if cellSize = 0 then .ub
  else do
    let target : ℝ := (box.heights.x * box.heights.y * box.heights.z / (numAllCells numParticles cellSize : ℝ)) ^ (1 / 3 : ℝ)
    let x ← along target box.heights.x
    let y ← along target box.heights.y
    let z ← along target box.heights.z
    grow fuel (numAllCells numParticles cellSize) ⟨x, y, z⟩

end LatticeDimensions

namespace Arrange

/-- Arguments `cell_dim` and `box_dim`: a number, three numbers or three vectors; LatticeMatcher.cpp:335-359. -/
inductive DimArg where
  | number (a : ℝ)
  | lengths (l : Vec3 ℝ)
  | vectors (m : Mat3)

/-- What the matcher lets through; LatticeMatcher.cpp:336-337, 341-343, 347-352. -/
def DimArg.accepted : DimArg → Bool
  | .number a => decide (0 < a)
  | .lengths l => decide (0 < l.x) && decide (0 < l.y) && decide (0 < l.z)
  | .vectors m => decide (1 / 10 ^ 8 < |m.det|)

/-- `TriclinicBox(args)`; LatticeMatcher.cpp:214, 248; TriclinicBox.h:33-51. Vectors are rows of the matrix, which is transposed; LatticeMatcher.cpp:355. -/
def DimArg.box : DimArg → Outcome Box
  | .number a => Box.ofLengths ⟨a, a, a⟩
  | .lengths l => Box.ofLengths l
  | .vectors m => Box.make m.transpose

/-- Unit cells; LatticeMatcher.cpp:261-263. -/
inductive CellType where
  | sc
  | bcc
  | fcc
  | hcp (axis : Fin 3)
  | hexagonal (axis : Fin 3)
  | custom (shapes : List Shape)

/-- What the matcher lets through; LatticeMatcher.cpp:323-326. -/
def CellType.accepted : CellType → Bool
  | .custom shapes => !shapes.isEmpty
  | _ => true

/-- `CellCreator` with a box; LatticeMatcher.cpp:265-332. -/
def CellType.withBox (b : Box) : CellType → UnitCell
  | .sc => Factory.sc b
  | .bcc => Factory.bcc b
  | .fcc => Factory.fcc b
  | .hcp axis => Factory.hcp b axis
  | .hexagonal axis => Factory.hexagonal b axis
  | .custom shapes => ⟨b, shapes⟩

/-- `CellCreator` with a number; LatticeMatcher.cpp:265-332. -/
def CellType.withNumber (a : ℝ) : CellType → Outcome UnitCell
  | .sc => Factory.scBalls a
  | .bcc => Factory.bccBalls a
  | .fcc => Factory.fccBalls a
  | .hcp axis => Factory.hcpBalls a axis
  | .hexagonal axis => Factory.hexagonalBalls a axis
  | .custom shapes => do
    let b ← Box.ofLengths ⟨a, a, a⟩
    return ⟨b, shapes⟩

/-- `std::visit(cellCreator, cellDim)`; LatticeMatcher.cpp:187; for three numbers: UnitCellFactory.cpp:12-14, 20-22, 38-40, 72-74, 103-105. -/
def CellType.make (c : CellType) : DimArg → Outcome UnitCell
  | .number a => c.withNumber a
  | .lengths l => do
    let b ← Box.ofLengths l
    return c.withBox b
  | .vectors m => do
    let b ← Box.make m.transpose
    return c.withBox b

/-- Pairs of a dimension and a letter in the order of `std::sort`: first dimensions are compared, and then letters; LatticeMatcher.cpp:87-88. -/
def pairLe (a b : Nat × Char) : Bool := decide (a.1 < b.1) || (decide (a.1 = b.1) && decide (a.2.toNat ≤ b.2.toNat))

/-- `optimizeAxisOrder`; LatticeMatcher.cpp:84-91. -/
def axisOrder (d : Vec3 Nat) : List Char := ([(d.x, 'x'), (d.y, 'y'), (d.z, 'z')].mergeSort pairLe).map Prod.snd |>.reverse

/-- Populators; LatticeMatcher.cpp:82-109, 373-404, 506-511. `random` has what its shuffle does. -/
inductive Fill where
  | full
  | auto (n : Nat)
  | serial (n : Nat) (axes : List Char)
  | random (n : Nat) (shuffle : List Nat → List Nat)

/-- What the matcher lets through; LatticeMatcher.cpp:164-167, 378-382, 394-396. -/
def Fill.accepted : Fill → Bool
  | .full => true
  | .auto n => decide (0 < n)
  | .serial n axes => decide (0 < n) && (axes.all fun c => c = 'x' || c = 'y' || c = 'z') && decide axes.Nodup && decide (axes.length = 3)
  | .random n _ => decide (0 < n)

/-- `populateLattice`; LatticeMatcher.cpp:94-99, 104-108. -/
def Fill.populate (L : Lattice) : Fill → Outcome (List Shape)
  | .full => L.generate
  | .auto n => SerialPopulator.populate (axisOrder L.dims) L n
  | .serial n axes => SerialPopulator.populate axes L n
  | .random n shuffle => RandomPopulator.populate shuffle L n

/-- `createPacking`: the box and the molecules given to the packing; LatticeMatcher.cpp:70-79. Transformations are any functions which may fail. -/
def createPacking (L : Lattice) (transformations : List (Lattice → Outcome Lattice)) (f : Fill) : Outcome (Box × List Shape) := do
  let L ← transformations.foldlM (fun L t => t L) L
  let shapes ← f.populate L
  let b ← L.latticeBox
  return (b, shapes)

/-- The cell which divides a box; no number of cells is zero where it is called, so that dividing by it is multiplying by its inverse; LatticeMatcher.cpp:219-221, 249-252. -/
def divide (c : CellType) (b : Box) (n : Vec3 Nat) : Outcome UnitCell := do
  let b ← Box.ofSides ((1 / (n.x : ℝ)) • b.sides.x) ((1 / (n.y : ℝ)) • b.sides.y) ((1 / (n.z : ℝ)) • b.sides.z)
  return c.withBox b

/-- `n_cells` accepted by the matcher; LatticeMatcher.cpp:141-151. -/
def positiveCells (n : Vec3 Nat) : Bool := decide (0 < n.x) && decide (0 < n.y) && decide (0 < n.z)

/-- `lattice(cell, cell_dim, n_cells, transformations, fill_partially)`; LatticeMatcher.cpp:170-195. -/
def manual (c : CellType) (dim : DimArg) (n : Vec3 Nat) (ts : List (Lattice → Outcome Lattice)) (f : Fill) : Outcome (Box × List Shape) := do
  Outcome.require (c.accepted && dim.accepted && positiveCells n && f.accepted) "not matched"
  let cell ← c.make dim
  let L ← Lattice.create cell n
  createPacking L ts f

/-- `lattice(cell, box_dim, n_shapes, transformations)`; LatticeMatcher.cpp:197-228. -/
def automatic (fuel : Nat) (c : CellType) (dim : DimArg) (n : Nat) (ts : List (Lattice → Outcome Lattice)) : Outcome (Box × List Shape) := do
  Outcome.require (c.accepted && dim.accepted && decide (0 < n)) "not matched"
  let box ← dim.box
  let one ← c.withNumber 1
  let d ← LatticeDimensions.optimize fuel n one.molecules.length box
  let cell ← divide c box d
  let L ← Lattice.create cell d
  createPacking L ts .full

/-- `lattice(cell, n_cells, box_dim, transformations, fill_partially)`; LatticeMatcher.cpp:230-259. -/
def inBox (c : CellType) (dim : DimArg) (n : Vec3 Nat) (ts : List (Lattice → Outcome Lattice)) (f : Fill) : Outcome (Box × List Shape) := do
  Outcome.require (c.accepted && dim.accepted && positiveCells n && f.accepted) "not matched"
  let box ← dim.box
  let cell ← divide c box n
  let L ← Lattice.create cell n
  createPacking L ts f

end Arrange

end

end Rampack
