import Verif.Box.Model
/-
Model of the neighbour grid: /repo/src/core/NeighbourGrid.h, NeighbourGrid.cpp.
-/
namespace Rampack

/-- Values of `std::size_t` wrap modulo this number. -/
abbrev SIZE : Nat := 2 ^ 64

/-- Subtraction of `std::size_t` values. -/
def subWrap (a b : Nat) : Nat := (a + (SIZE - b % SIZE)) % SIZE

/-- Addition of `std::size_t` values. -/
def addWrap (a b : Nat) : Nat := (a + b) % SIZE

/-- `LIST_END = std::numeric_limits<std::size_t>::max()`; src/core/NeighbourGrid.h:30. -/
abbrev LIST_END : Nat := SIZE - 1

namespace Grid

/-- `cellNoToCoordinates`; src/core/NeighbourGrid.cpp:36-43. -/
def cellNoToCoordinates (d : Vec3 Nat) (cellNo : Nat) : Vec3 Nat :=
  ⟨cellNo % d.x, cellNo / d.x % d.y, cellNo / d.x / d.y % d.z⟩

/-- `coordinatesToCellNo`; src/core/NeighbourGrid.cpp:45-50 (the loop over i = 2, 1, 0 unrolled). -/
def coordinatesToCellNo (d : Vec3 Nat) (c : Vec3 Nat) : Nat :=
  let r2 := d.z * 0 + c.z
  let r1 := d.y * r2 + c.y
  d.x * r1 + c.x

/-- `realCoordinatesToCellNo`; src/core/NeighbourGrid.cpp:52-57. -/
def realCoordinatesToCellNo (d : Vec3 Nat) (c : Vec3 Nat) : Nat :=
  let r2 := d.z * 0 + c.z + 1
  let r1 := d.y * r2 + c.y + 1
  d.x * r1 + c.x + 1

/-- `cellNeighbourToCellNo`; src/core/NeighbourGrid.cpp:59-70. The neighbour components are 0, 1, 2. -/
def cellNeighbourToCellNo (d : Vec3 Nat) (coords neighbour : Vec3 Nat) : Outcome Nat := do
  let iz := subWrap (addWrap coords.z neighbour.z) 1
  Outcome.require (iz < d.z) "Assert(ix < this->cellDivisions[i])"
  let r2 := d.z * 0 + iz
  let iy := subWrap (addWrap coords.y neighbour.y) 1
  Outcome.require (iy < d.y) "Assert(ix < this->cellDivisions[i])"
  let r1 := d.y * r2 + iy
  let ix := subWrap (addWrap coords.x neighbour.x) 1
  Outcome.require (ix < d.x) "Assert(ix < this->cellDivisions[i])"
  return d.x * r1 + ix

/-- `isCellReflected`; src/core/NeighbourGrid.cpp:72-78. -/
def isCellReflected (d : Vec3 Nat) (cellNo : Nat) : Bool :=
  let c := cellNoToCoordinates d cellNo
  (c.x == 0 || c.x == d.x - 1) || (c.y == 0 || c.y == d.y - 1) || (c.z == 0 || c.z == d.z - 1)

/-- `flattenTranslationIndex`; src/core/NeighbourGrid.h:47. -/
def flattenTranslationIndex (i j k : Nat) : Nat := i * 3 * 3 + j * 3 + k

/-- The body of the loop of `getReflectedCellData` for one coordinate: the coordinate of the real cell and the
translation coordinate; src/core/NeighbourGrid.cpp:87-96. -/
def reflectCoord (d coord : Nat) : Nat × Nat :=
  if coord = 0 then (d - 2, 0)
  else if coord = d - 1 then (1, 2)
  else (coord, 1)

/-- `getReflectedCellData`; src/core/NeighbourGrid.cpp:80-100. -/
def getReflectedCellData (d : Vec3 Nat) (cellNo : Nat) : Nat × Nat :=
  if ¬ isCellReflected d cellNo then (cellNo, flattenTranslationIndex 1 1 1)
  else
    let c := cellNoToCoordinates d cellNo
    let rx := reflectCoord d.x c.x
    let ry := reflectCoord d.y c.y
    let rz := reflectCoord d.z c.z
    (coordinatesToCellNo d ⟨rx.1, ry.1, rz.1⟩, flattenTranslationIndex rx.2 ry.2 rz.2)

/-- `increment`; src/core/NeighbourGrid.cpp:102-111 (the loop over i unrolled): returns the new array and whether to
go on. -/
def increment (v : Vec3 Nat) : Vec3 Nat × Bool :=
  let x := v.x + 1
  if x > 2 then
    let y := v.y + 1
    if y > 2 then
      let z := v.z + 1
      (⟨0, 0, z⟩, z ≤ 2)
    else (⟨0, y, v.z⟩, v.z ≤ 2)
  else (⟨x, v.y, v.z⟩, v.z ≤ 2)

/-- Removal of adjacent duplicates: `std::unique` + `erase`; src/core/NeighbourGrid.cpp:136-142. -/
def uniqueAdj : List Nat → List Nat
  | [] => []
  | [a] => [a]
  | a :: b :: l => if a = b then uniqueAdj (b :: l) else a :: uniqueAdj (b :: l)

/-- The do-while loop of `fillNeighbouringCellsOffsets` collecting the offsets; src/core/NeighbourGrid.cpp:127-132. -/
def offsetsLoop (d test : Vec3 Nat) (testNo : Nat) : Nat → Vec3 Nat → List Nat × List Nat → Outcome (List Nat × List Nat)
  | 0, _, _ => .diverge
  | fuel + 1, nb, (offs, pos) => do
    let no ← cellNeighbourToCellNo d test nb
    let off := subWrap no testNo
    let offs := offs ++ [off]
    let pos := if 9 * nb.x + 3 * nb.y + nb.z > 13 then pos ++ [off] else pos
    let (nb', go) := increment nb
    if go then offsetsLoop d test testNo fuel nb' (offs, pos) else return (offs, pos)

/-- `fillNeighbouringCellsOffsets`: all and positive offsets; src/core/NeighbourGrid.cpp:113-143. The fuel 28 is more
than the 27 iterations the loop makes (`Grid.offsetsLoop_eq`). -/
def fillNeighbouringCellsOffsets (d : Vec3 Nat) : Outcome (List Nat × List Nat) := do
  let test : Vec3 Nat := ⟨d.x / 2, d.y / 2, d.z / 2⟩
  let testNo := coordinatesToCellNo d test
  let (offs, pos) ← offsetsLoop d test testNo 28 ⟨0, 0, 0⟩ ([], [])
  return (uniqueAdj (offs.mergeSort (· ≤ ·)), uniqueAdj (pos.mergeSort (· ≤ ·)))

/-- Tolerance of `positionToCellNo`: ten machine epsilons; src/core/NeighbourGrid.cpp:19. -/
noncomputable def EPSILON : ℝ := 10 / 2 ^ 52

/-- One coordinate in `positionToCellNo`, `d` is the number of divisions including the two reflected ones;
src/core/NeighbourGrid.cpp:20-30. `static_cast<int>` of a non-negative number is its floor. -/
noncomputable def positionCoord (rel : ℝ) (d : Nat) : Outcome Nat := do
  let rel' ←
    if rel < 0 then
      if rel > -EPSILON then Outcome.ok 0 else Outcome.throw "Expects(relativePosI > -EPSILON)"
    else if rel ≥ 1 then
      if rel < 1 + EPSILON then Outcome.ok (1 - EPSILON) else Outcome.throw "Expects(relativePosI < 1 + EPSILON)"
    else Outcome.ok rel
  return ⌊rel' / (1 / ((d - 2 : Nat) : ℝ))⌋.toNat + 1

/-- `positionToCellNo`; src/core/NeighbourGrid.cpp:13-34. -/
noncomputable def positionToCellNo (b : Box) (d : Vec3 Nat) (position : Vec3 ℝ) : Outcome Nat := do
  let rel := b.absToRel position
  let cz ← positionCoord rel.z d.z
  let r2 := d.z * 0 + cz
  let cy ← positionCoord rel.y d.y
  let r1 := d.y * r2 + cy
  let cx ← positionCoord rel.x d.x
  return d.x * r1 + cx

/-- `calculateTranslations`: the 27 translation vectors in the order of `flattenTranslationIndex`;
src/core/NeighbourGrid.cpp:203-217. -/
noncomputable def translations (b : Box) : List (Vec3 ℝ) :=
  (List.range 3).flatMap fun i => (List.range 3).flatMap fun j => (List.range 3).map fun k =>
    b.relToAbs ⟨(i : ℝ) - 1, (j : ℝ) - 1, (k : ℝ) - 1⟩

/-- The divisions and checks of `setupSizes`; src/core/NeighbourGrid.cpp:178-201. -/
noncomputable def setupSizes (b : Box) (cellSize : ℝ) : Outcome (Vec3 Nat) :=
  if ¬ b.volume > 0 then .throw "Expects(newBox.getVolume() > 0)"
  else if ¬ cellSize > 0 then .throw "Expects(newCellSize > 0)"
  else
    let h := b.heights
    let d : Vec3 Nat := ⟨⌊h.x / cellSize⌋.toNat + 2, ⌊h.y / cellSize⌋.toNat + 2, ⌊h.z / cellSize⌋.toNat + 2⟩
    if d.x ≥ 3 ∧ d.y ≥ 3 ∧ d.z ≥ 3 then .ok d else .throw "Neighbour grid cell too big"

/-- `std::vector::resize` with value initialisation by `v`. -/
def vresize {α : Type} (xs : List α) (n : Nat) (v : α) : List α := xs.take n ++ List.replicate (n - xs.length) v

/-- The state of `NeighbourGrid`; src/core/NeighbourGrid.h:32-44. `relativeCellSize` (1/(divisions-2)) and
`translations` are functions of the box and the divisions; the debugging-only `cellOwningThreads` are omitted. -/
structure NG where
  box : Box
  divs : Vec3 Nat
  numCells : Nat
  heads : List Nat
  succ : List Nat
  reflected : List Nat
  transIdx : List Nat
  offs : List Nat
  posOffs : List Nat

/-- `NeighbourGrid(box, cellSize, numParticles)`; src/core/NeighbourGrid.cpp:145-165. -/
noncomputable def NG.create (b : Box) (cellSize : ℝ) (numParticles : Nat) : Outcome NG := do
  let d ← setupSizes b cellSize
  let n := d.x * d.y * d.z
  let (offs, pos) ← fillNeighbouringCellsOffsets d
  return {
    box := b, divs := d, numCells := n
    heads := List.replicate n LIST_END
    succ := List.replicate numParticles LIST_END
    reflected := (List.range n).map fun i => (getReflectedCellData d i).1
    transIdx := (List.range n).map fun i => (getReflectedCellData d i).2
    offs := offs, posOffs := pos }

/-- `add(idx, cellNo)`; src/core/NeighbourGrid.cpp:229-236. -/
def NG.addAt (g : NG) (idx cellNo : Nat) : Outcome NG := do
  let h ← vget g.heads cellNo
  let succ ← vset g.succ idx h
  let heads ← vset g.heads cellNo idx
  return { g with succ := succ, heads := heads }

/-- `add(idx, position)`; src/core/NeighbourGrid.cpp:219-227. -/
noncomputable def NG.add (g : NG) (idx : Nat) (position : Vec3 ℝ) : Outcome NG := do
  let i ← positionToCellNo g.box g.divs position
  g.addAt idx i

/-- The while loop of `remove`; src/core/NeighbourGrid.cpp:249-256. -/
def removeLoop (idx : Nat) : Nat → List Nat → Nat → Outcome (List Nat)
  | 0, _, _ => .diverge
  | fuel + 1, succ, head =>
    if head ≠ LIST_END then do
      let s ← vget succ head
      if s = idx then do
        let si ← vget succ idx
        let succ' ← vset succ head si
        vset succ' idx LIST_END
      else removeLoop idx fuel succ s
    else .ok succ

/-- `remove` from the cell with number `i`; src/core/NeighbourGrid.cpp:244-257. -/
def NG.removeAt (g : NG) (idx i : Nat) : Outcome NG := do
  let head ← vget g.heads i
  if head = idx then do
    let s ← vget g.succ idx
    let heads ← vset g.heads i s
    let succ ← vset g.succ idx LIST_END
    return { g with heads := heads, succ := succ }
  else do
    let succ ← removeLoop idx (g.succ.length + 2) g.succ head
    return { g with succ := succ }

/-- `remove(idx, position)`; src/core/NeighbourGrid.cpp:238-258. -/
noncomputable def NG.remove (g : NG) (idx : Nat) (position : Vec3 ℝ) : Outcome NG := do
  let i ← positionToCellNo g.box g.divs position
  g.removeAt idx i

/-- `clear`; src/core/NeighbourGrid.cpp:260-264. -/
def NG.clear (g : NG) : NG :=
  { g with heads := g.heads.map fun _ => LIST_END, succ := g.succ.map fun _ => LIST_END }

/-- `resize(newBox, newCellSize)`; src/core/NeighbourGrid.cpp:312-340. -/
noncomputable def NG.resize (g : NG) (b : Box) (cellSize : ℝ) : Outcome (NG × Bool) := do
  let d ← setupSizes b cellSize
  let n := d.x * d.y * d.z
  let g1 := { g with box := b, divs := d, numCells := n }
  if d = g.divs then
    return (g1.clear, false)
  else do
    let grow := decide (g.numCells < n)
    let heads := if grow then vresize g.heads n 0 else g.heads
    let refl := if grow then vresize g.reflected n 0 else g.reflected
    let tr := if grow then vresize g.transIdx n 0 else g.transIdx
    -- for (i = 0; i < numCells; i++) std::tie(reflectedCells[i], translationIndices[i]) = getReflectedCellData(i);
    if refl.length < n ∨ tr.length < n then Outcome.ub
    else do
      let refl := ((List.range n).map fun i => (getReflectedCellData d i).1) ++ refl.drop n
      let tr := ((List.range n).map fun i => (getReflectedCellData d i).2) ++ tr.drop n
      let (offs, pos) ← fillNeighbouringCellsOffsets d
      return (({ g1 with heads := heads, reflected := refl, transIdx := tr, offs := offs, posOffs := pos } : NG).clear,
        true)

/-- Iteration over a cell's linked list (`CellViewIterator`, src/core/NeighbourGrid.h:84-127, and the loop of
`getCellVector`, src/core/NeighbourGrid.cpp:304-307). -/
def traverse (succ : List Nat) : Nat → Nat → Outcome (List Nat)
  | 0, _ => .diverge
  | fuel + 1, head =>
    if head ≠ LIST_END then do
      let s ← vget succ head
      let rest ← traverse succ fuel s
      return head :: rest
    else .ok []

/-- The list of objects reached from a head. -/
def NG.listFrom (g : NG) (head : Nat) : Outcome (List Nat) := traverse g.succ (g.succ.length + 2) head

/-- `getCell(coord)`; src/core/NeighbourGrid.cpp:272-279. -/
def NG.getCell (g : NG) (coord : Vec3 Nat) : Outcome (List Nat) := do
  Outcome.require (coord.x < g.divs.x - 2) "Expects(coord[i] < this->cellDivisions[i] - 2)"
  Outcome.require (coord.y < g.divs.y - 2) "Expects(coord[i] < this->cellDivisions[i] - 2)"
  Outcome.require (coord.z < g.divs.z - 2) "Expects(coord[i] < this->cellDivisions[i] - 2)"
  let head ← vget g.heads (realCoordinatesToCellNo g.divs coord)
  g.listFrom head

/-- `getCell(position)`; src/core/NeighbourGrid.cpp:266-270. -/
noncomputable def NG.getCellPos (g : NG) (position : Vec3 ℝ) : Outcome (List Nat) := do
  let i ← positionToCellNo g.box g.divs position
  let head ← vget g.heads i
  g.listFrom head

/-- `getCellDivisions`; src/core/NeighbourGrid.cpp:372-374. -/
def NG.getCellDivisions (g : NG) : Vec3 Nat := ⟨g.divs.x - 2, g.divs.y - 2, g.divs.z - 2⟩

/-- Dereferencing the neighbours view at one offset: the translation and the objects of the (real) cell behind it;
src/core/NeighbourGrid.h:192-198. -/
noncomputable def NG.derefOffset (g : NG) (cellNo off : Nat) : Outcome (Vec3 ℝ × List Nat) := do
  let n := addWrap cellNo off
  let ti ← vget g.transIdx n
  let rc ← vget g.reflected n
  let head ← vget g.heads rc
  let tr ← vget (translations g.box) ti
  let ids ← g.listFrom head
  return (tr, ids)

/-- A full pass over a `NeighboursView` of the cell `cellNo`; src/core/NeighbourGrid.h:204-223,
src/core/NeighbourGrid.cpp:353-370. -/
noncomputable def NG.neighboursOf (g : NG) (cellNo : Nat) (onlyPositive : Bool) : Outcome (List (Vec3 ℝ × List Nat)) :=
  (if onlyPositive then g.posOffs else g.offs).mapM (g.derefOffset cellNo)

/-- `getNeighbouringCells(position, onlyPositive)`; src/core/NeighbourGrid.cpp:353-358. -/
noncomputable def NG.getNeighbouringCellsPos (g : NG) (position : Vec3 ℝ) (onlyPositive : Bool) :
    Outcome (List (Vec3 ℝ × List Nat)) := do
  let i ← positionToCellNo g.box g.divs position
  g.neighboursOf i onlyPositive

/-- `getNeighbouringCells(coord, onlyPositive)`; src/core/NeighbourGrid.cpp:360-370. -/
noncomputable def NG.getNeighbouringCells (g : NG) (coord : Vec3 Nat) (onlyPositive : Bool) :
    Outcome (List (Vec3 ℝ × List Nat)) := do
  Outcome.require (coord.x < g.divs.x - 2) "Expects(coord[i] < this->cellDivisions[i] - 2)"
  Outcome.require (coord.y < g.divs.y - 2) "Expects(coord[i] < this->cellDivisions[i] - 2)"
  Outcome.require (coord.z < g.divs.z - 2) "Expects(coord[i] < this->cellDivisions[i] - 2)"
  g.neighboursOf (realCoordinatesToCellNo g.divs coord) onlyPositive

/-- `getNeighbours(position)`; src/core/NeighbourGrid.cpp:281-297 (without the capacity pre-count). -/
noncomputable def NG.getNeighbours (g : NG) (position : Vec3 ℝ) : Outcome (List Nat) := do
  let cellNo ← positionToCellNo g.box g.divs position
  let lists ← g.offs.mapM fun off => do
    let rc ← vget g.reflected (addWrap cellNo off)
    let head ← vget g.heads rc
    g.listFrom head
  return lists.flatten

end Grid

end Rampack
