import Verif.Packing.Model
/-
Model of the division of a packing into active domains: /repo/src/core/ActiveDomain.h, ActiveDomain.cpp,
DomainDecomposition.h, DomainDecomposition.cpp.

Simplifications (besides exact reals): the numbers of domains fit in `int`; the parallel loop of `populateDomains` writes
to different elements in different iterations, so it is a sequential one here.
-/
namespace Rampack

namespace Domain

/-- `RegionBounds`; src/core/ActiveDomain.h:23-36. -/
structure Bounds where
  beg : ℝ
  fin : ℝ

/-- `ActiveDomain`: the box and the bounds; src/core/ActiveDomain.h:38-45. `none` stands for the bounds -∞, ∞ which
`getActiveDomainBounds` gives to axes which are not divided. -/
structure Active where
  box : Box
  bounds : Vec3 (Option Bounds)

/-- The test of one coordinate; src/core/ActiveDomain.cpp:12-19. -/
noncomputable def within (b : Bounds) (r : ℝ) : Bool :=
  if b.fin > b.beg then !(decide (r ≤ b.beg) || decide (r ≥ b.fin)) else !(decide (r ≤ b.beg) && decide (r ≥ b.fin))

/-- The test of one coordinate when the bounds may be infinite. -/
noncomputable def withinOpt (b : Option Bounds) (r : ℝ) : Bool :=
  match b with
  | none => true
  | some b => within b r

/-- `ActiveDomain::isInside`; src/core/ActiveDomain.cpp:9-22. -/
noncomputable def Active.isInside (a : Active) (position : Vec3 ℝ) : Bool :=
  let r := a.box.absToRel position
  withinOpt a.bounds.x r.x && withinOpt a.bounds.y r.y && withinOpt a.bounds.z r.z

/-- `std::round`: half-way cases away from zero. -/
noncomputable def cround (x : ℝ) : ℤ := if 0 ≤ x then ⌊x + 1 / 2⌋ else ⌈x - 1 / 2⌉

/-- `fitPeriodically(x, 1)`; src/core/DomainDecomposition.cpp:155-162. -/
noncomputable def fit (x : ℝ) : ℝ := if x < 0 then x + 1 else if x ≥ 1 then x - 1 else x

/-- The middle of a ghost layer: the middle of the closest grid cell; src/core/DomainDecomposition.cpp:66-69. `o` is the
relative coordinate of the origin, `d` the number of domains, `n` the number of grid cells. -/
noncomputable def realMiddle (o : ℝ) (d n idx : Nat) : ℝ :=
  let theoreticalMiddle := o + idx * (1 / (d : ℝ))
  ((cround (theoreticalMiddle * n - 1 / 2) : ℝ) + 1 / 2) / n

/-- The check against the end of the previous ghost layer (`none` is -∞); src/core/DomainDecomposition.cpp:77-78. -/
noncomputable def afterPrevious (ghostBeg : ℝ) : Option ℝ → Bool
  | none => true
  | some e => decide (ghostBeg > e)

/-- One iteration of the loop over domains of one axis; src/core/DomainDecomposition.cpp:65-83. `w` is the relative width
of the ghost layer. -/
noncomputable def boundsStep (o : ℝ) (d n : Nat) (w : ℝ) (st : List Bounds × Option ℝ) (idx : Nat) :
    Outcome (List Bounds × Option ℝ) := do
  let middle := realMiddle o d n idx
  let previous := (idx + d - 1) % d
  let ghostBeg := middle - w / 2
  let ghostEnd := middle + w / 2
  Outcome.require (afterPrevious ghostBeg st.2) "Domain of index ... on coord ... is < 0"
  let bp ← vget st.1 previous
  let l ← vset st.1 previous { bp with fin := fit ghostBeg }
  let bi ← vget l idx
  let l ← vset l idx { bi with beg := fit ghostEnd }
  return (l, some ghostEnd)

/-- The result of preparing one axis: `TooNarrowDomainException` (`none`) or the bounds of regions. -/
abbrev AxisResult := Option (List Bounds)

/-- The body of the loop over axes in `prepareDomains`; src/core/DomainDecomposition.cpp:42-84. `h` is the height of the
box, `range` and `totalRange` are those of the interaction. -/
noncomputable def prepareAxis (h o : ℝ) (d n : Nat) (range totalRange : ℝ) : Outcome AxisResult := do
  Outcome.require (decide (o ≥ 0) && decide (o < 1)) "Expects(originRel[coord] >= 0 && originRel[coord] < 1)"
  Outcome.require (decide (d > 0)) "Expects(this->domainDivisions[coord] > 0)"
  Outcome.require (decide (n > 0)) "Expects(neighbourGridDivisions[coord] > 0)"
  if d < 2 then return some []
  else do
    let ngCellSize := h / n
    Outcome.require (decide (ngCellSize ≥ range)) "Expects(ngCellSize >= range)"
    let wholeDomainWidthRel := 1 / (d : ℝ)
    let ghostLayerWidthRel := (totalRange - range + ngCellSize) / h
    let ngCellSizeRel := 1 / (n : ℝ)
    if wholeDomainWidthRel - ghostLayerWidthRel ≤ ngCellSizeRel then return none
    else do
      let (l, _) ← (List.range d).foldlM (boundsStep o d n ghostLayerWidthRel) (List.replicate d ⟨0, 0⟩, none)
      return some l

/-- `DomainDecomposition`; src/core/DomainDecomposition.h:49-55. -/
structure Decomposition where
  box : Box
  divs : Vec3 Nat
  bounds : Vec3 (List Bounds)
  regions : List (List Nat)

/-- `coordToIdx`; src/core/DomainDecomposition.cpp:119-126. -/
def Decomposition.coordToIdx (D : Decomposition) (c : Vec3 Nat) : Outcome Nat := do
  Outcome.require (decide (c.x < D.divs.x)) "Expects(coords[i] < this->domainDivisions[i])"
  let idx := D.divs.x * 0 + c.x
  Outcome.require (decide (c.y < D.divs.y)) "Expects(coords[i] < this->domainDivisions[i])"
  let idx := D.divs.y * idx + c.y
  Outcome.require (decide (c.z < D.divs.z)) "Expects(coords[i] < this->domainDivisions[i])"
  let idx := D.divs.z * idx + c.z
  return idx

/-- The test of one axis in `isRelativeVectorInActiveRegion`; src/core/DomainDecomposition.cpp:132-145. -/
noncomputable def axisActive (d : Nat) (l : List Bounds) (c : Nat) (r : ℝ) : Outcome Bool := do
  Outcome.require (decide (c < d)) "Expects(coords[i] < this->domainDivisions[i])"
  if d < 2 then return true
  else do
    let b ← vget l c
    return if b.beg < b.fin then !(decide (r ≤ b.beg) || decide (r ≥ b.fin)) else !(decide (r ≤ b.beg) && decide (r ≥ b.fin))

/-- `isRelativeVectorInActiveRegion`; src/core/DomainDecomposition.cpp:128-147 (with an early exit). -/
noncomputable def Decomposition.isRelActive (D : Decomposition) (r : Vec3 ℝ) (c : Vec3 Nat) : Outcome Bool := do
  let x ← axisActive D.divs.x D.bounds.x c.x r.x
  if !x then return false
  else do
    let y ← axisActive D.divs.y D.bounds.y c.y r.y
    if !y then return false
    else axisActive D.divs.z D.bounds.z c.z r.z

/-- The bounds of one axis in `getActiveDomainBounds`; src/core/DomainDecomposition.cpp:166-175. -/
noncomputable def axisBounds (d : Nat) (l : List Bounds) (c : Nat) : Outcome (Option Bounds) := do
  Outcome.require (decide (c < d)) "Expects(coords[i] < this->domainDivisions[i])"
  if d < 2 then return none
  else do
    let b ← vget l c
    return some b

/-- `getActiveDomainBounds`; src/core/DomainDecomposition.cpp:164-177. -/
noncomputable def Decomposition.getActiveDomainBounds (D : Decomposition) (c : Vec3 Nat) : Outcome Active := do
  let x ← axisBounds D.divs.x D.bounds.x c.x
  let y ← axisBounds D.divs.y D.bounds.y c.y
  let z ← axisBounds D.divs.z D.bounds.z c.z
  return ⟨D.box, ⟨x, y, z⟩⟩

/-- `getParticlesInRegion`; src/core/DomainDecomposition.h:84-86. -/
def Decomposition.getParticlesInRegion (D : Decomposition) (c : Vec3 Nat) : Outcome (List Nat) := do
  let i ← D.coordToIdx c
  vget D.regions i

/-- The domain coordinate of a position; src/core/DomainDecomposition.cpp:104-105: an `int` is added to a `std::size_t`
(modulo 2^64). -/
noncomputable def domainCoord (r o : ℝ) (d : Nat) : Nat :=
  let coord : ℤ := ⌊(r - o) * d⌋
  ((coord + d) % (2 : ℤ) ^ 64).toNat % d

/-- The body of the first loop of `populateDomains`; `none` is `GHOST_PARTICLE`;
src/core/DomainDecomposition.cpp:100-111. -/
noncomputable def Decomposition.particleRegion (D : Decomposition) (o : Vec3 ℝ) (pos : Vec3 ℝ) : Outcome (Option Nat) := do
  let r := D.box.absToRel pos
  let c : Vec3 Nat := ⟨domainCoord r.x o.x D.divs.x, domainCoord r.y o.y D.divs.y, domainCoord r.z o.z D.divs.z⟩
  let active ← D.isRelActive r c
  if active then do
    let i ← D.coordToIdx c
    return some i
  else return none

/-- `if (particleDomainIdx[particleIdx] != GHOST_PARTICLE) particlesInRegions[...].push_back(particleIdx);`
src/core/DomainDecomposition.cpp:115-116. -/
def pushRegion (regions : List (List Nat)) (p : Nat × Option Nat) : Outcome (List (List Nat)) :=
  match p.2 with
  | none => .ok regions
  | some r => do
    let l ← vget regions r
    vset regions r (l ++ [p.1])

/-- `populateDomains`; src/core/DomainDecomposition.cpp:87-117. -/
noncomputable def Decomposition.populate (D : Decomposition) (P : Packing) (origin : Vec3 ℝ) : Outcome Decomposition := do
  let numDomains := D.divs.x * D.divs.y * D.divs.z
  let o := D.box.absToRel origin
  let idx ← (List.range P.size).mapM fun i => do
    let s ← vget P.shapes i
    let r ← D.particleRegion o s.pos
    return (i, r)
  let regions ← idx.foldlM pushRegion (List.replicate numDomains [])
  return { D with regions := regions }

/-- The result of the constructor: `TooNarrowDomainException` with the number of the axis, or the decomposition. -/
inductive Result where
  | tooNarrow (coord : Fin 3)
  | ok (D : Decomposition)

/-- `populateDomains` called by the constructor. -/
noncomputable def Decomposition.finish (D : Decomposition) (P : Packing) (origin : Vec3 ℝ) : Outcome Result := do
  let D ← D.populate P origin
  return .ok D

/-- `getTotalRangeRadius`; src/core/Interaction.cpp:55-70. -/
noncomputable def getTotalRangeRadius (centres : List (Vec3 ℝ)) (range : ℝ) : ℝ :=
  if centres = [] then range
  else 2 * Real.sqrt (centres.foldl (fun maxRadius2 c => if c.norm2 > maxRadius2 then c.norm2 else maxRadius2) 0) + range

/-- The constructor `DomainDecomposition(packing, interaction, domainDivisions, neighbourGridDivisions, origin)`;
src/core/DomainDecomposition.cpp:23-34 and 36-85. -/
noncomputable def decompose (P : Packing) (I : Interaction) (divs grid : Vec3 Nat) (origin : Vec3 ℝ) : Outcome Result := do
  let h := P.box.heights
  let o := P.box.absToRel origin
  let x ← prepareAxis h.x o.x divs.x grid.x I.range I.totalRange
  match x with
  | none => return .tooNarrow 0
  | some bx => do
    let y ← prepareAxis h.y o.y divs.y grid.y I.range I.totalRange
    match y with
    | none => return .tooNarrow 1
    | some by' => do
      let z ← prepareAxis h.z o.z divs.z grid.z I.range I.totalRange
      match z with
      | none => return .tooNarrow 2
      | some bz => Decomposition.finish ⟨P.box, divs, ⟨bx, by', bz⟩, []⟩ P origin

end Domain

end Rampack
