import Verif.Shapes.Whole
import Mathlib.Analysis.SpecialFunctions.Pow.Real
/-
Model of soft interactions, /repo/src/core/interactions/, and of joining two interactions, CompoundInteraction.{h,cpp}. Numbers are real.

Simplification: at the distance zero the program divides by zero, and gets NaN for Lennard-Jones potentials (difference of infinities) and infinity for the other one. Here the quotient is zero; no theorem speaks of the energy
of coinciding centres.
-/
namespace Rampack

namespace Shapes

/-- `CentralInteraction` with the energy `f` of the squared distance; CentralInteraction.h:18-71. The class has no wall part. -/
noncomputable def central (f : ℝ → ℝ) (range : ℝ) (centres : List (Vec3 ℝ)) : Interaction :=
  { hasHard := false, hasSoft := true, isConvex := false, centres := centres, range := range, totalRange := Interaction.totalRangeRadius centres range
    overlap := fun _ _ _ => false
    energy := fun s1 s2 bc => f (bc.distance2 s1.pos s2.pos)
    wall := fun _ _ _ => false }

/-- `LennardJonesInteraction::calculateEnergyForDistance2`; LennardJonesInteraction.cpp:8-13. -/
noncomputable def ljEnergy (epsilon sigma : ℝ) (distance2 : ℝ) : ℝ :=
  let x2 := sigma * sigma / distance2
  let x6 := x2 * x2 * x2
  let x12 := x6 * x6
  4 * epsilon * (x12 - x6)

/-- `LennardJonesInteraction`; LennardJonesInteraction.cpp:15-18, LennardJonesInteraction.h:25. -/
noncomputable def lennardJones (epsilon sigma : ℝ) (centres : List (Vec3 ℝ)) : Outcome Interaction := do
  Outcome.require (decide (epsilon > 0)) "epsilon > 0"
  Outcome.require (decide (sigma > 0)) "sigma > 0"
  .ok (central (ljEnergy epsilon sigma) (3 * sigma) centres)

/-- `sigmaTimesTwoToOneSixth`; RepulsiveLennardJonesInteraction.cpp:19. -/
noncomputable def wcaRange (sigma : ℝ) : ℝ := sigma * (2 : ℝ) ^ (1 / 6 : ℝ)

/-- `RepulsiveLennardJonesInteraction::calculateEnergyForDistance2`; RepulsiveLennardJonesInteraction.cpp:8-16. -/
noncomputable def wcaEnergy (epsilon sigma : ℝ) (distance2 : ℝ) : ℝ :=
  if distance2 ≥ wcaRange sigma * wcaRange sigma then 0
  else
    let x2 := sigma * sigma / distance2
    let x6 := x2 * x2 * x2
    let x12 := x6 * x6
    4 * epsilon * (x12 - x6) + epsilon

/-- `RepulsiveLennardJonesInteraction`; RepulsiveLennardJonesInteraction.cpp:18-23, RepulsiveLennardJonesInteraction.h:26. -/
noncomputable def repulsiveLennardJones (epsilon sigma : ℝ) (centres : List (Vec3 ℝ)) : Outcome Interaction := do
  Outcome.require (decide (epsilon > 0)) "epsilon > 0"
  Outcome.require (decide (sigma > 0)) "sigma > 0"
  .ok (central (wcaEnergy epsilon sigma) (wcaRange sigma) centres)

/-- `SquareInverseCoreInteraction::calculateEnergyForDistance2`; SquareInverseCoreInteraction.cpp:13-15. -/
noncomputable def squareInverseEnergy (epsilon sigma : ℝ) (distance2 : ℝ) : ℝ := epsilon * max 0 (sigma ^ 2 / distance2 - 1)

/-- `SquareInverseCoreInteraction`; SquareInverseCoreInteraction.cpp:8-11, SquareInverseCoreInteraction.h:22. -/
noncomputable def squareInverseCore (epsilon sigma : ℝ) (centres : List (Vec3 ℝ)) : Outcome Interaction := do
  Outcome.require (decide (epsilon ≠ 0)) "epsilon != 0"
  Outcome.require (decide (sigma > 0)) "sigma > 0"
  .ok (central (squareInverseEnergy epsilon sigma) sigma centres)

/-- `isThisConvex`; CompoundInteraction.cpp:24-31. -/
def compoundConvex (I1 I2 : Interaction) : Bool :=
  if I1.hasHard && I2.hasHard then false
  else if (I1.hasHard && I1.isConvex) || (I2.hasHard && I2.isConvex) then true
  else false

/-- `CompoundInteraction`; CompoundInteraction.cpp:9-77, CompoundInteraction.h:14-62. Interactions without a wall part have a wall function which is always false, so `hasWallPart` is left out. Comparing lists of centres with
`==` is comparing numbers. -/
noncomputable def compound (I1 I2 : Interaction) : Outcome Interaction := do
  Outcome.require (decide (I1.centres = I2.centres)) "centres1 == centres2"
  .ok { hasHard := I1.hasHard || I2.hasHard, hasSoft := I1.hasSoft || I2.hasSoft, isConvex := compoundConvex I1 I2, centres := I1.centres
        range := max I1.range I2.range
        totalRange := max I1.totalRange I2.totalRange
        overlap := fun s1 s2 bc => (I1.hasHard && I1.overlap s1 s2 bc) || (I2.hasHard && I2.overlap s1 s2 bc)
        energy := fun s1 s2 bc => (if I1.hasSoft then I1.energy s1 s2 bc else 0) + (if I2.hasSoft then I2.energy s1 s2 bc else 0)
        wall := fun s o v => I1.wall s o v || I2.wall s o v }

end Shapes

end Rampack
