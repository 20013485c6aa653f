import Verif.Packing.Model
/-
Observables made of single numbers: /repo/src/core/observables/{NumberDensity,BoxDimensions,PackingFraction,CompressibilityFactor,EnergyPerParticle,
EnergyFluctuationsPerParticle,Temperature,Pressure}.h with what they call in /repo/src/core/Packing.cpp. Numbers are exact reals; division by zero, which gives infinity or
NaN in the program, is undefined here.
-/
namespace Rampack

noncomputable section

namespace Packing

/-- `getNumberDensity`; Packing.cpp:230-232. -/
def numberDensity (P : Packing) : ℝ := P.size / P.box.volume

/-- `getPackingFraction`; Packing.cpp:225-228. -/
def packingFraction (P : Packing) (shapeVolume : ℝ) : Outcome ℝ := do
  Outcome.require (decide (shapeVolume ≥ 0)) "Expects(shapeVolume >= 0)"
  return P.numberDensity * shapeVolume

/-- The body of the loop, with `energySum` and `energySum2`; Packing.cpp:847-851. -/
def addEnergy (P : Packing) (I : Interaction) (sums : ℝ × ℝ) (i : Nat) : Outcome (ℝ × ℝ) := do
  let energy ← P.particleEnergy I i i
  return (sums.1 + energy, sums.2 + energy * energy)

/-- `getParticleEnergyFluctuations`; Packing.cpp:841-857. -/
def energyFluctuations (P : Packing) (I : Interaction) : Outcome ℝ :=
  if ¬ I.hasSoft then .ok 0
  else do
    let sums ← (List.range P.size).foldlM (P.addEnergy I) (0, 0)
    let N : ℝ := P.size
    if P.size ≤ 1 then .ub
    else return Real.sqrt (sums.2 / (N - 1) - sums.1 ^ 2 / N / (N - 1)) / 2

end Packing

/-- Classes of observables. -/
inductive Thermo where
  | numberDensity
  | boxDimensions
  | packingFraction
  | compressibilityFactor
  | energyPerParticle
  | energyFluctuations
  | temperature
  | pressure

namespace Thermo

/-- `getIntervalHeader`; NumberDensity.h:24, BoxDimensions.h:29, PackingFraction.h:24, CompressibilityFactor.h:26, EnergyPerParticle.h:25, EnergyFluctuationsPerParticle.h:25,
Temperature.h:25, Pressure.h:25. -/
def header : Thermo → List String
  | .numberDensity => ["rho"]
  | .boxDimensions => ["L_X", "L_Y", "L_Z"]
  | .packingFraction => ["theta"]
  | .compressibilityFactor => ["Z"]
  | .energyPerParticle => ["E"]
  | .energyFluctuations => ["varE"]
  | .temperature => ["T"]
  | .pressure => ["p"]

open Classical in
/-- `calculate` and then `getIntervalValues`, for shapes of the given volume and interaction; NumberDensity.h:18-25, BoxDimensions.h:23-33, PackingFraction.h:18-25,
CompressibilityFactor.h:20-27, EnergyPerParticle.h:19-26, EnergyFluctuationsPerParticle.h:19-26, Temperature.h:20-27, Pressure.h:20-27. -/
def calculate (O : Thermo) (P : Packing) (temperature pressure : ℝ) (shapeVolume : ℝ) (I : Interaction) : Outcome (List ℝ) :=
  match O with
  | .numberDensity => .ok [P.numberDensity]
  | .boxDimensions => .ok [P.box.heights.x, P.box.heights.y, P.box.heights.z]
  | .packingFraction => do
    let f ← P.packingFraction shapeVolume
    return [f]
  | .compressibilityFactor => if temperature = 0 ∨ P.size = 0 then .ub else .ok [pressure / temperature / P.numberDensity]
  | .energyPerParticle => do
    let e ← P.totalEnergy I
    if P.size = 0 then .ub else return [e / P.size]
  | .energyFluctuations => do
    let f ← P.energyFluctuations I
    return [f]
  | .temperature => .ok [temperature]
  | .pressure => .ok [pressure]

end Thermo

end

end Rampack
