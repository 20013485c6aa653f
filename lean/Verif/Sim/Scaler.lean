import Verif.Sim.Random
import Verif.Box.Model
import Mathlib.Analysis.SpecialFunctions.Pow.Real
/-
Model of box scalers: /repo/src/core/TriclinicBoxScaler.{h,cpp}, /repo/src/core/VolumeScaler.h,
/repo/src/core/volume_scalers/*.
-/
namespace Rampack

/-- `std::cbrt`. -/
noncomputable def cbrt (x : ℝ) : ℝ := if 0 ≤ x then x ^ (1 / 3 : ℝ) else -((-x) ^ (1 / 3 : ℝ))

/-- `AnisotropicVolumeScaler::ScalingDirection`: alternatives, each of them a set of axes;
src/core/volume_scalers/AnisotropicVolumeScaler.h:40-59. -/
abbrev Directions := List (Vec3 Bool)

namespace Directions

/-- The constants `X`, `Y`, `Z`; AnisotropicVolumeScaler.cpp:13-15. -/
def X : Directions := [⟨true, false, false⟩]
/-- See `X`. -/
def Y : Directions := [⟨false, true, false⟩]
/-- See `X`. -/
def Z : Directions := [⟨false, false, true⟩]

/-- `operator|`; AnisotropicVolumeScaler.cpp:35-43. -/
def or (a b : Directions) : Directions := b.foldl (fun r d => if d ∈ r then r else r ++ [d]) a

/-- `operator&`; AnisotropicVolumeScaler.cpp:45-74. -/
def and (a b : Directions) : Outcome Directions :=
  if a = [] ∧ b.length = 1 then .ok b
  else if b = [] ∧ a.length = 1 then .ok a
  else do
    Outcome.require (decide (a.length = 1)) "Expects(sd1.size() == 1)"
    Outcome.require (decide (b.length = 1)) "Expects(sd2.size() == 1)"
    let d ← vget a 0
    let e ← vget b 0
    return [⟨d.x || e.x, d.y || e.y, d.z || e.z⟩]

end Directions

/-- `ScalingFactorSampler` and its two subclasses; src/core/volume_scalers/ScalingFactorSampler.h. -/
inductive FactorSampler where
  | linear
  | log

/-- The factor of one axis in `LinearScalingFactorSampler::sampleFactors`; LinearScalingFactorSampler.cpp:16-21. -/
noncomputable def linearFactor (should : Bool) (height step : ℝ) : Outcome ℝ :=
  if should then do
    Outcome.require (decide ((height + step) / height > 0)) "Ensures(scalingFactors[i] > 0)"
    return (height + step) / height
  else .ok 1

/-- `sampleFactors`; LinearScalingFactorSampler.cpp:9-23, LogScalingFactorSampler.cpp:8-19. -/
noncomputable def FactorSampler.sample (should : Vec3 Bool) (heights : Vec3 ℝ) (step : ℝ) (t : Tape) :
    FactorSampler → Outcome (Vec3 ℝ × Tape)
  | .linear => do
    let s := uniformReal (-step) step (t 0)
    let x ← linearFactor should.x heights.x s
    let y ← linearFactor should.y heights.y s
    let z ← linearFactor should.z heights.z s
    return (⟨x, y, z⟩, t.drop 1)
  | .log =>
    let f := Real.exp (uniformReal (-step) step (t 0))
    .ok (⟨if should.x then f else 1, if should.y then f else 1, if should.z then f else 1⟩, t.drop 1)

/-- `VolumeScaler` and its two subclasses; src/core/VolumeScaler.h, DeltaVolumeScaler.h, AnisotropicVolumeScaler.h:62-64. -/
inductive VolumeScaler where
  | delta
  | anisotropic (sampler : FactorSampler) (dirs : Directions) (independent : Bool)

/-- The constructor of `AnisotropicVolumeScaler`; AnisotropicVolumeScaler.cpp:76-82. -/
def VolumeScaler.mkAnisotropic (sampler : FactorSampler) (dirs : Directions) (independent : Bool) : Outcome VolumeScaler := do
  Outcome.require (!dirs.isEmpty) "Expects(!scalingDirection.empty())"
  return .anisotropic sampler dirs independent

/-- The factors of the alternatives multiplied; AnisotropicVolumeScaler.cpp:26-31. -/
noncomputable def sampleAllFactors (sampler : FactorSampler) (heights : Vec3 ℝ) (step : ℝ) :
    Directions → Vec3 ℝ → Tape → Outcome (Vec3 ℝ × Tape)
  | [], f, t => .ok (f, t)
  | d :: dirs, f, t => do
    let (g, t) ← sampler.sample d heights step t
    sampleAllFactors sampler heights step dirs ⟨f.x * g.x, f.y * g.y, f.z * g.z⟩ t

/-- `sampleScalingFactors`; DeltaVolumeScaler.cpp:10-19, AnisotropicVolumeScaler.cpp:18-33. -/
noncomputable def VolumeScaler.sample (heights : Vec3 ℝ) (step : ℝ) (t : Tape) : VolumeScaler → Outcome (Vec3 ℝ × Tape)
  | .delta =>
    let deltaV := (2 * t 0 - 1) * step
    let currentV := heights.x * heights.y * heights.z
    let f := cbrt ((deltaV + currentV) / currentV)
    .ok (⟨f, f, f⟩, t.drop 1)
  | .anisotropic sampler dirs independent =>
    if independent && decide (dirs.length > 1) then do
      let (k, t) ← uniformInt dirs.length t
      let d ← vget dirs k
      sampler.sample d heights step t
    else sampleAllFactors sampler heights step dirs ⟨1, 1, 1⟩ t

/-- The two subclasses of `TriclinicBoxScaler`; src/core/volume_scalers/TriclinicAdapter.h, TriclinicDeltaScaler.h. -/
inductive ScalerKind where
  | adapter (v : VolumeScaler)
  | triclinicDelta (scaleTogether : Bool)

/-- `TriclinicBoxScaler` with its step size; src/core/TriclinicBoxScaler.h:15-18. -/
structure Scaler where
  kind : ScalerKind
  step : ℝ

namespace Scaler

/-- The constructor; TriclinicBoxScaler.cpp:9-11. -/
noncomputable def make (kind : ScalerKind) (step : ℝ) : Outcome Scaler := do
  Outcome.require (decide (step > 0)) "Expects(stepSize > 0)"
  return ⟨kind, step⟩

/-- `increaseStepSize`; TriclinicBoxScaler.cpp:13-16. -/
noncomputable def increase (s : Scaler) : Scaler := { s with step := s.step * (11 / 10) }

/-- `decreaseStepSize`; TriclinicBoxScaler.cpp:18-21. -/
noncomputable def decrease (s : Scaler) : Scaler := { s with step := s.step / (11 / 10) }

/-- `setStepSize`; TriclinicBoxScaler.cpp:23-26. -/
noncomputable def setStepSize (s : Scaler) (step : ℝ) : Outcome Scaler := do
  Outcome.require (decide (step > 0)) "Expects(stepSize_ > 0)"
  return { s with step := step }

/-- The sides multiplied by the factors; TriclinicAdapter.h:30-32. -/
noncomputable def scaleSides (b : Box) (f : Vec3 ℝ) : Outcome Box :=
  let s := b.sides
  Box.ofSides (f.x • s.x) (f.y • s.y) (f.z • s.z)

/-- The matrix of the sides with a step added to all elements; TriclinicDeltaScaler.cpp:13-15. -/
noncomputable def addAll (M : Mat3) (d : Nat → ℝ) : Mat3 :=
  ⟨⟨M.r0.x + d 0, M.r0.y + d 1, M.r0.z + d 2⟩, ⟨M.r1.x + d 3, M.r1.y + d 4, M.r1.z + d 5⟩,
    ⟨M.r2.x + d 6, M.r2.y + d 7, M.r2.z + d 8⟩⟩

/-- The matrix of the sides with a step added to the elements of one side; TriclinicDeltaScaler.cpp:20-21. An index from 0 to 2
is drawn, so `Vec3` has such a component. -/
noncomputable def addSide (M : Mat3) (side : Nat) (d : Nat → ℝ) : Outcome Mat3 :=
  match side with
  | 0 => .ok ⟨{ M.r0 with x := M.r0.x + d 0 }, { M.r1 with x := M.r1.x + d 1 }, { M.r2 with x := M.r2.x + d 2 }⟩
  | 1 => .ok ⟨{ M.r0 with y := M.r0.y + d 0 }, { M.r1 with y := M.r1.y + d 1 }, { M.r2 with y := M.r2.y + d 2 }⟩
  | 2 => .ok ⟨{ M.r0 with z := M.r0.z + d 0 }, { M.r1 with z := M.r1.z + d 1 }, { M.r2 with z := M.r2.z + d 2 }⟩
  | _ => .ub

/-- `updateBox`: the new box and the engine afterwards; TriclinicAdapter.h:27-33, TriclinicDeltaScaler.cpp:7-25. -/
noncomputable def updateBox (s : Scaler) (b : Box) (t : Tape) : Outcome (Box × Tape) :=
  match s.kind with
  | .adapter v => do
    let (f, t) ← v.sample b.heights s.step t
    let b ← scaleSides b f
    return (b, t)
  | .triclinicDelta true => do
    let b ← Box.make (addAll b.dims fun n => uniformReal (-s.step) s.step (t n))
    return (b, t.drop 9)
  | .triclinicDelta false => do
    let (side, t) ← uniformInt 3 t
    let M ← addSide b.dims side fun n => uniformReal (-s.step) s.step (t n)
    let b ← Box.make M
    return (b, t.drop 3)

end Scaler

end Rampack
