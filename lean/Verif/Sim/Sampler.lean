import Verif.Sim.Random
import Verif.Packing.History
import Mathlib.Analysis.SpecialFunctions.Trigonometric.Basic
/-
Model of move samplers: /repo/src/core/MoveSampler.h, /repo/src/core/move_samplers/*.

Simplification: step sizes are looked up by name; here they are lists in the order of `getStepSizes`.
-/
namespace Rampack

/-- `Matrix<3, 3>::rotation(axis, angle)`: Rodrigues' formula; src/geometry/Matrix.tpp:440-450. -/
noncomputable def axisRotation (axis : Vec3 ℝ) (angle : ℝ) : Mat3 :=
  let K : Mat3 := ⟨⟨0, -axis.z, axis.y⟩, ⟨axis.z, 0, -axis.x⟩, ⟨-axis.y, axis.x, 0⟩⟩
  1 + Real.sin angle • K + ((1 - Real.cos angle) • K) * K

/-- What the samplers and the simulation use of `ShapeTraits`: the interaction and the geometry (a shape with default position
and orientation is passed to its methods); src/core/ShapeTraits.h, src/core/ShapeGeometry.h. -/
structure Traits where
  I : Interaction
  hasPrimaryAxis : Bool
  geometricOrigin : Vec3 ℝ
  flipAxis : Outcome (Vec3 ℝ)

/-- `MoveSampler::MoveData`: the molecule and the move; src/core/MoveSampler.h:40-49. -/
structure MoveData where
  idx : Nat
  kind : Packing.Kind

/-- Move samplers; src/core/move_samplers/{Rotation,Translation,Rototranslation,Flip}Sampler.h. -/
inductive Sampler where
  /-- RotationSampler.h:18 -/
  | rotation (step : ℝ)
  /-- TranslationSampler.h:19-21 -/
  | translation (step max : ℝ) (implicit : Bool)
  /-- RototranslationSampler.h:21-24 -/
  | rototranslation (step : ℝ) (rot : Option ℝ) (max : ℝ) (implicit : Bool)
  /-- FlipSampler.h:16-19 -/
  | flip (flipEvery : Nat) (axis origin : Vec3 ℝ) (originZero : Bool)

namespace Sampler

/-- The constructor `RotationSampler(rotationStepSize)`; RotationSampler.cpp:9-11. -/
noncomputable def mkRotation (step : ℝ) : Outcome Sampler := do
  Outcome.require (decide (step > 0)) "Expects(rotationStepSize > 0)"
  return .rotation step

/-- The checks shared by two constructors; TranslationSampler.cpp:14-17, RototranslationSampler.cpp:14-17. -/
noncomputable def checkTranslation (step max : ℝ) : Outcome Unit := do
  Outcome.require (decide (max ≥ 0)) "Expects(maxTranslationStepSize >= 0)"
  Outcome.require (!decide (max > 0) || decide (step ≤ max)) "Expects(translationStepSize <= maxTranslationStepSize)"
  Outcome.require (decide (step > 0)) "Expects(translationStepSize > 0)"

/-- The constructor `TranslationSampler(translationStepSize, maxTranslationStepSize)`; TranslationSampler.cpp:10-18. -/
noncomputable def mkTranslation (step max : ℝ) : Outcome Sampler := do
  checkTranslation step max
  return .translation step max (decide (max = 0))

/-- `if (rotationStepSize.has_value()) Expects(rotationStepSize > 0);` RototranslationSampler.cpp:18-19. -/
noncomputable def checkRotation : Option ℝ → Outcome Unit
  | none => .ok ()
  | some r => Outcome.require (decide (r > 0)) "Expects(rotationStepSize > 0)"

/-- The constructor `RototranslationSampler(...)`; RototranslationSampler.cpp:9-20. -/
noncomputable def mkRototranslation (step : ℝ) (rot : Option ℝ) (max : ℝ) : Outcome Sampler := do
  checkTranslation step max
  checkRotation rot
  return .rototranslation step rot max (decide (max = 0))

/-- The constructor `FlipSampler(flipEvery)`; FlipSampler.cpp:9-11. -/
noncomputable def mkFlip (flipEvery : Nat) : Outcome Sampler := do
  Outcome.require (decide (flipEvery > 0)) "Expects(flipEvery > 0)"
  return .flip flipEvery 0 0 false

/-- `getNumOfRequestedMoves`; RotationSampler.h:28, TranslationSampler.h:35, RototranslationSampler.h:39, FlipSampler.cpp:13-16. -/
def requested (n : Nat) : Sampler → Outcome Nat
  | .flip flipEvery _ _ _ => do
    Outcome.require (decide (n > flipEvery)) "Expects(numParticles > this->flipEvery)"
    return n / flipEvery
  | _ => .ok n

/-- `adjustMaxTranslationStepSize`; TranslationSampler.cpp:39-46, RototranslationSampler.cpp:78-85. -/
noncomputable def adjustMax (b : Box) (max : ℝ) (implicit : Bool) : ℝ :=
  if !implicit then max
  else
    let h := b.heights
    min h.x (min h.y h.z) / 2

/-- A random translation and the engine afterwards; TranslationSampler.cpp:29-31, RototranslationSampler.cpp:31-33. -/
noncomputable def sampleTranslation (step max : ℝ) (t : Tape) : Vec3 ℝ × Tape :=
  let s := min max step
  (⟨uniformReal (-s) s (t 0), uniformReal (-s) s (t 1), uniformReal (-s) s (t 2)⟩, t.drop 3)

/-- A random rotation and the engine afterwards; RotationSampler.cpp:21-28, RototranslationSampler.cpp:36-43. -/
noncomputable def sampleRotation (step : ℝ) (t : Tape) : Outcome (Mat3 × Tape) := do
  let (axis, t) ← sampleAxis t
  let angle := uniformReal (-step) step (t 0)
  let n ← normalize axis
  return (axisRotation n angle, t.drop 1)

/-- A random molecule and the engine afterwards; e.g. RotationSampler.cpp:30-31. -/
noncomputable def sampleParticle (idxs : List Nat) (t : Tape) : Outcome (Nat × Tape) := do
  let (k, t) ← uniformInt idxs.length t
  let i ← vget idxs k
  return (i, t)

/-- The move of `FlipSampler`; FlipSampler.cpp:26-38. -/
noncomputable def flipMove (s : Shape) (axis origin : Vec3 ℝ) (originZero : Bool) : Outcome Packing.Kind := do
  let n ← normalize (s.rot.mulVec axis)
  let R := axisRotation n Real.pi
  if originZero then return .rotation R
  else
    let o := s.rot.mulVec origin
    return .move (((-1 : ℝ) • R).mulVec o + o) R

/-- `sampleMove`: the move, the sampler and the engine afterwards; RotationSampler.cpp:13-34, TranslationSampler.cpp:20-37,
RototranslationSampler.cpp:22-49, FlipSampler.cpp:18-41. An empty `std::optional` with the rotation step is undefined
behaviour. -/
noncomputable def sampleMove (P : Packing) (idxs : List Nat) (t : Tape) : Sampler → Outcome (MoveData × Sampler × Tape)
  | .rotation step => do
    let (R, t) ← sampleRotation step t
    let (i, t) ← sampleParticle idxs t
    return (⟨i, .rotation R⟩, .rotation step, t)
  | .translation step max implicit => do
    let max := adjustMax P.box max implicit
    let (v, t) := sampleTranslation step max t
    let (i, t) ← sampleParticle idxs t
    return (⟨i, .translation v⟩, .translation step max implicit, t)
  | .rototranslation _ none _ _ => .ub
  | .rototranslation step (some rot) max implicit => do
    let max := adjustMax P.box max implicit
    let (v, t) := sampleTranslation step max t
    let (R, t) ← sampleRotation (min rot Real.pi) t
    let (i, t) ← sampleParticle idxs t
    return (⟨i, .move v R⟩, .rototranslation step (some rot) max implicit, t)
  | .flip flipEvery axis origin originZero => do
    let (i, t) ← sampleParticle idxs t
    let s ← vget P.shapes i
    let k ← flipMove s axis origin originZero
    return (⟨i, k⟩, .flip flipEvery axis origin originZero, t)

/-- The new translation step, or `none` if the increase is refused; TranslationSampler.cpp:48-54,
RototranslationSampler.cpp:87-93. -/
noncomputable def increasedTranslation (step max : ℝ) : Option ℝ :=
  if max > 0 ∧ step ≥ max then none else some (step * (11 / 10))

/-- `increaseStepSize`: the sampler afterwards and the returned value; RotationSampler.cpp:36-44, TranslationSampler.cpp:48-54,
RototranslationSampler.cpp:51-56, FlipSampler.h:35. -/
noncomputable def increase : Sampler → Outcome (Sampler × Bool)
  | .rotation step =>
    let new := if step * (11 / 10) > Real.pi then Real.pi else step * (11 / 10)
    .ok (.rotation new, decide (new ≠ step))
  | .translation step max implicit =>
    match increasedTranslation step max with
    | none => .ok (.translation step max implicit, false)
    | some new => .ok (.translation new max implicit, true)
  | .rototranslation _ none _ _ => .ub
  | .rototranslation step (some rot) max implicit =>
    match increasedTranslation step max with
    | none => .ok (.rototranslation step (some (rot * (step / step))) max implicit, false)
    | some new => .ok (.rototranslation new (some (rot * (new / step))) max implicit, true)
  | .flip flipEvery axis origin originZero => .ok (.flip flipEvery axis origin originZero, false)

/-- `decreaseStepSize`: the sampler afterwards and the returned value; RotationSampler.cpp:46-49, TranslationSampler.cpp:56-59,
RototranslationSampler.cpp:58-62, FlipSampler.h:37. -/
noncomputable def decrease : Sampler → Outcome (Sampler × Bool)
  | .rotation step => .ok (.rotation (step / (11 / 10)), true)
  | .translation step max implicit => .ok (.translation (step / (11 / 10)) max implicit, true)
  | .rototranslation _ none _ _ => .ub
  | .rototranslation step (some rot) max implicit =>
    .ok (.rototranslation (step / (11 / 10)) (some (rot / (11 / 10))) max implicit, true)
  | .flip flipEvery axis origin originZero => .ok (.flip flipEvery axis origin originZero, false)

/-- `getStepSizes`; RotationSampler.cpp:51-53, TranslationSampler.cpp:61-63, RototranslationSampler.cpp:64-66,
FlipSampler.h:39. -/
def stepSizes : Sampler → Outcome (List ℝ)
  | .rotation step => .ok [step]
  | .translation step _ _ => .ok [step]
  | .rototranslation _ none _ _ => .ub
  | .rototranslation step (some rot) _ _ => .ok [step, rot]
  | .flip _ _ _ _ => .ok [0]

/-- `setStepSize`; RotationSampler.cpp:55-60, TranslationSampler.cpp:65-70, RototranslationSampler.cpp:68-76, FlipSampler.h:41. -/
noncomputable def setStepSize (name : String) (v : ℝ) : Sampler → Outcome Sampler
  | .rotation _ => do
    Outcome.require (decide (v > 0)) "Expects(stepSize > 0)"
    Outcome.require (decide (name = "rotation")) "Expects(stepName == \"rotation\")"
    return .rotation v
  | .translation _ max implicit => do
    Outcome.require (decide (v > 0)) "Expects(stepSize > 0)"
    Outcome.require (decide (name = "translation")) "Expects(stepName == \"translation\")"
    return .translation v max implicit
  | .rototranslation step rot max implicit => do
    Outcome.require (decide (v > 0)) "Expects(stepSize > 0)"
    if name = "translation" then return .rototranslation v rot max implicit
    else if name = "rotation" then return .rototranslation step (some v) max implicit
    else .throw "Unknown step name"
  | .flip flipEvery axis origin originZero => .ok (.flip flipEvery axis origin originZero)

/-- The rotation step found from the translation step; RototranslationSampler.cpp:111-112. -/
noncomputable def autoRotation (ratio : ℝ) : ℝ := 133183 / 1000000 - 118634 / 100000 * ratio + 26437 / 100 * ratio * ratio

/-- `setupForShapeTraits`; RototranslationSampler.cpp:95-114, FlipSampler.cpp:43-52; nothing by default,
MoveSampler.h:98-100. The total range is a
finite number here. -/
noncomputable def setup (T : Traits) : Sampler → Outcome Sampler
  | .rototranslation step none max implicit => do
    Outcome.require (decide (T.I.totalRange > 0)) "Expects(interaction.getTotalRangeRadius() > 0)"
    let rot := autoRotation (step / T.I.totalRange)
    Outcome.require (decide (rot > 0)) "Assert(this->rotationStepSize > 0)"
    return .rototranslation step (some rot) max implicit
  | .flip flipEvery _ _ _ => do
    Outcome.require T.hasPrimaryAxis "Expects(geometry.hasPrimaryAxis())"
    let axis ← T.flipAxis
    return .flip flipEvery axis T.geometricOrigin (decide (T.geometricOrigin.norm2 < (1 / 10 ^ 14) * (1 / 10 ^ 14)))
  | s => .ok s

end Sampler

end Rampack
