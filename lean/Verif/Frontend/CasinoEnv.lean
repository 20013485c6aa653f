import Verif.Frontend.Input
import Verif.IO.Ramsnap
/-
Model of the environments of runs in the casino mode: /repo/src/frontend/modes/CasinoMode.cpp, /repo/src/frontend/RampackParameters.h, and of
the step sizes stored in snapshots: /repo/src/frontend/FileSnapshotWriter.cpp.

Samplers and scalers are shared by the environments which have them, so what a run does with them is seen later in the environment of the casino
mode: `afterRun`.
-/
namespace Rampack

open Ramsnap

/-- `std::ostream << double` with 17 digits and `std::stod`; FileSnapshotWriter.cpp:31-36, CasinoMode.cpp:489, 499. What is not a number throws an
exception. -/
structure Decimals where
  print : ℝ → Text
  stod : Text → Option ℝ

/-- `getName`; RotationSampler.h:26, TranslationSampler.h:33, RototranslationSampler.h:37, FlipSampler.h:28. -/
def Sampler.name : Sampler → String
  | .rotation _ => "rotation"
  | .translation _ _ _ => "translation"
  | .rototranslation _ _ _ _ => "rototranslation"
  | .flip _ _ _ _ => "flip"

/-- The names of the steps in the result of `getStepSizes`; RotationSampler.cpp:51-53, TranslationSampler.cpp:61-63, RototranslationSampler.cpp:64-66,
FlipSampler.h:39. -/
def Sampler.stepNames : Sampler → List String
  | .rotation _ => ["rotation"]
  | .translation _ _ _ => ["translation"]
  | .rototranslation _ _ _ _ => ["translation", "rotation"]
  | .flip _ _ _ _ => ["flip"]

/-- `getStepSizes` with names. -/
def Sampler.namedSteps (s : Sampler) : Outcome (List (String × ℝ)) := do
  let l ← s.stepSizes
  return s.stepNames.zip l

/-- `formatMoveKey`; FileSnapshotWriter.cpp:38-44, CasinoMode.cpp:553-559. -/
def moveKey (group move : String) : Text := "step.".toList ++ group.toList ++ ".".toList ++ move.toList

/-- Entries with the step sizes of one sampler; FileSnapshotWriter.cpp:54-57. -/
def putSteps (D : Decimals) (group : String) (l : List (String × ℝ)) (m : Aux) : Aux :=
  l.foldl (fun m e => setEntry (moveKey group e.1) (D.print e.2) m) m

/-- Entries with the step sizes of all samplers; FileSnapshotWriter.cpp:52-58, Simulation.cpp:733-741. -/
def putSamplers (D : Decimals) : List Sampler → Aux → Outcome Aux
  | [], m => .ok m
  | s :: ss, m => do
    let l ← s.namedSteps
    putSamplers D ss (putSteps D s.name l m)

/-- The entry with the step size of the scaler; FileSnapshotWriter.cpp:52-58, Simulation.cpp:718-726, 743-744. -/
def putScaler (D : Decimals) : ScalerStatus → Aux → Aux
  | .enabled s, m => putSteps D "scaling" [("scaling", s.step)] m
  | _, m => m

/-- `prepareAuxInfo`; FileSnapshotWriter.cpp:46-61. The conditions checked by `getMovesStatistics` are in `Sim.getMovesStatistics`. -/
def auxOf (D : Decimals) (cycles : Nat) (env : Env) : Outcome Aux := do
  let m ← putSamplers D env.samplers (setEntry "cycles".toList (natText cycles) [])
  return putScaler D env.scaler m

/-- `std::stod` of an entry. -/
def Decimals.number (D : Decimals) (t : Text) : Outcome ℝ :=
  match D.stod t with
  | none => .throw "std::stod"
  | some x => .ok x

/-- The loop over steps of a sampler; CasinoMode.cpp:480-490. -/
noncomputable def overwriteSteps (D : Decimals) (m : Aux) (group : String) : List String → Sampler → Outcome Sampler
  | [], s => .ok s
  | k :: ks, s =>
    match findEntry (moveKey group k) m with
    | none => overwriteSteps D m group ks s
    | some t => do
      let x ← D.number t
      let s ← s.setStepSize k x
      overwriteSteps D m group ks s

/-- One iteration of the loop over samplers; CasinoMode.cpp:479-490. `getStepSizes` is called for the names. -/
noncomputable def overwriteSampler (D : Decimals) (m : Aux) (s : Sampler) : Outcome Sampler := do
  let l ← s.namedSteps
  overwriteSteps D m s.name (l.map Prod.fst) s

/-- The loop over samplers; CasinoMode.cpp:478-491. -/
noncomputable def overwriteSamplers (D : Decimals) (m : Aux) : List Sampler → Outcome (List Sampler)
  | [] => .ok []
  | s :: ss => do
    let s ← overwriteSampler D m s
    let ss ← overwriteSamplers D m ss
    return s :: ss

/-- The step size of the scaler; CasinoMode.cpp:493-504. -/
noncomputable def overwriteScaler (D : Decimals) (m : Aux) : ScalerStatus → Outcome ScalerStatus
  | .enabled s =>
    match findEntry (moveKey "scaling" "scaling") m with
    | none => .ok (.enabled s)
    | some t => do
      let x ← D.number t
      Outcome.require (decide (x > 0)) "Volume step size in RAMSNAP metadata is not positive"
      let s ← s.setStepSize x
      return .enabled s
  | c => .ok c

/-- `overwriteMoveStepSizes`; CasinoMode.cpp:470-512. Warnings are left out. -/
noncomputable def overwriteMoveStepSizes (D : Decimals) (env : Env) (m : Aux) : Outcome Env := do
  let ss ← env.getMoveSamplers
  let ss ← overwriteSamplers D m ss
  let c ← overwriteScaler D m env.scaler
  return { env with samplers := ss, scaler := c }

namespace Input

variable {X : Type}

/-- The parameters with which a run is integrated; CasinoMode.cpp:214-221. -/
def IntegrationRun.params (r : IntegrationRun X) (offset : Nat) : Sim.IntegrationParams :=
  ⟨⟨r.snapshotEvery, r.inlineInfoEvery, r.orientationFixEvery, offset, r.simulationRecorders.length⟩, r.thermalizationCycles.getD 0, r.averagingCycles.getD 0, r.averagingEvery⟩

/-- The parameters with which overlaps are relaxed; CasinoMode.cpp:290-294. -/
def RelaxationRun.params (r : RelaxationRun X) (offset : Nat) : Sim.RunParams :=
  ⟨r.snapshotEvery, r.inlineInfoEvery, r.orientationFixEvery, offset, r.simulationRecorders.length⟩

/-- `combine_environment` for some runs; RampackParameters.h:78-84, CasinoMode.cpp:325-326, 332-333. -/
def combineAll (env : Env) (runs : List (Run X)) : Env := runs.foldl (fun e r => e.combine r.environment) env

/-- What of the loader of packings the environment depends on: `isContinuation`, and `getAuxInfo` if `isRestored`; PackingLoader.h:60-72. -/
structure Loaded where
  continuation : Bool
  aux : Option Aux

/-- Step sizes are taken from the snapshot if there is one; CasinoMode.cpp:334-335. -/
noncomputable def restoreSteps (D : Decimals) (env : Env) : Option Aux → Outcome Env
  | none => .ok env
  | some m => overwriteMoveStepSizes D env m

/-- The environment before the check; CasinoMode.cpp:317-337. The loader never gives the number of a run which is not there: C80. -/
noncomputable def replayEnvironment (D : Decimals) (base : Env) (runs : List (Run X)) (start : Nat) (L : Loaded) : Outcome Env :=
  if L.continuation then
    match L.aux with
    | none => .throw "Assert(loader.isRestored())"
    | some m => overwriteMoveStepSizes D (combineAll base (runs.take (start + 1))) m
  else do
    let env ← restoreSteps D (combineAll base (runs.take start)) L.aux
    return combineAll env ((runs.drop start).take 1)

/-- `recreateEnvironment`; CasinoMode.cpp:313-342. -/
noncomputable def recreateEnvironment (D : Decimals) (base : Env) (runs : List (Run X)) (start : Nat) (L : Loaded) : Outcome Env := do
  let env ← replayEnvironment D base runs start L
  Outcome.require env.isComplete "Some of parameters: pressure, temperature, moveTypes, scalingType are missing"
  return env

/-- The loop which compares the values in the averaging phase with the first one; CasinoMode.cpp:377-397. -/
noncomputable def sameValues (p : Param) (total : Nat) (x : ℝ) : Nat → Nat → Outcome Unit
  | 0, _ => .ok ()
  | k + 1, cycle => do
    let y ← p.value cycle total
    Outcome.require (decide (y = x)) "Dynamic parameter is not constant in the averaging phase"
    sameValues p total x k (cycle + 1)

/-- `verifyDynamicParameter`; CasinoMode.cpp:367-398. Note that `run.averagingCycles == 0` does not hold when there is no averaging phase. -/
noncomputable def verifyDynamicParameter (p : Param) (r : IntegrationRun X) (offset : Nat) : Outcome Unit :=
  if r.averagingCycles = some 0 then .ok ()
  else do
    let first := r.thermalizationCycles.getD 0 + offset
    let total := first + r.averagingCycles.getD 0
    let x ← p.value first total
    sameValues p total x (r.averagingCycles.getD 0 - 1) (first + 1)

/-- Verification of the temperature and the pressure before an integration; CasinoMode.cpp:180-183. -/
noncomputable def verifyParameters (env : Env) (r : IntegrationRun X) (offset : Nat) : Outcome Unit := do
  let t ← env.getTemperature
  verifyDynamicParameter t r offset
  if env.isBoxScalingEnabled then do
    let p ← env.getPressure
    verifyDynamicParameter p r offset
  else return ()

/-- The environment of the casino mode after a run: samplers and scalers are those of the simulation. -/
def afterRun (env : Env) (S : Sim) : Env := { env with samplers := S.env.samplers, scaler := S.env.scaler }

/-- What is done in a run; CasinoMode.cpp:179-191. `traits` is what shape traits are used, with helper shapes of relaxation; `fuel` is that of
`Sim.relaxOverlaps`. -/
noncomputable def performRun (traits : Option X → Traits) (stop : Nat → Bool) (fuel : Nat) (env : Env) (run : Run X) (offset : Nat) (S : Sim) : Outcome Sim :=
  match run with
  | .integration r => do
    verifyParameters env r offset
    S.integrate env (r.params offset) (traits none) stop
  | .relaxation r => S.relaxOverlaps env (r.params offset) (traits r.helperShape) stop fuel

/-- The loop over runs after the first one; CasinoMode.cpp:173-198. `stops` says, for each run, after which cycles there is an interruption. -/
noncomputable def performRuns (traits : Option X → Traits) (fuel : Nat) : List (Run X) → List (Nat → Bool) → Env → Sim → Outcome Sim
  | [], _, _, S => .ok S
  | run :: runs, stops, env, S => do
    let env := env.combine run.environment
    let S ← performRun traits (stops.headD fun _ => false) fuel env run 0 S
    if S.interrupted then return S else performRuns traits fuel runs stops.tail (afterRun env S) S

/-- The loop over runs, from the starting one; CasinoMode.cpp:170-198. -/
noncomputable def performFrom (traits : Option X → Traits) (fuel : Nat) (runs : List (Run X)) (start offset : Nat) (stops : List (Nat → Bool)) (env : Env) (S : Sim) : Outcome Sim :=
  match runs[start]? with
  | none => .ub
  | some run => do
    let S ← performRun traits (stops.headD fun _ => false) fuel env run offset S
    if S.interrupted then return S else performRuns traits fuel (runs.drop (start + 1)) stops.tail (afterRun env S) S

end Input

end Rampack
