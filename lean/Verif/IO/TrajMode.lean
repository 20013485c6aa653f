import Verif.IO.Ramtrj
import Verif.Param.Model
/-
Model of replaying in the trajectory mode: src/frontend/modes/TrajectoryMode.cpp.

Simplifications: parsing of options, reading of the input file, logging and measuring time are left out; of formats of output trajectories
only `ramtrj` is modelled, and the file to which it is written is opened with truncation (SimulationRecorderFactory.cpp:22-26), so that it is
empty. Observables are not computed here: what is given to the collector is collected in lists. Loops have fuel; running out of it is
`diverge`.
-/
namespace Rampack

namespace TrajMode

open Traj

/-- `while (player->hasNext())` with `nextSnapshot` and something done with the snapshot and its cycle number;
TrajectoryMode.cpp:230-234, 259-273, 328-332. -/
def replay {σ : Type} (A : Arith) (size : Nat) (act : σ → Nat → Snapshot → Outcome σ) : Nat → AnyPlayer → σ → Outcome (σ × AnyPlayer)
  | 0, _, _ => .diverge
  | fuel + 1, p, s =>
    if p.hasNext then do
      let r ← p.nextSnapshot A size
      let s ← act s r.2.currentCycles r.1
      replay A size act fuel r.2 s
    else .ok (s, p)

/-- The options, of which the rest of the mode depends; TrajectoryMode.cpp:27-40. Names of trajectories to be stored (`-t`), the flag of
calculation of observables (`-o`), the start of averaging (`-b` with `-a`; outside `none` if there is no `-b`, inside if there is no `-a`),
names of snapshot files (`-s`). -/
structure Options where
  truncate : Option Nat
  trajectories : List String
  observables : Bool
  averaging : Option (Option Nat)
  snapshots : List String

/-- What `-o` gives to the collector; TrajectoryMode.cpp:261-268. -/
structure Record where
  cycle : Nat
  snapshot : Snapshot
  temperature : ℝ
  pressure : ℝ

/-- What is written: stored trajectories, records of observables, snapshots averaged over, written snapshots. -/
structure Output where
  trajectories : List (String × List Byte)
  records : Option (List Record)
  averaged : Option (List Snapshot)
  snapshots : List (String × Nat × Snapshot)

/-- The environment: temperature, and pressure if the box is scaled; TrajectoryMode.cpp:263-267. -/
structure Environment where
  temperature : Param
  pressure : Option Param

/-- Truncating; TrajectoryMode.cpp:201-212. -/
def truncated (p : AnyPlayer) : Option Nat → Outcome AnyPlayer
  | none => .ok p
  | some total => do
    Outcome.require (decide (total ≤ p.totalCycles)) "Number of truncated cycles must not be greater than number of recorded cycles"
    if p.cycleStep = 0 then .ub
    else do
      Outcome.require (decide (total % p.cycleStep = 0)) "Number of truncated cycles has to be divisible by the cycle step"
      p.truncate total

/-- Storing one trajectory; TrajectoryMode.cpp:215-243. -/
def storeTrajectory (A : Arith) (size fuel : Nat) (input name : String) (p : AnyPlayer) : Outcome ((String × List Byte) × AnyPlayer) := do
  Outcome.require (!decide (name = input)) "Input trajectory file name cannot be used as an output!"
  let r ← Recorder.make [] p.numMolecules p.cycleStep false
  let rp ← replay A size (fun r cycle x => r.recordSnapshot A x cycle) fuel p r
  let p ← rp.2.reset
  return ((name, rp.1.close.stream.bytes), p)

/-- The loop over trajectories to be stored; TrajectoryMode.cpp:215-243. -/
def storeAll (A : Arith) (size fuel : Nat) (input : String) : List String → AnyPlayer → Outcome (List (String × List Byte) × AnyPlayer)
  | [], p => .ok ([], p)
  | name :: names, p => do
    let r ← storeTrajectory A size fuel input name p
    let rs ← storeAll A size fuel input names r.2
    return (r.1 :: rs.1, rs.2)

/-- The pressure shown; TrajectoryMode.cpp:264-266. -/
noncomputable def pressureAt (e : Environment) (cycle total : Nat) : Outcome ℝ :=
  match e.pressure with
  | none => .ok 0
  | some q => q.value cycle total

/-- One pass of the loop for observables; TrajectoryMode.cpp:260-268. -/
noncomputable def observe (e : Environment) (total : Nat) (l : List Record) (cycle : Nat) (x : Snapshot) : Outcome (List Record) := do
  let t ← e.temperature.value cycle total
  let pr ← pressureAt e cycle total
  return l ++ [⟨cycle, x, t, pr⟩]

/-- Observables; TrajectoryMode.cpp:246-281. -/
noncomputable def observeAll (A : Arith) (size fuel : Nat) (e : Environment) (wanted : Bool) (p : AnyPlayer) :
    Outcome (Option (List Record) × AnyPlayer) :=
  if wanted then do
    let r ← replay A size (observe e p.totalCycles) fuel p []
    return (some r.1, r.2)
  else .ok (none, p)

/-- The start of averaging rounded up; TrajectoryMode.cpp:317-323. -/
def startingCycle (start step : Nat) : Nat := if start % step = 0 then start else (start / step + 1) * step

/-- Bulk observables; TrajectoryMode.cpp:284-340. -/
def average (A : Arith) (size fuel : Nat) (p : AnyPlayer) : Option (Option Nat) → Outcome (Option (List Snapshot) × AnyPlayer)
  | none => .ok (none, p)
  | some none => .throw "The start of averaging must be specified with option -a [first cycle number]"
  | some (some start) => do
    Outcome.require (!decide (start ≥ p.totalCycles)) "Starting cycle is larger than a total number of recorded cycles"
    Outcome.require (!decide (start < p.cycleStep)) "Starting cycle is less than cycle number of first recorded shapshot"
    if p.cycleStep = 0 then .ub
    else do
      let r ← p.jumpToSnapshot A size (startingCycle start p.cycleStep)
      let rs ← replay A size (fun l _ x => .ok (l ++ [x])) fuel r.2 [r.1]
      return (some rs.1, rs.2)

/-- Writing the last snapshot; TrajectoryMode.cpp:348-357. -/
def writeSnapshots (input : String) (cycle : Nat) (x : Snapshot) : List String → Outcome (List (String × Nat × Snapshot))
  | [] => .ok []
  | name :: names => do
    Outcome.require (!decide (name = input)) "Input trajectory file name cannot be used as an output!"
    let l ← writeSnapshots input cycle x names
    return (name, cycle, x) :: l

/-- The last snapshot; TrajectoryMode.cpp:343-358. -/
def lastOf (A : Arith) (size : Nat) (input : String) (p : AnyPlayer) : List String → Outcome (List (String × Nat × Snapshot))
  | [] => .ok []
  | name :: names => do
    let r ← p.lastSnapshot A size
    writeSnapshots input r.2.currentCycles r.1 (name :: names)

/-- The mode from truncating on; TrajectoryMode.cpp:200-360. -/
noncomputable def main (A : Arith) (size fuel : Nat) (e : Environment) (input : String) (o : Options) (p : AnyPlayer) : Outcome Output := do
  let p ← truncated p o.truncate
  let t ← storeAll A size fuel input o.trajectories p
  let r ← observeAll A size fuel e o.observables t.2
  let a ← average A size fuel r.2 o.averaging
  let s ← lastOf A size input a.2 o.snapshots
  return ⟨t.1, r.1, a.1, s⟩

end TrajMode

end Rampack
