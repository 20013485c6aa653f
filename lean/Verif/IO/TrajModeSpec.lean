import Verif.IO.TrajSpec
import Verif.IO.TrajMode
/-
Specification of the trajectory mode (C108).
-/
namespace Rampack

namespace Spec

open Traj TrajMode

/-- Snapshots with their cycle numbers: they are recorded every `step` cycles, the first one after the first `step` cycles. -/
def numbered (step : Nat) (frames : List Snapshot) : List (Nat × Snapshot) :=
  (List.range frames.length).zipWith (fun i x => ((i + 1) * step, x)) frames

/-- The snapshots left by `-x`: those up to the given cycle. -/
def keptFrames (step : Nat) (frames : List Snapshot) : Option Nat → List Snapshot
  | none => frames
  | some total => ((numbered step frames).filter fun c => decide (c.1 ≤ total)).map Prod.snd

/-- Options which are fine for a trajectory of the given snapshots. -/
structure Acceptable (step : Nat) (frames : List Snapshot) (input : String) (o : Options) : Prop where
  truncate : ∀ total, o.truncate = some total → total ≤ frames.length * step ∧ step ∣ total
  trajectories : input ∉ o.trajectories
  snapshots : input ∉ o.snapshots
  last : o.snapshots ≠ [] → keptFrames step frames o.truncate ≠ []
  averaging : ∀ a, o.averaging = some a → ∃ start, a = some start ∧ step ≤ start ∧ start < (keptFrames step frames o.truncate).length * step

/-- A value of a dynamic parameter in a cycle, whichever the number of all cycles is. -/
def HasValue (q : Param) (cycle : Nat) (v : ℝ) : Prop := ∃ total, q.value cycle total = .ok v

end Spec

end Rampack
