import Verif.Frontend.Casino
import Verif.IO.SnapSpec
import Verif.Sim.LogSpec
/-
Specification of resuming (C36).
-/
namespace Rampack.Spec

open Traj Ramsnap

/-- How many cycles a run should have. -/
def need (r : Run) : Nat :=
  match r.kind with
  | .integration th av => th.getD 0 + av.getD 0
  | .relaxation => 0

/-- How many cycles of thermalization a run should have. -/
def needThermal (r : Run) : Nat :=
  match r.kind with
  | .integration th _ => th.getD 0
  | .relaxation => 0

/-- The file of a run has a snapshot stored after `n` cycles: a packing `x` and information `m`. -/
structure Saved (A : Arith) (P : Numbers) (disk : Disk) (r : Run) (n : Nat) (m : Aux) (x : Snapshot) : Prop where
  file : ∃ f t, r.ramsnapOut = some f ∧ disk f = some t ∧ Ramsnap.write P x m = .ok t
  aux : PlainAux m
  storable : Storable A P x
  cycles : findEntry "cycles".toList m = some (natText n)
  lt : n < 2 ^ 64

/-- The file of a run is not there. -/
def Absent (disk : Disk) (r : Run) : Prop := ∃ f, r.ramsnapOut = some f ∧ disk f = none

/-- How far a run is: its file is not there or it has some number of cycles. -/
def Status (A : Arith) (P : Numbers) (disk : Disk) (r : Run) : Option Nat → Prop
  | none => Absent disk r
  | some n => ∃ m x, Saved A P disk r n m x

/-- A run is done. -/
def Done (r : Run) (st : Option Nat) : Prop := ∃ n, st = some n ∧ need r ≤ n

/-- The run with fewer cycles of thermalization. -/
def thermalLeft (r : Run) (c : Nat) : Run :=
  match r.kind with
  | .integration th av => { r with kind := .integration (some (th.getD 0 - c)) av }
  | .relaxation => r

/-- The run with averaging only. -/
def averagingOnly (r : Run) : Run :=
  match r.kind with
  | .integration _ av => { r with kind := .integration none av }
  | .relaxation => r

/-- All cycles to be done from the cycle after `c` of the first run on: numbers of the run (from `i`) and of the cycle. -/
def cyclesFrom : List Run → Nat → Nat → List (Nat × Nat)
  | [], _, _ => []
  | r :: rs, i, c => (List.range' (c + 1) (need r - c)).map (fun n => (i, n)) ++ cyclesFrom rs (i + 1) 0

/-- All cycles of all runs, in order. -/
def allCycles (runs : List Run) : List (Nat × Nat) := cyclesFrom runs 0 0

/-- The cycles which were done and stored. -/
def workOf (log : List (Nat × Nat × Nat)) : List (Nat × Nat) := log.flatMap fun e => (List.range' (e.2.1 + 1) (e.2.2 - e.2.1)).map fun n => (e.1, n)

/-- What is known about an engine: integration does the cycles it should, from the given offset, and ends early after the cycle in which it is
interrupted (C25); all states which it ends with can be stored. -/
structure Works {σ : Type} (A : Arith) (P : Numbers) (E : Engine σ) (stop : Nat → Nat → Bool) : Prop where
  cycles : ∀ {i r th av offset s s'}, r.kind = .integration th av → E.perform i r offset s = .ok s' →
    E.totalCycles s' = offset + cyclesDone (stop i) offset (th.getD 0 + av.getD 0) ∧
    E.interrupted s' = stopped (stop i) offset (th.getD 0 + av.getD 0)
  storable : ∀ {i r offset s s'}, E.perform i r offset s = .ok s' → Storable A P (E.snapshot s')
  steps : ∀ {i r offset s s'}, E.perform i r offset s = .ok s' → (E.steps s').length < 2 ^ 32 ∧
    ∀ e ∈ E.steps s', Word1 e.1 ∧ Line1 e.2 ∧ e.1 ≠ "cycles".toList

/-- Runs which can be resumed: integration of at least one cycle, with distinct files. -/
structure Resumable (runs : List Run) : Prop where
  integration : ∀ r ∈ runs, ∃ th av, r.kind = .integration th av ∧ 0 < th.getD 0 + av.getD 0 ∧ th.getD 0 + av.getD 0 < 2 ^ 64
  files : ∀ r ∈ runs, r.ramsnapOut.isSome
  distinct : (runs.map (·.ramsnapOut)).Nodup
  few : runs.length < 2 ^ 63

/-- The simulation is not interrupted within averaging. -/
def OutsideAveraging (runs : List Run) (stop : Nat → Nat → Bool) : Prop :=
  ∀ i n, stop i n = true → ∀ r, runs[i]? = some r → n ≤ needThermal r ∨ need r ≤ n

/-- A sequence of attempts to perform all runs, each resumed with `.auto`; each with its own interruptions (`E`) and possibly killed. -/
def campaign {σ : Type} (A : Arith) (P : Numbers) (runs : List Run) : List (Engine σ × Option Nat) → Disk → Outcome (Disk × List (List (Nat × Nat × Nat)))
  | [], disk => .ok (disk, [])
  | (E, dies) :: rest, disk => do
    let (disk, log) ← casino A P E (some ".auto".toList) none runs dies disk
    let (disk, logs) ← campaign A P runs rest disk
    return (disk, log :: logs)

end Rampack.Spec
