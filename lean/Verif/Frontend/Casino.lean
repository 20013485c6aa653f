import Verif.Frontend.Loader
import Verif.Sim.Model
/-
Model of the main loop of the casino mode: /repo/src/frontend/modes/CasinoMode.cpp, with snapshots stored after runs:
/repo/src/frontend/FileSnapshotWriter.cpp.

What a simulation does in a run is left to `Engine`: it is modelled in `Sim`. Environments, averages and other outputs than RAMSNAP are left out here.
-/
namespace Rampack

open Traj Ramsnap

/-- What performs runs; `σ` is the type of its states.
`initial`      the simulation of a newly created packing,
`restored`     the simulation of a packing with step sizes from a snapshot; CasinoMode.cpp:171-174, 317-366,
`perform`      `performIntegration` or `performOverlapRelaxation` of the `i`-th run with the given offset; CasinoMode.cpp:205-310,
`totalCycles`  `getTotalCycles`,
`interrupted`  `wasInterrupted`,
`snapshot`     `getPacking`,
`steps`        step sizes of all moves. -/
structure Engine (σ : Type) where
  initial : Outcome σ
  restored : Aux → Snapshot → Outcome σ
  perform : Nat → Run → Nat → σ → Outcome σ
  totalCycles : σ → Nat
  interrupted : σ → Bool
  snapshot : σ → Snapshot
  steps : σ → Aux

/-- The parameters with which a run is integrated; CasinoMode.cpp:216-223. `inlineInfoEvery`, `orientationFixEvery` and the number of recorders are
given apart. -/
def Run.integrationParams (info fix recorders : Nat) (r : Run) (th av : Option Nat) (offset : Nat) : Sim.IntegrationParams :=
  ⟨⟨r.snapshotEvery, info, fix, offset, recorders⟩, th.getD 0, av.getD 0, r.averagingEvery⟩

/-- `prepareAuxInfo`; FileSnapshotWriter.cpp:46-62. -/
def prepareAux {σ : Type} (E : Engine σ) (s : σ) : Aux :=
  (E.steps s).foldl (fun m e => setEntry e.1 e.2 m) (setEntry "cycles".toList (natText (E.totalCycles s)) [])

/-- A file is written. -/
def Disk.put (disk : Disk) (f : Text) (t : Text) : Disk := fun g => if g = f then some t else disk g

/-- `storeSnapshot` in the RAMSNAP format, if it is requested; FileSnapshotWriter.cpp:10-30, CasinoMode.cpp:242-243. That files may not open for writing
is left out. -/
def storeSnapshot {σ : Type} (P : Numbers) (E : Engine σ) (r : Run) (s : σ) (disk : Disk) : Outcome Disk :=
  match r.ramsnapOut with
  | none => .ok disk
  | some f => do
    let t ← Ramsnap.write P (E.snapshot s) (prepareAux E s)
    return disk.put f t

/-- The loop over runs, for those from the `i`-th on; CasinoMode.cpp:179-203. The result is the files and what was done and stored: numbers of runs, numbers of
the cycle before the first one and of the last one performed. If `dies` is `some k` then the program is killed in the run after the next `k` ones, before
it stores anything. -/
def casinoLoop {σ : Type} (P : Numbers) (E : Engine σ) : List Run → Nat → Nat → Option Nat → σ → Disk → Outcome (Disk × List (Nat × Nat × Nat))
  | [], _, _, _, _, disk => .ok (disk, [])
  | r :: rs, i, offset, dies, s, disk =>
    if dies = some 0 then .ok (disk, [])
    else do
      let s ← E.perform i r offset s
      let disk ← storeSnapshot P E r s disk
      if E.interrupted s then return (disk, [(i, offset, E.totalCycles s)])
      else do
        let (disk, log) ← casinoLoop P E rs (i + 1) 0 (dies.map (· - 1)) s disk
        return (disk, (i, offset, E.totalCycles s) :: log)

/-- The simulation with which the loop begins; CasinoMode.cpp:156-177, 344-366. -/
def startState {σ : Type} (E : Engine σ) (L : Loader) : Outcome σ :=
  match L.packing with
  | some x => E.restored L.auxInfo x
  | none => E.initial

/-- What is done by `main` after parsing the input; CasinoMode.cpp:155-206. -/
def casino {σ : Type} (A : Arith) (P : Numbers) (E : Engine σ) (startFrom : Option Text) (cont : Option Nat) (runs : List Run) (dies : Option Nat) (disk : Disk) :
    Outcome (Disk × List (Nat × Nat × Nat)) := do
  let L ← (Loader.make startFrom cont runs).load A P disk
  if L.isAllFinished then return (disk, [])
  else do
    let s ← startState E L
    casinoLoop P E (L.runs.drop L.startRunIndex) L.startRunIndex L.cycleOffset dies s disk

end Rampack
