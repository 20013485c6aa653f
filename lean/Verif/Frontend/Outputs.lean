import Verif.IO.Collector
import Verif.IO.Xyz
/-
Model of outputs written on the fly: `CasinoMode::OnTheFlyOutput`, /repo/src/frontend/modes/CasinoMode.cpp:513-524, 558-628, with
/repo/src/frontend/SimulationRecorderFactory.cpp, and of taking snapshots: /repo/src/core/Simulation.cpp.
-/
namespace Rampack

open Traj

/-- A file of a recorder: the format and what is in the file, if it is there. -/
inductive RecFile where
  | ramtrj (file : Option (List Byte))
  | xyz (file : Option Text)

/-- `SimulationRecorder`. -/
inductive Rec where
  | ramtrj (r : Traj.Recorder)
  | xyz (r : Xyz.Recorder)

/-- What is in a file after opening it: with `in | out` it has to be there, with `in | out | trunc` it is emptied. That files may not open for other reasons
is left out. SimulationRecorderFactory.cpp:18-28, 38-48, CasinoMode.cpp:514-520. -/
def openFile {α : Type} (cont : Bool) (file : Option (List α)) : Outcome (List α) :=
  if cont then
    match file with
    | none => .throw "FileException"
    | some t => .ok t
  else .ok []

/-- `create` of the factories; SimulationRecorderFactory.cpp:13-53. -/
def RecFile.create (numMolecules every : Nat) (cont : Bool) : RecFile → Outcome Rec
  | .ramtrj file => do
    let b ← openFile cont file
    let r ← Recorder.make b numMolecules every cont
    return .ramtrj r
  | .xyz file => do
    let t ← openFile cont file
    let r ← Xyz.create (.openAte t) cont
    return .xyz r

/-- `getLastCycleNumber`. -/
def Rec.last : Rec → Nat
  | .ramtrj r => r.lastCycle
  | .xyz r => r.last

/-- `recordSnapshot`. -/
def Rec.record (A : Arith) (F : Xyz.Format) (x : Snapshot) (cycle : Nat) : Rec → Outcome Rec
  | .ramtrj r => do
    let r ← r.recordSnapshot A x cycle
    return .ramtrj r
  | .xyz r => .ok (.xyz (Xyz.record F r x cycle))

/-- The file after the recorder is destroyed. -/
def Rec.close : Rec → RecFile
  | .ramtrj r => .ramtrj (some r.close.stream.bytes)
  | .xyz r => .xyz (some r.file.text)

/-- The loop over factories; CasinoMode.cpp:570-574. -/
def createAll (numMolecules every : Nat) (cont : Bool) : List RecFile → Outcome (List Rec)
  | [] => .ok []
  | f :: fs => do
    let r ← f.create numMolecules every cont
    let rs ← createAll numMolecules every cont fs
    return r :: rs

/-- The loop over recorders; Simulation.cpp:148-150. -/
def recordEach (A : Arith) (F : Xyz.Format) (x : Snapshot) (cycle : Nat) : List Rec → Outcome (List Rec)
  | [] => .ok []
  | r :: rs => do
    let r ← r.record A F x cycle
    let rs ← recordEach A F x cycle rs
    return r :: rs

variable {ι D : Type}

/-- `OnTheFlyOutput`, whose recorders and collector are then given to the simulation. -/
structure Outputs (ι D : Type) where
  recorders : List Rec
  collector : Collector ι D

/-- `attachSnapshotOut`, if observables are to be stored; CasinoMode.cpp:513-524, 577-579. -/
def attachObservables (cont : Bool) (C : Collector ι D) : Option (Option Text) → Outcome (Collector ι D)
  | none => .ok C
  | some file => do
    let t ← openFile cont file
    C.attach (.openAte t)

/-- Last cycle numbers of outputs; CasinoMode.cpp:568-581. -/
def lastCycles (rs : List Rec) (C : Collector ι D) (obs : Option (Option Text)) : List Nat :=
  rs.map Rec.last ++ if obs.isSome then [C.lastCycle] else []

/-- The constructor; CasinoMode.cpp:558-597. `obs` is the file for observables, if it is requested. -/
def Outputs.create (numMolecules every absolute : Nat) (cont : Bool) (recs : List RecFile) (obs : Option (Option Text)) (C : Collector ι D) :
    Outcome (Outputs ι D) :=
  if every = 0 then .ub
  else do
    let rs ← createAll numMolecules every cont recs
    let C ← attachObservables cont C obs
    Outcome.require ((lastCycles rs C obs).all fun n => decide (n = absolute - absolute % every))
      "Last stored cycle numbers are inconsistent throughout the outputs"
    return ⟨rs, C⟩

/-- A snapshot of a packing (`view` is how recorders see it); Simulation.cpp:146-151, 175-180. -/
def Outputs.snapshot (A : Arith) (F : Xyz.Format) (print : D → Text) (view : ι → Snapshot) (o : Outputs ι D) (x : ι) (cycle : Nat) : Outcome (Outputs ι D) := do
  let C ← o.collector.addSnapshot print x cycle
  let rs ← recordEach A F (view x) cycle o.recorders
  return ⟨rs, C⟩

/-- The files at the end. -/
def Outputs.finish (o : Outputs ι D) : List RecFile × Option (Option Text) := (o.recorders.map Rec.close, o.collector.file.map fun f => some f.text)

end Rampack
