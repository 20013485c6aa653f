import Verif.IO.Ramsnap
/-
Model of choosing where a simulation starts: /repo/src/frontend/PackingLoader.{h,cpp}.

Logging is left out, except for what goes wrong in it. Files are `Disk`: the text of a file which can be opened for reading. Loading of a packing
(`Packing::restore`) is `Ramsnap.read`.
-/
namespace Rampack

open Traj Ramsnap

/-- Files which can be opened for reading, by names. -/
abbrev Disk := Text → Option Text

/-- The type of a run and numbers of cycles; RampackParameters.h:36-69. -/
inductive RunKind where
  | integration (thermalization averaging : Option Nat)
  | relaxation
  deriving DecidableEq

/-- `Run`: what is used of `IntegrationRun` and `OverlapRelaxationRun`; RampackParameters.h:36-69. -/
structure Run where
  name : Text
  kind : RunKind
  ramsnapOut : Option Text
  snapshotEvery : Nat
  averagingEvery : Nat
  deriving DecidableEq

/-- `std::stoul`; `none` stands for `std::invalid_argument` and `std::out_of_range`, which are both of the type `std::logic_error`. -/
def stoul (t : Text) : Option Nat :=
  let t := t.dropWhile isSpace
  let neg := t.head? == some '-'
  let t := if neg || t.head? == some '+' then t.tail else t
  let d := t.takeWhile isDec
  if d.isEmpty then none
  else if 2 ^ 64 ≤ textNat d then none
  else some (if neg then u64 (2 ^ 64 - textNat d) else textNat d)

/-- `*optional`: nothing is checked. -/
def deref {α : Type} : Option α → Outcome α
  | some a => .ok a
  | none => .ub

/-- `runs[i]`: nothing is checked. -/
def at' {α : Type} (l : List α) (i : Nat) : Outcome α := deref l[i]?

/-- `PerformedRunData`; PackingLoader.h:19-25. -/
structure RunData where
  expectedCycles : Nat
  wasPerformed : Bool
  isCorrupted : Bool
  doneCycles : Nat

/-- `isFinished`; PackingLoader.h:27-29. -/
def RunData.isFinished (d : RunData) : Bool := d.wasPerformed && !d.isCorrupted && decide (d.expectedCycles ≤ d.doneCycles)

/-- `expectedCycles` in `gatherRunData`; PackingLoader.cpp:169-175. -/
def Run.expected (r : Run) : Nat :=
  match r.kind with
  | .integration th av => u64 (th.getD 0 + av.getD 0)
  | .relaxation => 0

/-- What the auxiliary information says; PackingLoader.cpp:184-188. Exceptions of the type `std::logic_error` are caught here; those of the type
`ValidationException`, from `restoreAuxInfo` and when there is no number of cycles, are not. -/
def cyclesData (expected : Nat) (m : Aux) : Outcome RunData := do
  Outcome.require (findEntry "cycles".toList m).isSome "No 'cycles' key in RAMSNAP metadata"
  match stoul ((findEntry "cycles".toList m).getD []) with
  | none => return ⟨expected, true, true, 0⟩
  | some n => return ⟨expected, true, false, n⟩

/-- A turn of the loop in `gatherRunData`; PackingLoader.cpp:164-194. -/
def gatherRun (disk : Disk) (r : Run) : Outcome RunData := do
  let f ← deref r.ramsnapOut
  match disk f with
  | none => return ⟨r.expected, false, false, 0⟩
  | some t => do
    let (m, _) ← readAux (.ofText t)
    cyclesData r.expected m

/-- `gatherRunData`; PackingLoader.cpp:161-197. -/
def gatherRunData (disk : Disk) : List Run → Outcome (List RunData)
  | [] => .ok []
  | r :: rs => do
    let d ← gatherRun disk r
    let ds ← gatherRunData disk rs
    return d :: ds

/-- `PackingLoader`; PackingLoader.h:32-43. The packing is there if `isRestored`. -/
structure Loader where
  startFrom : Option Text
  continuationCycles : Option Nat
  runs : List Run
  startRunIndex : Nat
  cycleOffset : Nat
  isContinuation : Bool
  auxInfo : Aux
  packing : Option Snapshot
  isAllFinished : Bool

namespace Loader

/-- `isRestored`. -/
def isRestored (L : Loader) : Bool := L.packing.isSome

/-- `reset`; PackingLoader.cpp:67-75. -/
def reset (L : Loader) : Loader :=
  { L with cycleOffset := 0, isContinuation := false, packing := none, auxInfo := [], startRunIndex := 0, isAllFinished := false }

/-- The constructor; PackingLoader.h:68-72. -/
def make (startFrom : Option Text) (continuationCycles : Option Nat) (runs : List Run) : Loader :=
  ⟨startFrom, continuationCycles, runs, 0, 0, false, [], none, false⟩

/-- When some run is not finished, `i` is the first one; PackingLoader.cpp:106-120. -/
def autoUnfinished (L : Loader) (ds : List RunData) (i : Nat) (d : RunData) : Outcome Loader := do
  Outcome.require (!(ds.drop (i + 1)).any (·.wasPerformed)) "Starting run auto-detect: detected already performed run after unfinished run"
  return { L with continuationCycles := if d.doneCycles = 0 then none else some 0, startRunIndex := i }

/-- The decision; PackingLoader.cpp:90-120. -/
def autoDecide (L : Loader) (ds : List RunData) : Outcome Loader := do
  Outcome.require (!ds.any (·.isCorrupted)) "Starting run auto-detect: one or more runs are corrupted. Aborting."
  match ds.findIdx? (fun d => !d.isFinished) with
  | none => return { L with continuationCycles := none, startRunIndex := ds.length, isAllFinished := true }
  | some i => do
    let d ← at' ds i
    autoUnfinished L ds i d

/-- `autoFindStartRunIndex`; PackingLoader.cpp:77-121. Without any runs `logRunsStatus` (PackingLoader.cpp:146) uses an element which is not there. -/
def autoFind (disk : Disk) (L : Loader) : Outcome Loader := do
  Outcome.require (L.runs.all (·.ramsnapOut.isSome)) "Starting run auto-detect: all runs must be set to output internal packing representation."
  let ds ← gatherRunData disk L.runs
  if ds.isEmpty then .ub else autoDecide L ds

/-- `findStartRunIndex` with a name; PackingLoader.cpp:199-215. -/
def findByName (name : Text) (runs : List Run) : Outcome Nat :=
  if name = ".first".toList then .ok 0
  else if name = ".last".toList then .ok (u64 (runs.length + 2 ^ 64 - 1))
  else match runs.findIdx? (fun r => decide (r.name = name)) with
    | some i => .ok i
    | none => .throw "Invalid run name to start from"

/-- `findStartRunIndex`; PackingLoader.cpp:53-65. -/
def findStart (disk : Disk) (L : Loader) : Outcome Loader :=
  match L.startFrom with
  | none => .ok { L with startRunIndex := 0 }
  | some name =>
    if name = ".auto".toList then L.autoFind disk
    else do
      let i ← findByName name L.runs
      return { L with startRunIndex := i }

/-- `isStartingFromScratch`; PackingLoader.cpp:30-32. -/
def fromScratch (L : Loader) : Bool := (L.startFrom.isNone || decide (L.startRunIndex = 0)) && L.continuationCycles.isNone

/-- `restorePacking`; PackingLoader.cpp:34-51. -/
def restore (A : Arith) (P : Numbers) (disk : Disk) (L : Loader) (r : Run) : Outcome Loader := do
  let f ← deref r.ramsnapOut
  match disk f with
  | none => .throw "Could not open to load initial packing"
  | some t => do
    let (m, x) ← Ramsnap.read A P t
    return { L with packing := some x, auxInfo := m }

/-- The number of cycles to continue from; PackingLoader.cpp:223. -/
def auxCycles (m : Aux) : Outcome Nat :=
  match findEntry "cycles".toList m with
  | none => .throw "std::out_of_range"
  | some v =>
    match stoul v with
    | none => .throw "std::logic_error"
    | some n => .ok n

/-- When thermalization is over; PackingLoader.cpp:235-251. -/
def skipThermalization (L : Loader) (r : Run) (av : Option Nat) : Loader :=
  let L := { L with runs := L.runs.set L.startRunIndex { r with kind := .integration none av } }
  if 0 < av.getD 0 then L
  else
    { L with isContinuation := false, cycleOffset := 0, startRunIndex := L.startRunIndex + 1,
             isAllFinished := decide (L.startRunIndex + 1 = L.runs.length) }

/-- The rest of thermalization and the averaging; PackingLoader.cpp:232-257. -/
def continueRun (L : Loader) (r : Run) (cycles : Nat) (th av : Option Nat) : Loader :=
  let target := if cycles = 0 then th.getD 0 else cycles
  let L := { L with continuationCycles := some target }
  if target ≤ L.cycleOffset then L.skipThermalization r av
  else { L with runs := L.runs.set L.startRunIndex { r with kind := .integration (some (target - L.cycleOffset)) av } }

/-- `loadPackingContinuation`; PackingLoader.cpp:217-259. -/
def loadContinuation (A : Arith) (P : Numbers) (disk : Disk) (L : Loader) (cycles : Nat) : Outcome Loader := do
  let r ← at' L.runs L.startRunIndex
  let L ← L.restore A P disk r
  let n ← auxCycles L.auxInfo
  let L := { L with cycleOffset := n, isContinuation := true }
  match r.kind with
  | .relaxation => return L
  | .integration th av => return L.continueRun r cycles th av

/-- `loadPackingNoContinuation`; PackingLoader.cpp:261-266. -/
def loadPrevious (A : Arith) (P : Numbers) (disk : Disk) (L : Loader) : Outcome Loader := do
  let r ← at' L.runs (u64 (L.startRunIndex + 2 ^ 64 - 1))
  L.restore A P disk r

/-- `loadPacking` when something is to be done; PackingLoader.cpp:21-27. -/
def loadStarted (A : Arith) (P : Numbers) (disk : Disk) (L : Loader) : Outcome Loader :=
  if L.fromScratch then .ok L
  else match L.continuationCycles with
    | some c => L.loadContinuation A P disk c
    | none => L.loadPrevious A P disk

/-- `loadPacking`; PackingLoader.cpp:12-28. -/
def load (A : Arith) (P : Numbers) (disk : Disk) (L : Loader) : Outcome Loader := do
  let L ← L.reset.findStart disk
  if L.isAllFinished then return L else L.loadStarted A P disk

end Loader

end Rampack
