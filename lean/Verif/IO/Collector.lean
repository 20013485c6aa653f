import Verif.IO.TextFile
import Mathlib.Analysis.Real.Sqrt
/-
Model of the collector of observables: /repo/src/core/ObservablesCollector.{h,cpp}, /repo/src/utils/Quantity.cpp.

What is observed (the packing and the traits of the shape) is of an arbitrary type `ι`. Observables are functions of it, of the temperature and of
the pressure. Values are of type `D`, with `print` giving the text of a value (`precision(max_digits10)`); they are real numbers where averages are
taken. Measuring of time is omitted.
-/
namespace Rampack

/-- `Observable`; src/core/Observable.h:19-56. -/
structure Observable (ι D : Type) where
  intervalHeader : List Text
  nominalHeader : List Text
  interval : ι → ℝ × ℝ → List D
  nominal : ι → ℝ × ℝ → List Text
  name : Text

/-- `ObservablesCollector`; src/core/ObservablesCollector.h:28-44. A bulk observable is the list of what was given to it. -/
structure Collector (ι D : Type) where
  params : ℝ × ℝ
  observables : List (Observable ι D)
  bulk : List (List (ι × (ℝ × ℝ)))
  snapHeader : List Text
  avgHeader : List Text
  inlineIdx : List Nat
  snapIdx : List Nat
  avgIdx : List Nat
  cycles : List Nat
  snapValues : List (List Text)
  avgValues : List (List D)
  lastCycle : Nat
  file : Option TextFile

namespace Collector

variable {ι D : Type}

/-- A new collector. -/
def empty : Collector ι D := ⟨(0, 0), [], [], [], [], [], [], [], [], [], [], 0, none⟩

/-- `front().empty()` if there is the first one; ObservablesCollector.cpp:15-18. -/
def frontEmpty {α : Type} : List (List α) → Bool
  | [] => true
  | c :: _ => c.isEmpty

/-- `resize` of a vector of vectors, to a size which is not smaller. -/
def grow {α : Type} (l : List (List α)) (n : Nat) : List (List α) := l ++ List.replicate (n - l.length) []

/-- The branch for `SNAPSHOT`; ObservablesCollector.cpp:26-31. -/
def addSnap (C : Collector ι D) (o : Observable ι D) (i : Nat) : Collector ι D :=
  { C with
    snapHeader := C.snapHeader ++ o.intervalHeader ++ o.nominalHeader
    snapValues := grow C.snapValues (C.snapHeader ++ o.intervalHeader ++ o.nominalHeader).length
    snapIdx := C.snapIdx ++ [i] }

/-- The branch for `AVERAGING`; ObservablesCollector.cpp:33-37. -/
def addAvg (C : Collector ι D) (o : Observable ι D) (i : Nat) : Collector ι D :=
  { C with
    avgHeader := C.avgHeader ++ o.intervalHeader
    avgValues := grow C.avgValues (C.avgHeader ++ o.intervalHeader).length
    avgIdx := C.avgIdx ++ [i] }

/-- `addObservable` with the bits of the type; ObservablesCollector.cpp:14-41. -/
def addObservable (C : Collector ι D) (o : Observable ι D) (snap avg inl : Bool) : Outcome (Collector ι D) := do
  Outcome.require (frontEmpty C.snapValues) "Cannot add a new observable if snapshots are already captured"
  Outcome.require (frontEmpty C.avgValues) "Cannot add a new observable if snapshots are already captured"
  let i := C.observables.length
  let C := { C with observables := C.observables ++ [o] }
  let C := if snap then C.addSnap o i else C
  let C := if avg then C.addAvg o i else C
  return if inl then { C with inlineIdx := C.inlineIdx ++ [i] } else C

/-- `addBulkObservable`; ObservablesCollector.cpp:43-45. -/
def addBulk (C : Collector ι D) : Collector ι D := { C with bulk := C.bulk ++ [[]] }

/-- `setThermodynamicParameters`; ObservablesCollector.cpp:235-241. -/
noncomputable def setParams (C : Collector ι D) (T p : ℝ) : Outcome (Collector ι D) := do
  Outcome.require (decide (0 < T)) "Expects(temperature_ > 0)"
  Outcome.require (decide (0 ≤ p)) "Expects(pressure_ >= 0)"
  return { C with params := (T, p) }

/-- The new values of a snapshot; the loop in ObservablesCollector.cpp:53-75. -/
def snapRow (print : D → Text) (C : Collector ι D) (x : ι) : List Nat → Outcome (List Text)
  | [] => .ok []
  | i :: l => do
    let o ← vget C.observables i
    let r ← snapRow print C x l
    return (o.interval x C.params).map print ++ o.nominal x C.params ++ r

/-- The new values for averages; the loop in ObservablesCollector.cpp:90-100. -/
def avgRow (C : Collector ι D) (x : ι) : List Nat → Outcome (List D)
  | [] => .ok []
  | i :: l => do
    let o ← vget C.observables i
    let r ← avgRow C x l
    return o.interval x C.params ++ r

/-- Each value is added at the end of its column. -/
def pushRow {α : Type} (cols : List (List α)) (row : List α) : List (List α) := List.zipWith (fun c v => c ++ [v]) cols row

/-- One value of each column; ObservablesCollector.cpp:192-193. -/
def rowAt (i : Nat) : List (List Text) → Outcome (List Text)
  | [] => .ok []
  | c :: l => do
    let v ← vget c i
    let r ← rowAt i l
    return v :: r

/-- `doPrintSnapshotValues` without the check of the stream; ObservablesCollector.cpp:190-194. -/
def rowText (C : Collector ι D) (i : Nat) : Outcome Text := do
  let n ← vget C.cycles i
  let r ← rowAt i C.snapValues
  return natText n ++ [' '] ++ r.flatMap (· ++ [' ']) ++ ['\n']

/-- The on-the-fly part of `addSnapshot`; ObservablesCollector.cpp:79-82, 195. -/
def printLast (C : Collector ι D) (cycle : Nat) : Option TextFile → Outcome (Collector ι D)
  | none => .ok C
  | some f => do
    let t ← C.rowText (C.cycles.length - 1)
    Outcome.require (f.write t).good "Expects(out.good())"
    return { C with file := some (f.write t), lastCycle := cycle }

/-- `addSnapshot`; ObservablesCollector.cpp:47-84. The row is put in the columns after it is complete; with a wrong number of values the code
fails as well. -/
def addSnapshot (print : D → Text) (C : Collector ι D) (x : ι) (cycle : Nat) : Outcome (Collector ι D) := do
  let row ← C.snapRow print x C.snapIdx
  Outcome.require (decide (row.length = C.snapValues.length)) "Assert(valueIndex == this->snapshotValues.size())"
  let C := { C with cycles := C.cycles ++ [cycle], snapValues := pushRow C.snapValues row }
  C.printLast cycle C.file

/-- `addAveragingValues`; ObservablesCollector.cpp:86-108. -/
def addAveraging (C : Collector ι D) (x : ι) : Outcome (Collector ι D) := do
  let row ← C.avgRow x C.avgIdx
  Outcome.require (decide (row.length = C.avgValues.length)) "Assert(valueIndex == this->averagingValues.size())"
  return { C with avgValues := pushRow C.avgValues row, bulk := C.bulk.map (· ++ [(x, C.params)]) }

/-- `clear`; ObservablesCollector.cpp:164-173. -/
def clear (C : Collector ι D) : Collector ι D :=
  { C with cycles := [], snapValues := C.snapValues.map (fun _ => []), avgValues := C.avgValues.map (fun _ => []), bulk := C.bulk.map (fun _ => []) }

/-- `doPrintSnapshotHeader` without the line end; ObservablesCollector.cpp:198-200. -/
def headerText (C : Collector ι D) : Text := "cycle ".toList ++ C.snapHeader.flatMap (· ++ [' '])

/-- The rows of `printSnapshots`; ObservablesCollector.cpp:186-187. -/
def rowsText (C : Collector ι D) : List Nat → Outcome Text
  | [] => .ok []
  | i :: l => do
    let t ← C.rowText i
    let r ← rowsText C l
    return t ++ r

/-- `printSnapshots`; ObservablesCollector.cpp:175-188. -/
def printSnapshots (C : Collector ι D) (header : Bool) : Outcome Text := do
  Outcome.require (!C.snapValues.isEmpty) "Expects(!this->snapshotValues.empty())"
  Outcome.require (C.snapValues.all (fun c => decide (c.length = C.cycles.length))) "Assert(singleSet.size() == numSnapshots)"
  let t ← C.rowsText (List.range C.cycles.length)
  return (if header then C.headerText ++ ['\n'] else []) ++ t

/-- `findOnTheFlyLastCycleNumber` after the two lines were read; ObservablesCollector.cpp:308-319. -/
def lastCycleFrom (emptyLine line : Text) (f : TextFile) : Outcome (Nat × TextFile) := do
  Outcome.require (f.good && emptyLine.isEmpty) "Could not read last cycle number - broken observable output stream"
  if f.tellg.1 = some 0 then return (0, f)
  else do
    let (n, s) := (TextIn.ofText line).nat
    Outcome.require (!s.fail) "Could not read last cycle number - broken observable output stream"
    return (n, f)

/-- `findOnTheFlyLastCycleNumber`; ObservablesCollector.cpp:301-320. -/
def findLastCycle (f : TextFile) : Outcome (Nat × TextFile) := do
  let (emptyLine, f) ← f.seekEnd.getlineBackwards
  let (line, f) ← f.getlineBackwards
  lastCycleFrom emptyLine line f

/-- `verifyOnTheFlyOutputHeader`; ObservablesCollector.cpp:275-294. -/
def verifyHeader (C : Collector ι D) (f : TextFile) : Outcome TextFile := do
  let (line, f) := (f.seekTo 0).getline
  Outcome.require (decide (line = C.headerText)) "On-the-fly observable output stream already stores different observables."
  return f

/-- `attachOnTheFlyOutput`; ObservablesCollector.cpp:257-273. After an exception the collector is not used any more. -/
def attach (C : Collector ι D) (f : TextFile) : Outcome (Collector ι D) :=
  if f.seekEnd.tellg.1 = some 0 then
    .ok { C with file := some (f.seekEnd.write (C.headerText ++ ['\n'])).seekEnd, lastCycle := 0 }
  else do
    let f ← C.verifyHeader f.seekEnd
    let (n, f) ← findLastCycle f
    return { C with file := some f.seekEnd, lastCycle := n }

/-- `detachOnTheFlyOutput`; ObservablesCollector.cpp:296-299. -/
def detach (C : Collector ι D) : Collector ι D := { C with file := none, lastCycle := 0 }

/-- `std::accumulate` of the samples divided by their number; src/utils/Quantity.cpp:55. -/
noncomputable def _root_.Rampack.Quantity.mean (l : List ℝ) : ℝ := l.foldl (· + ·) 0 / (l.length : ℝ)

/-- `std::accumulate` of squares of deviations; src/utils/Quantity.cpp:57-58. -/
noncomputable def _root_.Rampack.Quantity.squares (m : ℝ) (l : List ℝ) : ℝ := l.foldl (fun (s x : ℝ) => s + (m - x) ^ 2) 0

/-- `Quantity::calculateFromSamples`, the value and the error; src/utils/Quantity.cpp:45-62. -/
noncomputable def _root_.Rampack.Quantity.fromSamples : List ℝ → ℝ × ℝ
  | [] => (0, 0)
  | [x] => (x, 0)
  | l => (Quantity.mean l, Real.sqrt (Quantity.squares (Quantity.mean l) l / (l.length : ℝ) / ((l.length - 1 : ℕ) : ℝ)))

/-- The loop of `getFlattenedAverageValues`; ObservablesCollector.cpp:207-210. -/
noncomputable def flatten (C : Collector ι ℝ) : List Nat → Outcome (List (Text × ℝ × ℝ))
  | [] => .ok []
  | i :: l => do
    let h ← vget C.avgHeader i
    let c ← vget C.avgValues i
    let r ← flatten C l
    return (h, Quantity.fromSamples c) :: r

/-- `getFlattenedAverageValues`; ObservablesCollector.cpp:205-212. -/
noncomputable def averages (C : Collector ι ℝ) : Outcome (List (Text × ℝ × ℝ)) := flatten C (List.range C.avgHeader.length)

/-- The loop of `getGroupedAverageValues`, with the values from `flatIndex` on; ObservablesCollector.cpp:220-229. -/
noncomputable def groups (C : Collector ι ℝ) : List Nat → List (Text × ℝ × ℝ) → Outcome (List (Text × List (Text × ℝ × ℝ)))
  | [], flat => do
    Outcome.require flat.isEmpty "Assert(flatIndex == flatValues.size())"
    return []
  | i :: l, flat => do
    let o ← vget C.observables i
    Outcome.require (decide (o.intervalHeader.length ≤ flat.length)) "Assert(flatIndex + header.size() <= flatValues.size())"
    let r ← groups C l (flat.drop o.intervalHeader.length)
    return (o.name, flat.take o.intervalHeader.length) :: r

/-- `getGroupedAverageValues`; ObservablesCollector.cpp:214-233. -/
noncomputable def groupedAverages (C : Collector ι ℝ) : Outcome (List (Text × List (Text × ℝ × ℝ))) := do
  let flat ← C.averages
  groups C C.avgIdx flat

end Collector

end Rampack
