import Verif.IO.Bytes
import Verif.Vec3
import Verif.Param.Model
/-
Model of RAMTRJ trajectories: /repo/src/core/io/RamtrjIO.{h,cpp}, RamtrjRecorder.{h,cpp}, RamtrjPlayer.{h,cpp},
TruncatedPlayer.{h,cpp}.

Numbers of type `double` are their 64 bits, and what is computed from them (Euler angles, rotation matrices, the checks of
`TriclinicBox` and `Packing::reset`) is given from outside (`Arith`), so theorems hold whatever these computations give; that the Euler
angles reproduce the orientation is the subject of another property. Logging (`dumpHeader`, `dumpInfo`) is omitted. An
object which threw an exception is not used any more.
-/
namespace Rampack

namespace Traj

/-- `Matrix<3, 3>` as the bits of its elements. -/
abbrev MatW := Vec3 (Vec3 Word)

/-- `Shape` as bits; src/core/Shape.h:25-26. -/
@[ext] structure ShapeW where
  pos : Vec3 Word
  rot : MatW

/-- The box and the shapes of a packing as bits. -/
@[ext] structure Snapshot where
  box : MatW
  shapes : List ShapeW

/-- Computations on numbers of type `double`. -/
structure Arith where
  /-- `EulerAngles(orientation).first`; throws if the matrix is not a rotation -/
  angles : MatW → Outcome (Vec3 Word)
  /-- `Matrix<3, 3>::rotation(ax, ay, az)` -/
  rotation : Vec3 Word → MatW
  /-- whether the constructor of `TriclinicBox` accepts the matrix -/
  boxOk : MatW → Bool
  /-- whether `Packing::reset` accepts the box and the positions of shapes -/
  resetOk : MatW → List (Vec3 Word) → Bool

/-- The header (without the magic); RamtrjIO.h:34-41. -/
@[ext] structure Header where
  major : Nat
  minor : Nat
  numParticles : Nat
  numSnapshots : Nat
  cycleStep : Nat

/-- `"RAMTRJ\n"`; RamtrjIO.h:35. -/
def magic : List Byte := [82, 65, 77, 84, 82, 74, 10]

/-- Reading which is followed by a check of the stream. -/
def readOr (msg : String) (n : Nat) (s : Stream) : Outcome (List Byte × Stream) :=
  match s.read n with
  | (none, _) => .throw msg
  | (some l, s) => .ok (l, s)

/-- The additional checks for version 1.1; RamtrjIO.cpp:32-35. -/
def checkHeader (h : Header) : Outcome Unit :=
  if h.major ≥ 1 ∧ h.minor ≥ 1 then do
    Outcome.require (decide (h.numParticles > 0)) "RAMTRJ read error: num particles"
    Outcome.require (decide (h.cycleStep > 0)) "RAMTRJ read error: cycle step"
  else .ok ()

/-- `readHeader`; RamtrjIO.cpp:16-38. -/
def readHeader (s : Stream) : Outcome (Header × Stream) := do
  let (m, s) ← readOr "RAMTRJ read error: magic" 7 s
  Outcome.require (decide (m = magic)) "RAMTRJ read error: magic"
  let (minor, s) ← readOr "RAMTRJ: only versions up to 1.1 are supported" 1 s
  let (major, s) ← readOr "RAMTRJ: only versions up to 1.1 are supported" 1 s
  Outcome.require (decide (leVal major = 1) && decide (leVal minor ≤ 1)) "RAMTRJ: only versions up to 1.1 are supported"
  let (n, s) ← readOr "RAMTRJ read error: num particles" 8 s
  let (k, s) ← readOr "RAMTRJ read error: num snapshots" 8 s
  let (c, s) ← readOr "RAMTRJ read error: cycle step" 8 s
  let h : Header := ⟨leVal major, leVal minor, leVal n, leVal k, leVal c⟩
  checkHeader h
  return (h, s)

/-- The bytes of the header; RamtrjIO.cpp:40-46. -/
def headerBytes (h : Header) : List Byte :=
  magic ++ leBytes 1 h.minor ++ leBytes 1 h.major ++ leBytes 8 h.numParticles ++ leBytes 8 h.numSnapshots ++ leBytes 8 h.cycleStep

/-- `writeHeader`; RamtrjIO.cpp:40-48. -/
def writeHeader (h : Header) (s : Stream) : Stream := s.write (headerBytes h)

/-- The bytes of a number. -/
def wordBytes (w : Word) : List Byte := leBytes 8 w.toNat

/-- The number made of eight bytes. -/
def bytesWord (l : List Byte) : Word := BitVec.ofNat 64 (leVal l)

/-- The bytes of three numbers. -/
def vecBytes (v : Vec3 Word) : List Byte := wordBytes v.x ++ wordBytes v.y ++ wordBytes v.z

/-- Three numbers made of 24 bytes. -/
def bytesVec (l : List Byte) : Vec3 Word :=
  ⟨bytesWord (l.take 8), bytesWord ((l.drop 8).take 8), bytesWord ((l.drop 16).take 8)⟩

/-- The bytes of nine numbers, row by row; `copyToArray`, src/geometry/Matrix.tpp. -/
def matBytes (m : MatW) : List Byte := vecBytes m.x ++ vecBytes m.y ++ vecBytes m.z

/-- A matrix made of 72 bytes. -/
def bytesMat (l : List Byte) : MatW := ⟨bytesVec (l.take 24), bytesVec ((l.drop 24).take 24), bytesVec ((l.drop 48).take 24)⟩

/-- `readBox`; RamtrjIO.cpp:50-55. -/
def readBox (A : Arith) (s : Stream) : Outcome (MatW × Stream) := do
  let (l, s) ← readOr "RAMTRJ read error: snapshot box data" 72 s
  Outcome.require (A.boxOk (bytesMat l)) "TriclinicBox"
  return (bytesMat l, s)

/-- `writeBox`; RamtrjIO.cpp:57-62. -/
def writeBox (b : MatW) (s : Stream) : Stream := s.write (matBytes b)

/-- `readShape`; RamtrjIO.cpp:64-74. -/
def readShape (A : Arith) (s : Stream) : Outcome (ShapeW × Stream) := do
  let (p, s) ← readOr "RAMTRJ read error: snapshot particle data" 24 s
  let (a, s) ← readOr "RAMTRJ read error: snapshot particle data" 24 s
  return (⟨bytesVec p, A.rotation (bytesVec a)⟩, s)

/-- `writeShape`; RamtrjIO.cpp:76-85. -/
def writeShape (A : Arith) (s : Stream) (x : ShapeW) : Outcome Stream := do
  let a ← A.angles x.rot
  return (s.write (vecBytes x.pos)).write (vecBytes a)

/-- `getHeaderSize`; RamtrjIO.cpp:93-96. -/
def headerSize : Nat := 7 + 1 + 1 + 8 + 8 + 8

/-- `getSnapshotSize`; RamtrjIO.cpp:98-101. -/
def snapshotSize (h : Header) : Nat := u64 (9 * 8 + h.numParticles * (3 * 8 + 3 * 8))

/-- `streamoffForSnapshot`; RamtrjIO.cpp:87-91. -/
def snapshotOffset (h : Header) (n : Nat) : Int := toLong (u64 (headerSize + n * snapshotSize h))

/-- `RamtrjRecorder`; RamtrjRecorder.h:20-23. A closed recorder has no stream; here the stream is kept, because it is what is in
the file. -/
structure Recorder where
  stream : Stream
  isOpen : Bool
  numSnapshots : Nat
  cycleStep : Nat
  numParticles : Nat

namespace Recorder

/-- The header written by a recorder: the version is 1.1. -/
def header (numParticles numSnapshots cycleStep : Nat) : Header := ⟨1, 1, numParticles, numSnapshots, cycleStep⟩

/-- The constructor with `append = true`; RamtrjRecorder.cpp:15-26. -/
def append (s : Stream) (numParticles cycleStep : Nat) : Outcome Recorder := do
  let (h, s) ← readHeader (s.seek 0)
  Outcome.require (decide (numParticles = h.numParticles) && decide (cycleStep = h.cycleStep))
    "RAMTRJ append error: unmatching number of molecules and/or cycle step"
  let s := s.seekEnd
  Outcome.require (decide (s.tell = snapshotOffset h h.numSnapshots)) "RAMTRJ append error: broken snapshot structure"
  return ⟨s, true, h.numSnapshots, cycleStep, numParticles⟩

/-- The constructor with `append = false`; RamtrjRecorder.cpp:27-35. -/
def create (s : Stream) (numParticles cycleStep : Nat) : Outcome Recorder := do
  let s := s.seekEnd
  Outcome.require (decide (s.tell = 0)) "RAMTRJ error: append = false however stream is not empty"
  return ⟨writeHeader (header numParticles 0 cycleStep) s, true, 0, cycleStep, numParticles⟩

/-- The constructor for an open stream; RamtrjRecorder.cpp:8-36. -/
def make (file : List Byte) (numParticles cycleStep : Nat) (isAppend : Bool) : Outcome Recorder := do
  Outcome.require (decide (numParticles > 0)) "Expects(numParticles > 0)"
  Outcome.require (decide (cycleStep > 0)) "Expects(cycleStep > 0)"
  if isAppend then append (.ofFile file) numParticles cycleStep else create (.ofFile file) numParticles cycleStep

/-- `recordSnapshot`; RamtrjRecorder.cpp:42-53. -/
def recordSnapshot (A : Arith) (r : Recorder) (x : Snapshot) (cycle : Nat) : Outcome Recorder := do
  Outcome.require r.isOpen "Expects(this->stream != nullptr)"
  Outcome.require (decide (cycle > 0)) "Expects(cycle > 0)"
  Outcome.require (decide (cycle = u64 ((r.numSnapshots + 1) * r.cycleStep))) "Expects(cycle == (this->numSnapshots + 1) * this->cycleStep)"
  Outcome.require (decide (x.shapes.length = r.numParticles)) "Expects(packing.size() == this->numParticles)"
  let s ← x.shapes.foldlM (writeShape A) (writeBox x.box r.stream)
  return { r with stream := s, numSnapshots := r.numSnapshots + 1 }

/-- `getLastCycleNumber`; RamtrjRecorder.h:50. -/
def lastCycle (r : Recorder) : Nat := u64 (r.numSnapshots * r.cycleStep)

/-- `close`, also done by the destructor; RamtrjRecorder.cpp:55-67. -/
def close (r : Recorder) : Recorder :=
  if !r.isOpen then r
  else { r with stream := writeHeader (header r.numParticles r.numSnapshots r.cycleStep) (r.stream.seek 0), isOpen := false }

end Recorder

/-- `RamtrjPlayer`; RamtrjPlayer.h:19-21. -/
structure Player where
  header : Header
  stream : Option Stream
  current : Nat

/-- What `AutoFix` reports if there was no exception; RamtrjPlayer.h:29-37. -/
structure FixReport where
  needed : Bool
  headerSnapshots : Nat
  inferred : Nat
  remainder : Nat

namespace Player

/-- `reset` of an open player; RamtrjPlayer.cpp:101-105. -/
def rewind (h : Header) (s : Stream) : Player := ⟨h, some (s.seek headerSize), 0⟩

/-- The constructor without fixing; RamtrjPlayer.cpp:11-20. -/
def open' (file : List Byte) : Outcome Player := do
  let (h, s) ← readHeader ((Stream.ofFile file).seek 0)
  let s := s.seekEnd
  Outcome.require (decide (s.tell = snapshotOffset h h.numSnapshots)) "RAMTRJ read error: broken snapshot structure"
  return rewind h s

/-- `AutoFix::tryFixing`; RamtrjPlayer.cpp:152-172. -/
def tryFixing (expected : Nat) (h : Header) (snapshotBytes : Nat) : Outcome (Header × FixReport) := do
  if h.numParticles = 0 ∨ h.cycleStep = 0 then do
    Outcome.require (decide (h.major = 1) && decide (h.minor = 0)) "Assert(header_.versionMajor == 1 && header_.versionMinor == 0)"
    .throw "The header does not contain information about the number of particles or cycle step"
  else if h.numParticles ≠ expected then .throw "Expected number of molecules != number of molecules in the input"
  else if snapshotSize h = 0 then .ub
  else
    return ({ h with numSnapshots := snapshotBytes / snapshotSize h },
      ⟨true, 0, snapshotBytes / snapshotSize h, snapshotBytes % snapshotSize h⟩)

/-- The constructor with fixing; RamtrjPlayer.cpp:22-44, with `AutoFix::AutoFix` and `AutoFix::reportNofix`, 132-142. -/
def openFix (file : List Byte) (expected : Nat) : Outcome (Player × FixReport) := do
  Outcome.require (decide (expected > 0)) "Expects(expectedNumMolecules > 0)"
  let (h, s) ← readHeader ((Stream.ofFile file).seek 0)
  let s := s.seekEnd
  if s.tell = snapshotOffset h h.numSnapshots then return (rewind h s, ⟨false, h.numSnapshots, h.numSnapshots, 0⟩)
  else do
    let (h, r) ← tryFixing expected h (u64 (s.tell - headerSize).toNat)
    return (rewind h s, r)

/-- `hasNext`; RamtrjPlayer.cpp:46-51. -/
def hasNext (p : Player) : Bool :=
  match p.stream with
  | none => false
  | some _ => decide (p.current < p.header.numSnapshots)

/-- Reading `n` shapes; RamtrjPlayer.cpp:60-61. -/
def readShapes (A : Arith) : Nat → Stream → Outcome (List ShapeW × Stream)
  | 0, s => .ok ([], s)
  | n + 1, s => do
    let (x, s) ← readShape A s
    let (l, s) ← readShapes A n s
    return (x :: l, s)

/-- `nextSnapshot`: what is passed to `packing.reset` and the player afterwards; RamtrjPlayer.cpp:53-66. `size` is the number
of molecules of the packing passed. -/
def nextSnapshot (A : Arith) (size : Nat) (p : Player) : Outcome (Snapshot × Player) := do
  Outcome.require p.hasNext "Expects(this->hasNext())"
  Outcome.require (decide (size = p.header.numParticles)) "Expects(packing.size() == this->header.numParticles)"
  match p.stream with
  | none => .ub
  | some s => do
    let (b, s) ← readBox A s
    let (l, s) ← readShapes A size s
    Outcome.require (A.resetOk b (l.map ShapeW.pos)) "Packing::reset"
    return (⟨b, l⟩, { p with stream := some s, current := p.current + 1 })

/-- `reset`; RamtrjPlayer.cpp:101-105. A closed player has a null pointer. -/
def reset (p : Player) : Outcome Player :=
  match p.stream with
  | none => .ub
  | some s => .ok (rewind p.header s)

/-- `jumpToSnapshot`; RamtrjPlayer.cpp:72-85. -/
def jumpToSnapshot (A : Arith) (size : Nat) (p : Player) (cycle : Nat) : Outcome (Snapshot × Player) :=
  match p.stream with
  | none => .throw "Expects(this->in != nullptr)"
  | some s => do
    Outcome.require (decide (p.header.numSnapshots > 0)) "Expects(this->header.numSnapshots > 0)"
    if p.header.cycleStep = 0 then .ub
    else do
      Outcome.require (decide (cycle % p.header.cycleStep = 0)) "Expects(cycleNumber % this->header.cycleStep == 0)"
      let n := cycle / p.header.cycleStep
      Outcome.require (decide (n > 0)) "Expects(snapshotNumber > 0)"
      Outcome.require (decide (n ≤ p.header.numSnapshots)) "Expects(snapshotNumber <= this->header.numSnapshots)"
      nextSnapshot A size { p with current := n - 1, stream := some (s.seek (snapshotOffset p.header (n - 1))) }

/-- `lastSnapshot`; RamtrjPlayer.cpp:68-70. -/
def lastSnapshot (A : Arith) (size : Nat) (p : Player) : Outcome (Snapshot × Player) :=
  p.jumpToSnapshot A size (u64 (p.header.numSnapshots * p.header.cycleStep))

/-- `getCurrentSnapshotCycles`; RamtrjPlayer.cpp:87-89. -/
def currentCycles (p : Player) : Nat := u64 (p.current * p.header.cycleStep)

/-- `getTotalCycles`; RamtrjPlayer.h:88-90. -/
def totalCycles (p : Player) : Nat := u64 (p.header.cycleStep * p.header.numSnapshots)

end Player

/-- `SimulationPlayer`: a `RamtrjPlayer` or a `TruncatedPlayer`; src/core/SimulationPlayer.h, TruncatedPlayer.h:18-19. -/
inductive AnyPlayer where
  | file (p : Player)
  | truncated (player : AnyPlayer) (totalCycles : Nat)

namespace AnyPlayer

/-- `getCurrentSnapshotCycles`; TruncatedPlayer.h:31. -/
def currentCycles : AnyPlayer → Nat
  | .file p => p.currentCycles
  | .truncated p _ => p.currentCycles

/-- `getTotalCycles`; TruncatedPlayer.cpp:46-48. -/
def totalCycles : AnyPlayer → Nat
  | .file p => p.totalCycles
  | .truncated _ t => t

/-- `getCycleStep`; RamtrjPlayer.h:91, TruncatedPlayer.h:32. -/
def cycleStep : AnyPlayer → Nat
  | .file p => p.header.cycleStep
  | .truncated p _ => p.cycleStep

/-- `getNumMolecules`; RamtrjPlayer.h:92, TruncatedPlayer.h:33. -/
def numMolecules : AnyPlayer → Nat
  | .file p => p.header.numParticles
  | .truncated p _ => p.numMolecules

/-- `reset`; TruncatedPlayer.h:30. -/
def reset : AnyPlayer → Outcome AnyPlayer
  | .file p => do
    let p ← p.reset
    return .file p
  | .truncated p t => do
    let p ← p.reset
    return .truncated p t

/-- `hasNext`; TruncatedPlayer.cpp:18-23. -/
def hasNext : AnyPlayer → Bool
  | .file p => p.hasNext
  | .truncated p t => if !p.hasNext then false else decide (p.currentCycles < t)

/-- `nextSnapshot`; TruncatedPlayer.cpp:25-30. -/
def nextSnapshot (A : Arith) (size : Nat) : AnyPlayer → Outcome (Snapshot × AnyPlayer)
  | .file p => do
    let (x, p) ← p.nextSnapshot A size
    return (x, .file p)
  | .truncated p t => do
    Outcome.require (!decide (p.currentCycles ≥ t)) "TruncatedPlayer::nextSnapshot: the end already reached"
    let (x, p) ← p.nextSnapshot A size
    return (x, .truncated p t)

/-- `jumpToSnapshot`; TruncatedPlayer.cpp:36-41. -/
def jumpToSnapshot (A : Arith) (size : Nat) (cycle : Nat) : AnyPlayer → Outcome (Snapshot × AnyPlayer)
  | .file p => do
    let (x, p) ← p.jumpToSnapshot A size cycle
    return (x, .file p)
  | .truncated p t => do
    Outcome.require (!decide (cycle > t)) "TruncatedPlayer::jumpToSnapshot: jumping above the limit"
    let (x, p) ← p.jumpToSnapshot A size cycle
    return (x, .truncated p t)

/-- `lastSnapshot`; TruncatedPlayer.cpp:32-34. -/
def lastSnapshot (A : Arith) (size : Nat) : AnyPlayer → Outcome (Snapshot × AnyPlayer)
  | .file p => do
    let (x, p) ← p.lastSnapshot A size
    return (x, .file p)
  | .truncated p t => do
    let (x, p) ← p.jumpToSnapshot A size t
    return (x, .truncated p t)

/-- The constructor of `TruncatedPlayer`; TruncatedPlayer.cpp:9-16. -/
def truncate (p : AnyPlayer) (total : Nat) : Outcome AnyPlayer := do
  Outcome.require (decide (total ≤ p.totalCycles)) "Expects(totalCycles <= this->player->getTotalCycles())"
  if p.cycleStep = 0 then .ub
  else do
    Outcome.require (decide (total % p.cycleStep = 0)) "Expects(totalCycles % this->player->getCycleStep() == 0)"
    let p ← p.reset
    return .truncated p total

end AnyPlayer

end Traj

end Rampack
