import Verif.IO.Ramtrj
/-
Specification of recording and playing trajectories (C30 - C33).
-/
namespace Rampack

namespace Spec

open Traj

/-- What one can ask a player for. -/
inductive Visit where
  | next
  | reset
  | jump (cycle : Nat)
  | last

/-- A player of a list of frames, one every `step` cycles, of which `cur` is the number of the current one (0 is before the first one):
what a visit shows and the number afterwards; `none` if the visit is not possible. -/
def visit (frames : List Snapshot) (step cur : Nat) : Visit → Option (Option Snapshot × Nat)
  | .next => if cur < frames.length then some (frames[cur]?, cur + 1) else none
  | .reset => some (none, 0)
  | .jump c => if c % step = 0 ∧ 0 < c ∧ c / step ≤ frames.length then some (frames[c / step - 1]?, c / step) else none
  | .last => if 0 < frames.length then some (frames[frames.length - 1]?, frames.length) else none

/-- A sequence of visits. -/
def visits (frames : List Snapshot) (step : Nat) : Nat → List Visit → Option (List (Option Snapshot) × Nat)
  | cur, [] => some ([], cur)
  | cur, v :: vs =>
    match visit frames step cur v with
    | none => none
    | some (x, cur) =>
      match visits frames step cur vs with
      | none => none
      | some (l, cur) => some (x :: l, cur)

/-- A visit done by a player with a packing of `size` molecules. -/
def perform (A : Arith) (size : Nat) (p : AnyPlayer) : Visit → Outcome (Option Snapshot × AnyPlayer)
  | .next => do
    let (x, p) ← p.nextSnapshot A size
    return (some x, p)
  | .reset => do
    let p ← p.reset
    return (none, p)
  | .jump c => do
    let (x, p) ← p.jumpToSnapshot A size c
    return (some x, p)
  | .last => do
    let (x, p) ← p.lastSnapshot A size
    return (some x, p)

/-- A sequence of visits done by a player. -/
def performAll (A : Arith) (size : Nat) : AnyPlayer → List Visit → Outcome (List (Option Snapshot) × AnyPlayer)
  | p, [] => .ok ([], p)
  | p, v :: vs => do
    let (x, p) ← perform A size p v
    let (l, p) ← performAll A size p vs
    return (x :: l, p)

/-- The player presents the frames: it reports the right numbers; all possible sequences of visits show the right frames with the right
cycle numbers; all other sequences end in an exception. -/
structure Presents (A : Arith) (p : AnyPlayer) (molecules step : Nat) (frames : List Snapshot) : Prop where
  numMolecules : p.numMolecules = molecules
  cycleStep : p.cycleStep = step
  total : p.totalCycles = frames.length * step
  shows : ∀ vs l cur, visits frames step 0 vs = some (l, cur) → ∃ p', performAll A molecules p vs = .ok (l, p') ∧
    p'.currentCycles = cur * step ∧ p'.hasNext = decide (cur < frames.length)
  refuses : ∀ vs, visits frames step 0 vs = none → ∃ m, performAll A molecules p vs = .throw m

/-- A packing which can be recorded: with the right number of molecules, orientations which are rotation matrices, and a box and
positions which can be loaded. -/
structure Recordable (A : Arith) (molecules : Nat) (x : Snapshot) : Prop where
  size : x.shapes.length = molecules
  box : A.boxOk x.box = true
  reset : A.resetOk x.box (x.shapes.map ShapeW.pos) = true
  rotations : ∀ s ∈ x.shapes, ∃ a, A.angles s.rot = .ok a

/-- What is played back for a shape: the position is the same bits, the orientation is computed from its Euler angles. -/
def readShapeBack (A : Arith) (s : ShapeW) : ShapeW := ⟨s.pos, match A.angles s.rot with | .ok a => A.rotation a | _ => s.rot⟩

/-- What is played back: the box is the same bits, too. -/
def readBack (A : Arith) (x : Snapshot) : Snapshot := ⟨x.box, x.shapes.map (readShapeBack A)⟩

/-- Recording some frames, in turn. -/
def recordAll (A : Arith) : Recorder → List Snapshot → Outcome Recorder
  | r, [] => .ok r
  | r, x :: l => do
    let r ← r.recordSnapshot A x (r.lastCycle + r.cycleStep)
    recordAll A r l

/-- A recording session: opening, recording, closing. -/
def session (A : Arith) (file : List Byte) (molecules step : Nat) (append : Bool) (l : List Snapshot) : Outcome Recorder := do
  let r ← Recorder.make file molecules step append
  let r ← recordAll A r l
  return r.close

/-- The file after sessions; the first one creates it and others append to it. -/
def sessions (A : Arith) (molecules step : Nat) : List Byte → Bool → List (List Snapshot) → Outcome (List Byte)
  | file, _, [] => .ok file
  | file, append, l :: ls => do
    let r ← session A file molecules step append l
    sessions A molecules step r.stream.bytes true ls

/-- The file if the machine stops after writing `k` bytes. -/
def crashed (file : List Byte) (trace : List (Nat × Byte)) (k : Nat) : List Byte := (trace.take k).foldl putByte file

/-- The number of bytes of the header. -/
def headerLength : Nat := 33

/-- The number of bytes of a snapshot. -/
def frameLength (molecules : Nat) : Nat := 72 + 48 * molecules

/-- Numbers which fit in the types used: file sizes in `std::streamoff`, cycle numbers in `std::size_t`. -/
structure Fits64 (molecules step frames : Nat) : Prop where
  molecules_pos : 0 < molecules
  step_pos : 0 < step
  step_lt : step < 2 ^ 64
  size : headerLength + frames * frameLength molecules < 2 ^ 63
  molecules_lt : molecules < 2 ^ 57
  cycles : frames * step < 2 ^ 64

end Spec

end Rampack
