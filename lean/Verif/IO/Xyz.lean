import Verif.IO.TextFile
import Verif.IO.Ramtrj
/-
Model of recording trajectories in the XYZ format: /repo/src/core/io/XYZWriter.cpp, XYZRecorder.cpp.

Numbers of type `double` are given by their bits, `print` gives their text (the default precision). Changing rotation matrices to quaternions
(`quat`) is given from outside.
-/
namespace Rampack

namespace Xyz

open Traj

/-- How numbers are printed and matrices changed to quaternions. -/
structure Format where
  print : Word → Text
  quat : MatW → Word × Word × Word × Word

/-- The matrix of the box, column by column; XYZWriter.cpp:26-28. -/
def lattice (F : Format) (m : MatW) : Text :=
  F.print m.x.x ++ [' '] ++ F.print m.y.x ++ [' '] ++ F.print m.z.x ++ [' '] ++
  (F.print m.x.y ++ [' '] ++ F.print m.y.y ++ [' '] ++ F.print m.z.y ++ [' ']) ++
  (F.print m.x.z ++ [' '] ++ F.print m.y.z ++ [' '] ++ F.print m.z.z)

/-- The line of `storeHeader` with the box, with the only entry of the auxiliary information; XYZWriter.cpp:25-31, 34-47, XYZRecorder.cpp:14-15. -/
def infoLine (F : Format) (m : MatW) (cycle : Nat) : Text :=
  "Lattice=\"".toList ++ lattice F m ++ "\" Properties=species:S:1:pos:R:3:orientation:R:4".toList ++ " cycles=".toList ++ natText cycle

/-- A line of `storeShapes`; XYZWriter.cpp:51-57. -/
def shapeLine (F : Format) (s : ShapeW) : Text :=
  "A ".toList ++ (F.print s.pos.x ++ [' '] ++ F.print s.pos.y ++ [' '] ++ F.print s.pos.z ++ [' ']) ++
  (F.print (F.quat s.rot).1 ++ [' '] ++ F.print (F.quat s.rot).2.1 ++ [' '] ++ F.print (F.quat s.rot).2.2.1 ++ [' '] ++ F.print (F.quat s.rot).2.2.2)

/-- `write`; XYZWriter.cpp:9-14. -/
def write (F : Format) (x : Snapshot) (cycle : Nat) : Text :=
  natText x.shapes.length ++ ['\n'] ++ (infoLine F x.box cycle ++ ['\n']) ++ x.shapes.flatMap (fun s => shapeLine F s ++ ['\n'])

/-- `std::string::find`: the first place where the text is. -/
def find (what : Text) : Text → Option Nat
  | [] => if what = [] then some 0 else none
  | c :: t => if what.isPrefixOf (c :: t) then some 0 else (find what t).map (· + 1)

/-- The number after `cycles=` in a line; XYZRecorder.cpp:41-50. -/
def cyclesIn (line : Text) : Outcome Nat :=
  match find "cycles=".toList line with
  | none => .throw "Cannot read last snapshot number - malformed XYZ stream"
  | some p => do
    let (n, s) := (TextIn.ofText (line.drop (p + 7))).nat
    Outcome.require (!s.fail) "Cannot read last snapshot number - malformed XYZ stream"
    return n

/-- The loop of `findLastCycleNumber`; XYZRecorder.cpp:37-55. The first argument bounds the number of turns, see `findLast`. -/
def findLoop : Nat → TextFile → Outcome (Nat × TextFile)
  | 0, _ => .diverge
  | k + 1, f => do
    let (line, f) ← f.getlineBackwards
    if f.fail then .throw "Cannot read last snapshot number - malformed XYZ stream"
    else if "Lattice".toList.isPrefixOf line then do
      let n ← cyclesIn line
      return (n, f)
    else findLoop k f

/-- `findLastCycleNumber`; XYZRecorder.cpp:34-56. In each turn the position goes back. -/
def findLast (f : TextFile) : Outcome (Nat × TextFile) := findLoop (f.text.length + 1) f.seekEnd

/-- `XYZRecorder`. -/
structure Recorder where
  file : TextFile
  last : Nat

/-- The constructor; XYZRecorder.cpp:20-32. -/
def create (f : TextFile) (append : Bool) : Outcome Recorder :=
  if append then
    if f.seekEnd.pos ≠ 0 then do
      let (n, f) ← findLast f.seekEnd
      return ⟨f, n⟩
    else .ok ⟨f.seekEnd, 0⟩
  else do
    Outcome.require (decide (f.seekEnd.pos = 0)) "XYZRecorder: append = false however stream is not empty"
    return ⟨f.seekEnd, 0⟩

/-- `recordSnapshot`; XYZRecorder.cpp:11-18. -/
def record (F : Format) (r : Recorder) (x : Snapshot) (cycle : Nat) : Recorder := ⟨r.file.write (write F x cycle), cycle⟩

end Xyz

end Rampack
