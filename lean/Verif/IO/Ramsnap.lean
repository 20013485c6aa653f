import Verif.IO.Text
import Verif.IO.Ramtrj
/-
Model of RAMSNAP snapshots: /repo/src/core/io/RamsnapWriter.{h,cpp}, RamsnapReader.{h,cpp}.

As for trajectories, numbers of type `double` are their 64 bits. Their conversion to text and back is given from outside (`Numbers`).
`std::map<std::string, std::string>` is the list of its entries in the order of keys. If an exception is thrown while writing, what was
already written is omitted.
-/
namespace Rampack

namespace Ramsnap

open Traj

/-- `std::map<std::string, std::string>`. -/
abbrev Aux := List (Text × Text)

/-- `map[key] = value`. -/
def setEntry (k v : Text) : Aux → Aux
  | [] => [(k, v)]
  | (k', v') :: l =>
    if k < k' then (k, v) :: (k', v') :: l
    else if k = k' then (k, v) :: l
    else (k', v') :: setEntry k v l

/-- `map.find(key)`. -/
def findEntry (k : Text) (m : Aux) : Option Text := (m.find? (fun e => decide (e.1 = k))).map Prod.snd

/-- Three numbers separated by spaces. -/
def vecText (P : Numbers) (v : Vec3 Word) : Text := P.print v.x ++ [' '] ++ P.print v.y ++ [' '] ++ P.print v.z

/-- Nine numbers, row by row. -/
def matText (P : Numbers) (m : MatW) : Text := vecText P m.x ++ [' '] ++ vecText P m.y ++ [' '] ++ vecText P m.z

/-- Entries of `storeAuxInfo`; RamsnapWriter.cpp:19-24. -/
def auxEntries : Aux → Outcome Text
  | [] => .ok []
  | (k, v) :: l => do
    Outcome.require (k.all (!isSpace ·)) "Expects(std::none_of(key.begin(), key.end(), isspace))"
    let t ← auxEntries l
    return k ++ [' '] ++ v ++ ['\n'] ++ t

/-- `storeAuxInfo`; RamsnapWriter.cpp:17-25. -/
def auxText (m : Aux) : Outcome Text := do
  let t ← auxEntries m
  return natText m.length ++ ['\n'] ++ t

/-- `storeBox`; RamsnapWriter.cpp:27-32. -/
def boxText (P : Numbers) (b : MatW) : Text := matText P b ++ ['\n']

/-- A line of `storeShapes`; RamsnapWriter.cpp:40-45. -/
def shapeText (P : Numbers) (s : ShapeW) : Text := vecText P s.pos ++ List.replicate 8 ' ' ++ matText P s.rot ++ ['\n']

/-- `storeShapes`; RamsnapWriter.cpp:34-47. -/
def shapesText (P : Numbers) (l : List ShapeW) : Text := natText l.length ++ ['\n'] ++ l.flatMap (shapeText P)

/-- `write`; RamsnapWriter.cpp:8-15. -/
def write (P : Numbers) (x : Snapshot) (m : Aux) : Outcome Text := do
  let t ← auxText m
  return t ++ boxText P x.box ++ shapesText P x.shapes

/-- The loop of `restoreAuxInfo`, with `i` entries already read; RamsnapReader.cpp:51-58. -/
def readEntries : Nat → Aux → TextIn → Outcome (Aux × TextIn)
  | 0, m, s => .ok (m, s)
  | n + 1, m, s => do
    let (k, s) := s.word
    let (v, s) := s.ws.getline
    Outcome.require (!s.fail) "Broken RAMSNAP file: aux info entry"
    readEntries n (setEntry k v m) s

/-- `restoreAuxInfo`; RamsnapReader.cpp:46-61. -/
def readAux (s : TextIn) : Outcome (Aux × TextIn) := do
  let (n, s) := s.nat
  Outcome.require (!s.fail) "Broken RAMSNAP file: aux info size"
  readEntries n [] s

/-- The second and the third row of the box; RamsnapReader.cpp:85-87. -/
def parseRows (P : Numbers) (r : Vec3 Word) (s : TextIn) : Outcome MatW := do
  let (d, e, f, s) := s.doubles3 P.read
  let (g, h, i, s) := s.doubles3 P.read
  Outcome.require (!s.fail) "Broken RAMSNAP file: dimensions"
  return ⟨r, ⟨d, e, f⟩, ⟨g, h, i⟩⟩

/-- The old or the new format; RamsnapReader.cpp:75-88. -/
def parseFormat (P : Numbers) (r : Vec3 Word) : Bool × TextIn → Outcome MatW
  | (false, _) => .ok ⟨⟨r.x, 0, 0⟩, ⟨0, r.y, 0⟩, ⟨0, 0, r.z⟩⟩
  | (true, s) => parseRows P r s

/-- The matrix of the box from the text of its line; RamsnapReader.cpp:68-88. -/
def parseBox (P : Numbers) (line : Text) : Outcome MatW := do
  let (a, b, c, s) := (TextIn.ofText line).doubles3 P.read
  Outcome.require (!s.fail) "Broken RAMSNAP file: dimensions"
  parseFormat P ⟨a, b, c⟩ s.isAnythingLeft

/-- `restoreBox`; RamsnapReader.cpp:63-93. The constructor of the box and the check of its volume are `boxOk`. -/
def readBox (A : Arith) (P : Numbers) (s : TextIn) : Outcome (MatW × TextIn) := do
  let (line, s) := s.getline
  Outcome.require (!s.fail) "Broken RAMSNAP file: dimensions"
  let b ← parseBox P line
  Outcome.require (A.boxOk b) "Broken RAMSNAP file: zero box volume"
  return (b, s)

/-- One shape of `restoreShapes`; RamsnapReader.cpp:33-41. -/
def readShape (P : Numbers) (s : TextIn) : Outcome (ShapeW × TextIn) := do
  let (px, py, pz, s) := s.doubles3 P.read
  let (a, b, c, s) := s.doubles3 P.read
  let (d, e, f, s) := s.doubles3 P.read
  let (g, h, i, s) := s.doubles3 P.read
  Outcome.require (!s.fail) "Broken RAMSNAP file: shape"
  return (⟨⟨px, py, pz⟩, ⟨⟨a, b, c⟩, ⟨d, e, f⟩, ⟨g, h, i⟩⟩⟩, s)

/-- The loop of `restoreShapes`; RamsnapReader.cpp:32-42. -/
def readShapeList (P : Numbers) : Nat → TextIn → Outcome (List ShapeW × TextIn)
  | 0, s => .ok ([], s)
  | n + 1, s => do
    let (x, s) ← readShape P s
    let (l, s) ← readShapeList P n s
    return (x :: l, s)

/-- `restoreShapes`; RamsnapReader.cpp:25-44. Running out of memory when the place for shapes is reserved is not modelled. -/
def readShapes (P : Numbers) (s : TextIn) : Outcome (List ShapeW × TextIn) := do
  let (n, s) := s.nat
  Outcome.require (!s.fail) "Broken RAMSNAP file: size"
  readShapeList P n s

/-- `read`: the auxiliary information and what is passed to `Packing::reset`; RamsnapReader.cpp:15-23. -/
def read (A : Arith) (P : Numbers) (t : Text) : Outcome (Aux × Snapshot) := do
  let (m, s) ← readAux (.ofText t)
  let (b, s) ← readBox A P s
  let (l, _) ← readShapes P s
  Outcome.require (A.resetOk b (l.map ShapeW.pos)) "Packing::reset"
  return (m, ⟨b, l⟩)

end Ramsnap

end Rampack
