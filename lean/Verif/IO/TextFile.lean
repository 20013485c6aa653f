import Verif.IO.Text
/-
Model of `std::fstream` open for reading and writing, with a text inside, and of reading lines backwards:
/repo/src/utils/GetlineBackwards.cpp.

A file has one position, common for reading and writing (`std::basic_filebuf`; contrary to `std::stringbuf`). The badbit is omitted.
-/
namespace Rampack

/-- A file: what is in it, the position and the flags of the stream. -/
@[ext] structure TextFile where
  text : Text
  pos : Nat
  eof : Bool
  fail : Bool

namespace TextFile

/-- `good()`. -/
def good (s : TextFile) : Bool := !s.eof && !s.fail

/-- A file just opened with `std::ios::ate`. -/
def openAte (t : Text) : TextFile := ⟨t, t.length, false, false⟩

/-- `seekg(0, std::ios::end)`: it clears the eofbit (since C++11). -/
def seekEnd (s : TextFile) : TextFile :=
  if s.fail then { s with eof := false } else ⟨s.text, s.text.length, false, false⟩

/-- `seekg(p)` to an existing position. -/
def seekTo (p : Nat) (s : TextFile) : TextFile :=
  if s.fail then { s with eof := false } else ⟨s.text, p, false, false⟩

/-- `tellg()`: with any flag set it sets the failbit and gives -1 (`none`). -/
def tellg (s : TextFile) : Option Nat × TextFile :=
  if s.good then (some s.pos, s) else (none, { s with fail := true })

/-- Reading operations on what is in front of the position. -/
def toIn (s : TextFile) : TextIn := ⟨s.text.drop s.pos, s.eof, s.fail⟩

/-- The file after a reading operation. -/
def ofIn (s : TextFile) (t : TextIn) : TextFile := ⟨s.text, s.text.length - t.rest.length, t.eof, t.fail⟩

/-- `std::getline` with the delimiter '\n'. -/
def getline (s : TextFile) : Text × TextFile := (s.toIn.getline.1, s.ofIn s.toIn.getline.2)

/-- `out << t`: the characters at the position are replaced. -/
def write (t : Text) (s : TextFile) : TextFile :=
  if s.good then ⟨s.text.take s.pos ++ t ++ s.text.drop (s.pos + t.length), s.pos + t.length, false, false⟩ else { s with fail := true }

/-- The loop looking for the place before the line, `p` being the position; GetlineBackwards.cpp:22-30. At the position 0 `seekg(-1, cur)` fails
and the loop never ends. -/
def findBefore (t : Text) : Nat → Outcome Nat
  | 0 => .diverge
  | p + 1 => if p = 0 ∨ t[p]? = some '\n' then .ok p else findBefore t p

/-- Where the line begins if `p` is the place before it; GetlineBackwards.cpp:32-33. -/
def lineStart (t : Text) (p : Nat) : Nat := if t[p]? = some '\n' then p + 1 else p

/-- The line is read and the position is set in front of it; GetlineBackwards.cpp:35-40. The eofbit which is set at the end of the file is cleared
by `seekg`. -/
def takeLine (s : TextFile) (p : Nat) : Text × TextFile :=
  if lineStart s.text p < s.text.length then
    ((getline ⟨s.text, lineStart s.text p, false, false⟩).1, (getline ⟨s.text, lineStart s.text p, false, false⟩).2.seekTo p)
  else ([], ⟨s.text, p, false, false⟩)

/-- `GetlineBackwards::getline`; GetlineBackwards.cpp:8-41. -/
def getlineBackwards (s : TextFile) : Outcome (Text × TextFile) :=
  if s.fail then .ok ([], s)
  else if s.tellg.1 = some 0 then .ok ([], { s with fail := true })
  else do
    let p ← findBefore s.text s.pos
    return takeLine s p

end TextFile

end Rampack
