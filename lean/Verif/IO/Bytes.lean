import Verif.Outcome
/-
Model of binary streams: what /repo uses of `std::istream`, `std::ostream` and `std::iostream` (read, write, seekg, seekp, tellg,
tellp and the fail bit) in /repo/src/core/io/Ramtrj*.cpp.

Simplifications: writing always succeeds (no full disks). The get and put positions are one (as in files); the code sets the position
before it changes from reading to writing. Bytes go to the file in the order in which they are written.
-/
namespace Rampack

/-- A byte. -/
abbrev Byte := Fin 256

/-- The 64 bits of a `double`; not interpreted in this part of the model. -/
abbrev Word := BitVec 64

/-- Arithmetic of `std::size_t`. -/
def u64 (n : Nat) : Nat := n % 2 ^ 64

/-- The little-endian representation of an unsigned number on `k` bytes. -/
def leBytes : Nat → Nat → List Byte
  | 0, _ => []
  | k + 1, n => ⟨n % 256, Nat.mod_lt _ (by decide)⟩ :: leBytes k (n / 256)

/-- The unsigned number with the given little-endian representation. -/
def leVal : List Byte → Nat
  | [] => 0
  | b :: l => b.val + 256 * leVal l

/-- A binary stream: its contents, position and fail bit. `trace` is the sequence of bytes written so far with their
places; it is not used by the program. -/
structure Stream where
  bytes : List Byte
  pos : Nat
  fail : Bool
  trace : List (Nat × Byte)

/-- One byte stored in a file: replaced, or appended at the end. Gaps left by seeking beyond the end, which are filled with zeros,
do not arise. -/
def putByte (file : List Byte) (w : Nat × Byte) : List Byte :=
  if w.1 < file.length then file.set w.1 w.2 else file ++ [w.2]

namespace Stream

/-- `in.read(buffer, n)`: what is read (`none` if there is an error; this sets the fail bit) and the stream afterwards. -/
def read (s : Stream) (n : Nat) : Option (List Byte) × Stream :=
  if s.fail then (none, s)
  else if s.pos + n ≤ s.bytes.length then (some ((s.bytes.drop s.pos).take n), { s with pos := s.pos + n })
  else (none, { s with pos := s.bytes.length, fail := true })

/-- Bytes and the places they are written at. -/
def places (pos : Nat) : List Byte → List (Nat × Byte)
  | [] => []
  | b :: l => (pos, b) :: places (pos + 1) l

/-- `out.write(buffer, n)`. -/
def write (s : Stream) (data : List Byte) : Stream :=
  if s.fail then s
  else
    { s with
      bytes := (places s.pos data).foldl putByte s.bytes
      pos := s.pos + data.length
      trace := s.trace ++ places s.pos data }

/-- `seekg(offset)`, `seekp(offset)`. -/
def seek (s : Stream) (offset : Int) : Stream :=
  if s.fail then s else if offset < 0 then { s with fail := true } else { s with pos := offset.toNat }

/-- `seekg(0, std::ios_base::end)`, `seekp(0, std::ios_base::end)`. -/
def seekEnd (s : Stream) : Stream := if s.fail then s else { s with pos := s.bytes.length }

/-- `tellg()`, `tellp()`. -/
def tell (s : Stream) : Int := if s.fail then -1 else s.pos

/-- A file just opened. -/
def ofFile (file : List Byte) : Stream := ⟨file, 0, false, []⟩

end Stream

end Rampack
