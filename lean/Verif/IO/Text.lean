import Verif.Outcome
import Verif.IO.Bytes
/-
Model of formatted text input and output: what `std::istream` of libstdc++ does in the operations which are used.
-/
namespace Rampack

/-- Text; characters of type `char`. -/
abbrev Text := List Char

/-- `isspace` in the "C" locale. -/
def isSpace (c : Char) : Bool :=
  c == ' ' || c == '\t' || c == '\n' || c == '\x0b' || c == '\x0c' || c == '\r'

/-- Digits. -/
def isDec (c : Char) : Bool := '0' ≤ c && c ≤ '9'

/-- The value of a digit. -/
def digitVal (c : Char) : Nat := c.toNat - '0'.toNat

/-- The digit of a value below 10. -/
def digitChar (n : Nat) : Char := Char.ofNat ('0'.toNat + n)

/-- `out << n` for unsigned integers. -/
def natText (n : Nat) : Text :=
  if n < 10 then [digitChar n] else natText (n / 10) ++ [digitChar (n % 10)]

/-- The value of a sequence of digits. -/
def textNat (t : Text) : Nat := t.foldl (fun n c => 10 * n + digitVal c) 0

/-- An input stream: what is left to be read and its flags. -/
@[ext] structure TextIn where
  rest : Text
  eof : Bool
  fail : Bool

namespace TextIn

/-- A stream at the beginning. -/
def ofText (t : Text) : TextIn := ⟨t, false, false⟩

/-- `good()`. -/
def good (s : TextIn) : Bool := !s.eof && !s.fail

/-- The flags after reading up to the given place. -/
def left (t : Text) : TextIn := ⟨t, t.isEmpty, false⟩

/-- `in >> std::ws` (the variant with a sentry, as in C++11). -/
def ws (s : TextIn) : TextIn :=
  if s.good then left (s.rest.dropWhile isSpace) else { s with fail := true }

/-- The sentry of formatted input: skips white space; `none` if nothing can be read. -/
def sentry (s : TextIn) : Option Text × TextIn :=
  if s.good then
    match s.rest.dropWhile isSpace with
    | [] => (none, ⟨[], true, true⟩)
    | c :: t => (some (c :: t), ⟨c :: t, false, false⟩)
  else (none, { s with fail := true })

/-- `in >> std::string`. -/
def word (s : TextIn) : Text × TextIn :=
  match s.sentry with
  | (none, s) => ([], s)
  | (some t, _) => (t.takeWhile (!isSpace ·), left (t.dropWhile (!isSpace ·)))

/-- `std::getline` with the delimiter '\n'. -/
def getline (s : TextIn) : Text × TextIn :=
  if s.good then
    match s.rest.dropWhile (· != '\n') with
    | [] => (s.rest, ⟨[], true, s.rest.isEmpty⟩)
    | _ :: t => (s.rest.takeWhile (· != '\n'), ⟨t, false, false⟩)
  else ([], { s with fail := true })

/-- `in >> std::size_t`: an optional sign and digits; a value which does not fit is an error. A minus sign negates modulo 2^64. -/
def nat (s : TextIn) : Nat × TextIn :=
  match s.sentry with
  | (none, s) => (0, s)
  | (some t, _) =>
    let neg := t.head? == some '-'
    let t := if neg || t.head? == some '+' then t.tail else t
    let d := t.takeWhile isDec
    let r := t.dropWhile isDec
    if d.isEmpty then (0, ⟨r, r.isEmpty, true⟩)
    else if 2 ^ 64 ≤ textNat d then (2 ^ 64 - 1, ⟨r, r.isEmpty, true⟩)
    else (if neg then u64 (2 ^ 64 - textNat d) else textNat d, left r)

/-- Characters taken by `in >> double` from some place on: `sgn` tells if a sign may come now (at the beginning and after the exponent
letter); `mant`, `dec` and `sci` tell if there was a digit, the point and the exponent letter. -/
def scan (sgn mant dec sci : Bool) : Text → Text × Text
  | [] => ([], [])
  | c :: t =>
    if sgn && (c == '+' || c == '-') then
      let r := scan false mant dec sci t
      (c :: r.1, r.2)
    else if c == '.' then
      if !dec && !sci then
        let r := scan false mant true sci t
        (c :: r.1, r.2)
      else ([], c :: t)
    else if isDec c then
      let r := scan false true dec sci t
      (c :: r.1, r.2)
    else if (c == 'e' || c == 'E') && !sci && mant then
      let r := scan true mant dec true t
      (c :: r.1, r.2)
    else ([], c :: t)

/-- Characters taken by `in >> double`. -/
def scanDouble (t : Text) : Text × Text := scan true false false false t

/-- `in >> double`; `read` converts the characters taken (`strtod`), with `none` for those which are not a number. Leading zeros, which are
dropped by the library beforehand, are left to `read`. -/
def double (read : Text → Option Word) (s : TextIn) : Word × TextIn :=
  match s.sentry with
  | (none, s) => (0, s)
  | (some t, _) =>
    let r := scanDouble t
    match read r.1 with
    | none => (0, ⟨r.2, r.2.isEmpty, true⟩)
    | some w => (w, left r.2)

/-- Three numbers in a row. -/
def doubles3 (read : Text → Option Word) (s : TextIn) : Word × Word × Word × TextIn :=
  let (a, s) := s.double read
  let (b, s) := s.double read
  let (c, s) := s.double read
  (a, b, c, s)

/-- `ParseUtils::isAnythingLeft`; src/utils/ParseUtils.cpp:40-45. -/
def isAnythingLeft (s : TextIn) : Bool × TextIn :=
  if !s.good then (false, s)
  else (s.ws.good, s.ws)

end TextIn

/-- Conversion of numbers of type `double` to text (with 17 significant digits) and back. -/
structure Numbers where
  print : Word → Text
  read : Text → Option Word

end Rampack
