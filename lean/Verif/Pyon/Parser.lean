import Verif.IO.Text
import Mathlib.Algebra.Order.Ring.Unbundled.Rat
import Mathlib.Data.Rat.Defs
/-
Model of the parser of PYON expressions, /repo/src/pyon/Parser.{h,cpp}, and of the nodes it makes, /repo/src/pyon/Node*.{h,cpp}.

The position `idx` in the text is replaced by the text which is left. Exceptions carry the message without the position. Characters are taken
to be ASCII. `strtol` and `strtod` are modelled after the C17 standard; the conversion of the exact value of a floating-point literal to
`double` is the parameter `conv`, which gives nothing when `strtod` sets ERANGE.
-/
namespace Rampack.Pyon

/-- The nodes; Node.h:22-33, NodeLiteral.h, NodeArray.h, NodeDictionary.h, NodeDataclass.h. Dictionaries keep their entries in the order of
creation. -/
inductive Node (F : Type) where
  | int (i : Int)
  | float (d : F)
  | boolean (b : Bool)
  | none
  | string (s : Text)
  | array (elems : List (Node F))
  | dictionary (entries : List (Text × Node F))
  | dataclass (name : Text) (positional : List (Node F)) (keyword : List (Text × Node F))

/-- `ws` with `eatComment`; Parser.cpp:303-327. The flag tells that a comment is being skipped; the end of line which ends a comment is
white space itself. -/
def skip : Bool → Text → Text
  | _, [] => []
  | true, c :: t => if c = '\n' then skip false t else skip true t
  | false, c :: t => if isSpace c then skip false t else if c = '#' then skip true t else c :: t

/-- `ws`; Parser.cpp:308-327. -/
def ws (t : Text) : Text := skip false t

/-- `isalpha`. -/
def isAlpha (c : Char) : Bool := ('a' ≤ c && c ≤ 'z') || ('A' ≤ c && c ≤ 'Z')

/-- `isFirstNameChar`; Parser.cpp:269. -/
def isFirst (c : Char) : Bool := isAlpha c || c == '_'

/-- `isNameChar`; Parser.cpp:274. -/
def isName (c : Char) : Bool := isAlpha c || isDec c || c == '_'

/-- `parseIdentifier`; Parser.cpp:266-279. -/
def identifier : Text → Option (Text × Text)
  | [] => none
  | c :: t => if isFirst c then some (c :: t.takeWhile isName, t.dropWhile isName) else none

/-- The character which is written as a backslash and the one given; Parser.cpp:162-173. -/
def escape (e : Char) : Option Char :=
  if e = '\\' then some '\\' else if e = '"' then some '"' else if e = 'n' then some '\n' else if e = 't' then some '\t' else none

/-- `parseString` after the opening quote; Parser.cpp:149-180. -/
def stringBody : Text → Outcome (Text × Text)
  | [] => .throw "unexpected EOF while parsing string"
  | c :: t =>
    if c = '"' then .ok ([], t)
    else if c = '\\' then
      match t with
      | [] => .throw "unexpected EOF after backslash"
      | e :: t =>
        match escape e with
        | some c => do
          let (s, r) ← stringBody t
          pure (c :: s, r)
        | none => .throw "character cannot follow backslash"
    else do
      let (s, r) ← stringBody t
      pure (c :: s, r)

/-! ### Numbers -/

/-- Hexadecimal digits. -/
def isHex (c : Char) : Bool := isDec c || ('a' ≤ c && c ≤ 'f') || ('A' ≤ c && c ≤ 'F')

/-- The value of a digit. -/
def hexVal (c : Char) : Nat := if isDec c then c.toNat - '0'.toNat else if 'a' ≤ c then c.toNat - 'a'.toNat + 10 else c.toNat - 'A'.toNat + 10

/-- The digits of the given base. -/
def isDigit (base : Nat) (c : Char) : Bool := isHex c && decide (hexVal c < base)

/-- The value of digits. -/
def value (base : Nat) (t : Text) : Nat := t.foldl (fun n c => base * n + hexVal c) 0

/-- An optional sign: is it the minus, and the rest. -/
def takeSign : Text → Bool × Text
  | [] => (false, [])
  | c :: t => if c = '-' then (true, t) else if c = '+' then (false, t) else (false, c :: t)

/-- Negation on demand. -/
def negIf {α : Type} [Neg α] (neg : Bool) (a : α) : α := if neg then -a else a

/-- The text after `0x` or `0X`, if it is there. -/
def after0x : Text → Option Text
  | z :: x :: t => if z = '0' ∧ (x = 'x' ∨ x = 'X') then some t else none
  | _ => none

/-- A text begins with a digit. -/
def startsWithDigit (base : Nat) : Text → Bool
  | [] => false
  | c :: _ => isDigit base c

/-- A sequence of digits, its value and the rest; nothing if there are no digits. -/
def digits (base : Nat) (t : Text) : Option (Nat × Text) :=
  if startsWithDigit base t then some (value base (t.takeWhile (isDigit base)), t.dropWhile (isDigit base)) else none

/-- What `strtol` with base 0 does after the sign: hexadecimal, octal or decimal digits. -/
def autoDigits (t : Text) : Option (Nat × Text) :=
  match after0x t with
  | some r => if startsWithDigit 16 r then digits 16 r else digits 8 t
  | none => if t.head? = some '0' then digits 8 t else digits 10 t

/-- `std::strtol(startPtr, &endPtr, base)` with bases 2 and 0, the value being exact; Parser.cpp:243. -/
def strtol (binary : Bool) (t : Text) : Option (Int × Text) :=
  let s := takeSign (t.dropWhile isSpace)
  match if binary then digits 2 s.2 else autoDigits s.2 with
  | some (n, r) => some (negIf s.1 (n : Int), r)
  | none => none

/-- `autodetectedBinary`; Parser.cpp:396-406. The text after `0b`. -/
def after0b : Text → Option Text
  | z :: b :: d :: t => if z = '0' ∧ b = 'b' then some (d :: t) else none
  | _ => none

/-- The range of `long int`. -/
def isLong (i : Int) : Bool := decide (-2 ^ 63 ≤ i ∧ i < 2 ^ 63)

/-- The checks after `strtol`; Parser.cpp:245-252. `t` is where it started. -/
def checkInt (t : Text) : Option (Int × Text) → Outcome (Option Int × Text)
  | none => .ok (none, t)
  | some (i, r) => if isLong i then .ok (some i, r) else .throw "integer out of range"

/-- `parseInt`; Parser.cpp:234-252. When it fails after `0b`, the position is after `0b`. -/
def parseInt (t : Text) : Outcome (Option Int × Text) :=
  match after0b t with
  | some r => checkInt r (strtol true r)
  | none => checkInt t (strtol false t)

/-- The lower case. -/
def lower (c : Char) : Char := if 'A' ≤ c ∧ c ≤ 'Z' then Char.ofNat (c.toNat + 32) else c

/-- Infinity or not a number is at the beginning. -/
def isSpecial (t : Text) : Bool := (t.take 3).map lower == ['i', 'n', 'f'] || (t.take 3).map lower == ['n', 'a', 'n']

/-- The digits before and after the point, and the rest; nothing if there are no digits. -/
def mantissa (base : Nat) (t : Text) : Option (Text × Text × Text) :=
  let a := t.takeWhile (isDigit base)
  match t.dropWhile (isDigit base) with
  | [] => if a.isEmpty then none else some (a, [], [])
  | c :: r =>
    if c = '.' then
      if a.isEmpty && !startsWithDigit base r then none
      else some (a, r.takeWhile (isDigit base), r.dropWhile (isDigit base))
    else if a.isEmpty then none
    else some (a, [], c :: r)

/-- The exponent after the given letter (lower case); zero if it is not there. -/
def exponent (mark : Char) (t : Text) : Int × Text :=
  match t with
  | [] => (0, [])
  | c :: r =>
    if lower c = mark then
      match digits 10 (takeSign r).2 with
      | some (n, r') => (negIf (takeSign r).1 (n : Int), r')
      | none => (0, t)
    else (0, t)

/-- The value of a floating-point literal. -/
def floatValue (base : Nat) (expBase : ℚ) (neg : Bool) (a b : Text) (k : Int) : ℚ :=
  negIf neg ((value base (a ++ b) : ℚ) / (base : ℚ) ^ b.length * expBase ^ k)

/-- What `strtod` does with a hexadecimal number, after the sign. -/
def hexFloat (neg : Bool) (t : Text) : Option (ℚ × Text) :=
  match after0x t with
  | some r =>
    match mantissa 16 r with
    | some (a, b, r') => some (floatValue 16 2 neg a b (exponent 'p' r').1, (exponent 'p' r').2)
    | none => none
  | none => none

/-- What `strtod` does with a decimal number, after the sign. -/
def decFloat (neg : Bool) (t : Text) : Option (ℚ × Text) :=
  match mantissa 10 t with
  | some (a, b, r') => some (floatValue 10 10 neg a b (exponent 'e' r').1, (exponent 'e' r').2)
  | none => none

/-- `std::strtod(startPtr, &endPtr)`; Parser.cpp:258. The value is missing for infinity and NaN, whose end is not modelled: an exception
follows. -/
def strtod (t : Text) : Option (Option ℚ × Text) :=
  let s := takeSign (t.dropWhile isSpace)
  if isSpecial s.2 then some (none, [])
  else
    match hexFloat s.1 s.2 with
    | some (q, r) => some (some q, r)
    | none =>
      match decFloat s.1 s.2 with
      | some (q, r) => some (some q, r)
      | none => none

variable {F : Type}

/-- `parseFloat`; Parser.cpp:254-272. -/
def parseFloat (conv : ℚ → Option F) (t : Text) : Outcome (Option F × Text) :=
  match strtod t with
  | none => .ok (none, t)
  | some (none, _) => .throw "NaN/inf is not supported"
  | some (some q, r) =>
    match conv q with
    | none => .throw "float out of range"
    | some d => .ok (some d, r)

/-- The choice in `parseNumeral`; Parser.cpp:218-231: the longer literal, the integer if both are the same. -/
def chooseNumeral (fl : Option F × Text) (i : Option Int × Text) : Option (Node F × Text) :=
  match fl.1 with
  | none => none
  | some d =>
    if fl.2.length < i.2.length then some (.float d, fl.2)
    else
      match i.1 with
      | some i' => some (.int i', i.2)
      | none => none

/-- `parseNumeral`; Parser.cpp:207-232. -/
def numeral (conv : ℚ → Option F) (t : Text) : Outcome (Option (Node F × Text)) := do
  let fl ← parseFloat conv t
  let i ← parseInt t
  pure (chooseNumeral fl i)

/-! ### Expressions -/

/-- The comma before the elements but the first; Parser.cpp:67-71, 95-99, 133-137. -/
def comma (first : Bool) (t : Text) (msg : String) : Outcome Text :=
  if first then .ok t
  else
    match t with
    | [] => .throw msg
    | c :: r => if c = ',' then .ok (ws r) else .throw msg

/-- The key of an entry with the colon; `parseDictionaryEntry`, Parser.cpp:380-391. -/
def dictionaryKey (t : Text) : Outcome (Text × Text) :=
  match t with
  | [] => .throw "expecting string as a dictionary key"
  | c :: t =>
    if c = '"' then do
      let (s, r) ← stringBody t
      match ws r with
      | [] => .throw "unexpected EOF while parsing dictionary"
      | c :: r => if c = ':' then pure (s, r) else .throw "missing colon ':' after key in dictionary"
    else .throw "expecting string as a dictionary key"

/-- The name and `=` of a keyword argument; `parseKeywordArgument`, Parser.cpp:355-370. -/
def keywordName (t : Text) : Option (Text × Text) :=
  match identifier t with
  | none => none
  | some (name, r) =>
    match ws r with
    | [] => none
    | c :: r' => if c = '=' then some (name, ws r') else none

/-- The built-in identifiers; Parser.cpp:190-195. -/
def builtin (name : Text) : Option (Node F) :=
  if name = ['T', 'r', 'u', 'e'] then some (.boolean true)
  else if name = ['F', 'a', 'l', 's', 'e'] then some (.boolean false)
  else if name = ['N', 'o', 'n', 'e'] then some .none
  else none

mutual

/-- `parseExpression`; Parser.cpp:26-54, with the first and last steps of `parseArray`, `parseDictionary`, `parseDataclass`, `parseString`
and `parseBooleanNone`. The first argument bounds the depth of calls. -/
def expression (conv : ℚ → Option F) : Nat → Text → Outcome (Node F × Text)
  | 0, _ => .diverge
  | fuel + 1, t =>
    match ws t with
    | [] => .throw "unexpected EOF"
    | c :: r =>
      if c = '[' then do
        let (e, r) ← elements conv fuel [] (ws r)
        pure (.array e, r)
      else if c = '{' then do
        let (e, r) ← entries conv fuel [] (ws r)
        pure (.dictionary e, r)
      else if c = '"' then do
        let (s, r) ← stringBody r
        pure (.string s, r)
      else
        match identifier (c :: r) with
        | some (name, r) =>
          match builtin name with
          | some b => .ok (b, r)
          | none =>
            match ws r with
            | [] => .ok (.dataclass name [] [], [])
            | c :: r =>
              if c = '(' then do
                let (a, r) ← arguments conv fuel [] [] (ws r)
                pure (.dataclass name a.1 a.2, r)
              else .ok (.dataclass name [] [], c :: r)
        | none => do
          let n ← numeral conv (c :: r)
          match n with
          | some n => pure n
          | none => .throw "unexpected character"

/-- The loop of `parseArray`; Parser.cpp:63-80. -/
def elements (conv : ℚ → Option F) : Nat → List (Node F) → Text → Outcome (List (Node F) × Text)
  | 0, _, _ => .diverge
  | _ + 1, _, [] => .throw "unexpected EOF while parsing array"
  | fuel + 1, elems, c :: r =>
    if c = ']' then .ok (elems, r)
    else do
      let t ← comma elems.isEmpty (c :: r) "missing comma ',' while parsing array"
      let (e, t) ← expression conv fuel t
      elements conv fuel (elems ++ [e]) (ws t)

/-- The loop of `parseDictionary`; Parser.cpp:91-111. -/
def entries (conv : ℚ → Option F) : Nat → List (Text × Node F) → Text → Outcome (List (Text × Node F) × Text)
  | 0, _, _ => .diverge
  | _ + 1, _, [] => .throw "unexpected EOF while parsing dictionary"
  | fuel + 1, elems, c :: r =>
    if c = '}' then .ok (elems, r)
    else do
      let t ← comma elems.isEmpty (c :: r) "missing comma ',' while parsing dictionary"
      let (k, t) ← dictionaryKey t
      let (e, t) ← expression conv fuel t
      if k ∈ elems.map Prod.fst then .throw "duplicate dictionary key"
      else entries conv fuel (elems ++ [(k, e)]) (ws t)

/-- The loop of `parseDataclass` with `parseArgument`; Parser.cpp:129-143, 329-353. -/
def arguments (conv : ℚ → Option F) : Nat → List (Node F) → List (Text × Node F) → Text →
    Outcome ((List (Node F) × List (Text × Node F)) × Text)
  | 0, _, _, _ => .diverge
  | _ + 1, _, _, [] => .throw "unexpected EOF while parsing dataclass"
  | fuel + 1, positional, keyword, c :: r =>
    if c = ')' then .ok ((positional, keyword), r)
    else do
      let t ← comma (positional.isEmpty && keyword.isEmpty) (c :: r) "missing comma ',' while parsing dataclass"
      match keywordName t with
      | some (name, t) => do
        let (e, t) ← expression conv fuel t
        if name ∈ keyword.map Prod.fst then .throw "duplicate keyword argument"
        else arguments conv fuel positional (keyword ++ [(name, e)]) (ws t)
      | none => do
        let (e, t) ← expression conv fuel t
        if keyword.isEmpty then arguments conv fuel (positional ++ [e]) keyword (ws t)
        else .throw "positional arguments cannot follow keyword arguments"

end

/-- `Parser::parse` with `throwIfAnythingLeft`; Parser.cpp:12-17, 281-285. -/
def parse (conv : ℚ → Option F) (t : Text) : Outcome (Node F) := do
  let (n, r) ← expression conv (2 * t.length + 1) t
  match ws r with
  | [] => pure n
  | _ :: _ => .throw "unexpected character"

end Rampack.Pyon
