import Verif.Utils.Strings
/-
Model of /repo/src/utils/Config.{h,cpp}: parsing of INI files and sub-configurations; and of `ParseUtils::parseFields`, /repo/src/utils/ParseUtils.cpp:11-38.

Simplifications: messages of exceptions do not contain line numbers and keys. Conversions of values to numbers (`getInt`, `getDouble`, ...) and printing are not modelled. `std::map` is a list without repeated
keys, in any order.
-/
namespace Rampack

/-- `map[k] = v`. -/
def assign (k v : Text) : List (Text × Text) → List (Text × Text)
  | [] => [(k, v)]
  | e :: m => if e.1 = k then (k, v) :: m else e :: assign k v m

/-- `map.find(k)`. -/
def lookup (k : Text) (m : List (Text × Text)) : Option Text := (m.find? fun e => decide (e.1 = k)).map Prod.snd

/-- `Config`; Config.h:79-84. -/
structure Config where
  fieldMap : List (Text × Text) := []
  keys : List Text := []
  sections : List Text := []
  rootSections : List Text := []

namespace Config

/-- `hasField`; Config.cpp:144-146. -/
def hasField (C : Config) (k : Text) : Bool := decide (k ∈ C.keys)

/-- `hasSection`; Config.cpp:148-150. -/
def hasSection (C : Config) (s : Text) : Bool := decide (s ∈ C.sections)

/-- `hasRootSection`; Config.cpp:152-154. -/
def hasRootSection (C : Config) (s : Text) : Bool := decide (s ∈ C.rootSections)

/-- `getString`; Config.cpp:108-113. -/
def getString (C : Config) (k : Text) : Outcome Text :=
  match lookup k C.fieldMap with
  | none => .throw "ConfigNoFieldException"
  | some v => .ok v

/-- `getBoolean`; Config.cpp:135-142. -/
def getBoolean (C : Config) (k : Text) : Outcome Bool := do
  let v ← C.getString k
  if v = "true".toList then return true
  else if v = "false".toList then return false
  else .throw "ConfigParseException: Cannot read boolean"

/-- `stripComment`; Config.cpp:102-106. -/
def stripComment (line : Text) : Text := line.takeWhile fun c => !(c == ';' || c == '#')

/-- `isItSectionEntry`; Config.cpp:69-75. The line is not empty. -/
def isItSectionEntry (line : Text) : Outcome Bool :=
  if line.head? ≠ some '[' then .ok false
  else if line.getLast? ≠ some ']' then .throw "ConfigParseException: Malformed section entry"
  else .ok true

/-- `splitField`; Config.cpp:80-97: the key with the section and the value. -/
def splitField (delim : Char) (section' line : Text) : Outcome (Text × Text) :=
  match line.findIdx? (· == delim) with
  | none => .throw "ConfigParseException: No delimiter"
  | some pos =>
    if '.' ∈ line.take pos then .throw "ConfigParseException: Key has '.' sign"
    else .ok (section' ++ Utils.trim (line.take pos), Utils.trim (if pos = line.length - 1 then [] else line.drop (pos + 1)))

/-- Adding a field; Config.cpp:51-58. -/
def addField (allow : Bool) (C : Config) (f : Text × Text) : Outcome Config :=
  if C.hasField f.1 && !allow then .throw "ConfigParseException: Redefinition of field"
  else .ok { C with fieldMap := assign f.1 f.2 C.fieldMap, keys := if C.hasField f.1 then C.keys else C.keys ++ [f.1] }

/-- The state of the loop which does not concern single lines: the current section and the fields. -/
structure Parsed where
  section' : Text
  config : Config

/-- A whole (continued) line; Config.cpp:45-58. -/
def entry (delim : Char) (allow : Bool) (P : Parsed) (line : Text) : Outcome Parsed := do
  let isSection ← isItSectionEntry line
  if isSection then return { P with section' := (line.drop 1).take (line.length - 2) ++ ['.'] }
  else do
    let f ← splitField delim P.section' line
    let C ← addField allow P.config f
    return { P with config := C }

/-- The loop over lines, with the state: the line being collected, whether it is to be continued and what has been parsed; Config.cpp:22-59. At the end, `lastLineContinued` is checked; Config.cpp:61-62. -/
def parseLoop (delim : Char) (allow : Bool) (line : Text) (cont : Bool) (P : Parsed) : List Text → Outcome Parsed
  | [] => if cont then .throw "ConfigParseException: Unexpected end after line continuation" else .ok P
  | l :: ls =>
    if Utils.trim (stripComment l) = [] then parseLoop delim allow line cont P ls
    else if (Utils.trim (stripComment l)).getLast? = some '\\' then
      parseLoop delim allow ((if cont then line ++ ['\n'] else []) ++ Utils.trim ((Utils.trim (stripComment l)).take ((Utils.trim (stripComment l)).length - 1))) true P ls
    else do
      let P ← entry delim allow P ((if cont then line ++ ['\n'] else []) ++ Utils.trim (stripComment l))
      parseLoop delim allow ((if cont then line ++ ['\n'] else []) ++ Utils.trim (stripComment l)) false P ls

/-- The loops of `buildSections` and `buildRootSections`: names in the order of their first appearance; Config.cpp:158-169, 178-189. -/
def collect (name : Text → Text) : List Text → List Text → List Text
  | acc, [] => acc
  | acc, k :: ks => if name k ∈ acc then collect name acc ks else collect name (acc ++ [name k]) ks

/-- The part before the last point; Config.cpp:159-164. -/
def sectionName (key : Text) : Text := ((key.reverse.dropWhile (· != '.')).drop 1).reverse

/-- The part before the first point, if there is one; Config.cpp:179-184. -/
def rootName (key : Text) : Text := if '.' ∈ key then key.takeWhile (· != '.') else []

/-- `buildSections` and `buildRootSections`; Config.cpp:156-190. -/
def build (C : Config) : Config := { C with sections := collect sectionName [] C.keys, rootSections := collect rootName [] C.keys }

/-- `parse`; Config.cpp:13-67. -/
def parse (text : Text) (delim : Char) (allow : Bool) : Outcome Config := do
  Outcome.require (decide (delim ≠ '#' ∧ delim ≠ ';')) "Expects(delim != '#' && delim != ';')"
  let P ← parseLoop delim allow [] false ⟨[], {}⟩ (Utils.getlines '\n' text)
  return P.config.build

/-- The loop of `fetchSubconfig`, with the new key for a key which is taken; Config.cpp:199-204, 207-213. `std::map::at` throws for a missing key. -/
def fetchLoop (C : Config) (sub : Text → Option Text) : List Text → Config → Outcome Config
  | [], R => .ok R
  | k :: ks, R => match sub k with
    | none => fetchLoop C sub ks R
    | some s => match lookup k C.fieldMap with
      | none => .throw "std::out_of_range"
      | some v => fetchLoop C sub ks { R with fieldMap := assign s v R.fieldMap, keys := R.keys ++ [s] }

/-- The key inside the sub-configuration; Config.cpp:200, 208-209. -/
def subKey (section' key : Text) : Option Text :=
  if section' = [] then if '.' ∈ key then none else some key
  else if Utils.startsWith key (section' ++ ['.']) then some (key.drop (section'.length + 1)) else none

/-- `fetchSubconfig`; Config.cpp:192-218. -/
def fetchSubconfig (C : Config) (section' : Text) : Outcome Config :=
  if !C.hasSection section' then .throw "std::invalid_argument"
  else do
    let R ← fetchLoop C (subKey section') C.keys {}
    return R.build

end Config

namespace ParseUtils

/-- The value with a token added; ParseUtils.cpp:28-34. -/
def appendToken (value token : Text) : Text := if value = [] then token else value ++ [' '] ++ token

/-- The loop over tokens; ParseUtils.cpp:16-36. The current field is given by its name; `none` is `fieldMap.end()`. -/
def fieldsLoop (fields : List Text) : Option Text → List (Text × Text) → List Text → Outcome (List (Text × Text))
  | _, m, [] => .ok m
  | curr, m, t :: ts =>
    if t ∈ fields then
      if lookup t m ≠ none then .throw "ValidationException: Redefined field"
      else fieldsLoop fields (some t) (assign t [] m) ts
    else match curr with
      | none =>
        if [] ∉ fields then .throw "ValidationException: Empty field name is not supported in this context"
        else fieldsLoop fields (some []) (assign [] t m) ts
      | some c => match lookup c m with
        | none => .ub
        | some v => fieldsLoop fields (some c) (assign c (appendToken v t) m) ts

/-- `parseFields`; ParseUtils.cpp:11-38. -/
def parseFields (fields tokens : List Text) : Outcome (List (Text × Text)) := fieldsLoop fields none [] tokens

end ParseUtils

end Rampack
