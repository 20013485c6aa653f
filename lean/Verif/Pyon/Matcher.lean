import Verif.Pyon.Parser
import Mathlib.Data.List.Lex
import Mathlib.Data.Char
/-
Model of the matchers of PYON expressions, /repo/src/pyon/Matcher*.{h,cpp}, MatcherBase.h, Any.h.

Simplifications: reports say what went wrong in a structured way instead of the text shown to the user; outlines and synopses are not
modelled. What the conversions given to `mapTo` make is of an arbitrary type `V`, besides nodes and the data of collections and classes,
which are the values made by default. Predicates of filters and conversions may throw.
-/
namespace Rampack.Pyon

/-! ### `std::map` with strings as keys -/

/-- `m[k] = v` for `std::map<std::string, ...>`, as the list of entries in the order of keys. -/
def put {α : Type} (k : Text) (v : α) : List (Text × α) → List (Text × α)
  | [] => [(k, v)]
  | e :: m => if k = e.1 then (k, v) :: m else if k < e.1 then (k, v) :: e :: m else e :: put k v m

/-- The field `map` of a dictionary node; NodeDictionary.cpp:10-18. -/
def toMap {α : Type} (es : List (Text × α)) : List (Text × α) := es.foldl (fun m e => put e.1 e.2 m) []

/-- `map.find(k)`: `hasKey` and `at`; NodeDictionary.h:35, NodeDictionary.cpp:20-25. -/
def find {α : Type} (k : Text) : List (Text × α) → Option α
  | [] => none
  | e :: m => if e.1 = k then some e.2 else find k m

/-! ### Values and reports -/

/-- `Any` (Any.h:22-73) as filled by matchers: a node, the data of an array, of a dictionary or of a class, or a value made by `mapTo`. -/
inductive Any (F V : Type) where
  | node (n : Node F)
  | array (elems : List (Any F V))
  | dictionary (entries : List (Text × Any F V))
  | dataclass (standard : List (Text × Any F V)) (variadic : List (Any F V)) (keyword : List (Text × Any F V))
  | value (v : V)

/-- What is wrong with the arguments given; MatcherDataclass.cpp:431-532. -/
inductive ArgumentsReport where
  | excessive
  | missing (names : List Text)
  | redefined (name : Text)
  | unknown (name : Text)

/-- `MatchReport` of a failure; MatcherBase.h:21-34. -/
inductive Report where
  | nodeType
  | className
  | unknownClass
  | condition
  | arguments (r : ArgumentsReport)
  | argument (name : Text) (r : Report)
  | variadic (r : Report)
  | keyword (r : Report)
  | index (i : Nat) (r : Report)
  | key (k : Text) (r : Report)
  | variants (rs : List Report)

/-- The outcome of `match`: true with the result, a report of failure, or an exception. -/
inductive Result (α : Type) where
  | matched (a : α)
  | unmatched (r : Report)
  | thrown (msg : String)

/-- Continue after a match. -/
@[inline] protected def Result.bind {α β : Type} : Result α → (α → Result β) → Result β
  | .matched a, f => f a
  | .unmatched r, _ => .unmatched r
  | .thrown m, _ => .thrown m

instance : Monad Result where
  pure := .matched
  bind := Result.bind

/-- Put the report of a failure into a larger report. -/
def Result.inside {α : Type} (f : Report → Report) : Result α → Result α
  | .unmatched r => .unmatched (f r)
  | x => x

/-- `Node::Type`; Node.h:22-33. -/
inductive NodeType where
  | int | float | boolean | none | string | array | dictionary | dataclass
  deriving DecidableEq

/-- `getType`. -/
def Node.type {F : Type} : Node F → NodeType
  | .int _ => .int
  | .float _ => .float
  | .boolean _ => .boolean
  | .none => .none
  | .string _ => .string
  | .array _ => .array
  | .dictionary _ => .dictionary
  | .dataclass _ _ _ => .dataclass

/-- `MatcherBase`: `match` and `matchNodeType`; MatcherBase.h:36-44. -/
structure Matcher (F V : Type) where
  run : Node F → Result (Any F V)
  nodeType : NodeType → Bool

/-- The loop over filters, the same in all matchers; e.g. MatcherArray.cpp:91-93. -/
def checkFilters {α : Type} : List (α → Except String Bool) → α → Result Unit
  | [], _ => .matched ()
  | f :: fs, a =>
    match f a with
    | .ok true => checkFilters fs a
    | .ok false => .unmatched .condition
    | .error m => .thrown m

/-- The result of a conversion. -/
def converted {α : Type} : Except String α → Result α
  | .ok a => .matched a
  | .error m => .thrown m

/-- The filters and then the conversion; e.g. MatcherArray.cpp:91-96. -/
def finish {F V α : Type} (filters : List (α → Except String Bool)) (mapping : α → Except String (Any F V)) (a : α) : Result (Any F V) := do
  checkFilters filters a
  converted (mapping a)

/-! ### Literals -/

/-- `MatcherInt`; MatcherNumeral.h:63-74, 198-216. -/
def matcherInt {F V : Type} (filters : List (Int → Except String Bool)) (mapping : Int → Except String (Any F V)) : Matcher F V where
  run := fun
    | .int i => finish filters mapping i
    | _ => .unmatched .nodeType
  nodeType t := t == .int

/-- `MatcherFloat`, which takes integers as well; MatcherNumeral.h:63-74, 219-244. -/
def matcherFloat {F V : Type} (ofInt : Int → F) (filters : List (F → Except String Bool)) (mapping : F → Except String (Any F V)) : Matcher F V where
  run := fun
    | .int i => finish filters mapping (ofInt i)
    | .float x => finish filters mapping x
    | _ => .unmatched .nodeType
  nodeType t := t == .int || t == .float

/-- `MatcherString`; MatcherString.cpp:28-39. -/
def matcherString {F V : Type} (filters : List (Text → Except String Bool)) (mapping : Text → Except String (Any F V)) : Matcher F V where
  run := fun
    | .string s => finish filters mapping s
    | _ => .unmatched .nodeType
  nodeType t := t == .string

/-- `MatcherBoolean`, with the value demanded, if any; MatcherBoolean.cpp:17-33. -/
def matcherBoolean {F V : Type} (wanted : Option Bool) (mapping : Bool → Except String (Any F V)) : Matcher F V where
  run := fun
    | .boolean b => if wanted = some (!b) then .unmatched .condition else converted (mapping b)
    | _ => .unmatched .nodeType
  nodeType t := t == .boolean

/-- `MatcherNone`; MatcherNone.cpp:14-24. -/
def matcherNone {F V : Type} (mapping : Except String (Any F V)) : Matcher F V where
  run := fun
    | .none => converted mapping
    | _ => .unmatched .nodeType
  nodeType t := t == .none

/-! ### Collections -/

/-- The fields of `MatcherArray`; MatcherArray.h:85-95. -/
structure ArrayMatcher (F V : Type) where
  element : Option (Matcher F V)
  filters : List (List (Any F V) → Except String Bool)
  mapping : List (Any F V) → Except String (Any F V)

/-- The loop over elements with a matcher, from the `i`-th on; MatcherArray.cpp:79-87. -/
def matchElements {F V : Type} (m : Matcher F V) : Nat → List (Node F) → Result (List (Any F V))
  | _, [] => .matched []
  | i, n :: ns => do
    let a ← (m.run n).inside (.index i)
    let as ← matchElements m (i + 1) ns
    pure (a :: as)

/-- The elements of the array data; MatcherArray.cpp:75-88. -/
def ArrayMatcher.elements {F V : Type} (m : ArrayMatcher F V) (ns : List (Node F)) : Result (List (Any F V)) :=
  match m.element with
  | none => .matched (ns.map .node)
  | some e => matchElements e 0 ns

/-- `MatcherArray::match`; MatcherArray.cpp:70-97. -/
def ArrayMatcher.run {F V : Type} (m : ArrayMatcher F V) : Node F → Result (Any F V)
  | .array ns => do
    let as ← m.elements ns
    finish m.filters m.mapping as
  | _ => .unmatched .nodeType

/-- `MatcherArray` as a matcher; MatcherArray.h:114. -/
def ArrayMatcher.toMatcher {F V : Type} (m : ArrayMatcher F V) : Matcher F V := ⟨m.run, fun t => t == .array⟩

/-- The fields of `MatcherDictionary`: predicates of keys with their matchers in the order of declaration, the matcher of other values;
MatcherDictionary.h:50-63. -/
structure DictionaryMatcher (F V : Type) where
  keys : List ((Text → Bool) × Matcher F V)
  values : Option (Matcher F V)
  filters : List (List (Text × Any F V) → Except String Bool)
  mapping : List (Text × Any F V) → Except String (Any F V)

/-- `matchKey`; MatcherDictionary.cpp:166-187. -/
def matchKey {F V : Type} (k : Text) (n : Node F) (other : Option (Matcher F V)) : List ((Text → Bool) × Matcher F V) → Result (Any F V)
  | [] =>
    match other with
    | none => .matched (.node n)
    | some m => (m.run n).inside (.key k)
  | (p, m) :: ms => if p k then (m.run n).inside (.key k) else matchKey k n other ms

/-- `matchKeys`: the loop over the entries in the order of keys; MatcherDictionary.cpp:152-164. -/
def matchEntries {F V : Type} (m : DictionaryMatcher F V) : List (Text × Node F) → Result (List (Text × Any F V))
  | [] => .matched []
  | e :: es => do
    let a ← matchKey e.1 e.2 m.values m.keys
    let as ← matchEntries m es
    pure ((e.1, a) :: as)

/-- `MatcherDictionary::match`; MatcherDictionary.cpp:189-206. -/
def DictionaryMatcher.run {F V : Type} (m : DictionaryMatcher F V) : Node F → Result (Any F V)
  | .dictionary es => do
    let as ← matchEntries m (toMap es)
    finish m.filters m.mapping as
  | _ => .unmatched .nodeType

/-- `MatcherDictionary` as a matcher; MatcherDictionary.h:86. -/
def DictionaryMatcher.toMatcher {F V : Type} (m : DictionaryMatcher F V) : Matcher F V := ⟨m.run, fun t => t == .dictionary⟩

/-! ### Classes -/

/-- `StandardArgumentSpecification`; MatcherDataclass.h:88-129. -/
structure Argument (F V : Type) where
  name : Text
  matcher : Option (Matcher F V)
  default : Option (Any F V)

/-- The specification of an argument with the default value given as a text; MatcherDataclass.h:104-122. -/
def Argument.withDefault {F V : Type} (conv : Rat → Option F) (name : Text) (m : Matcher F V) (text : Text) : Outcome (Argument F V) :=
  match parse conv text with
  | .ok n =>
    match m.run n with
    | .matched a => .ok ⟨name, some m, some a⟩
    | .unmatched _ => .throw "Default value does not match the matcher"
    | .thrown msg => .throw msg
  | .throw _ => .throw "Default value parsing failed"
  | .ub => .ub
  | .diverge => .diverge

/-- `DataclassData`; MatcherDataclass.h:59-86. -/
structure ClassData (F V : Type) where
  standard : List (Text × Any F V)
  variadic : List (Any F V)
  keyword : List (Text × Any F V)

/-- The fields of `MatcherDataclass`; the variadic matchers are there when they have been declared; MatcherDataclass.h:131-145. -/
structure ClassMatcher (F V : Type) where
  name : Text
  arguments : List (Argument F V)
  variadic : Option (ArrayMatcher F V)
  keyword : Option (DictionaryMatcher F V)
  filters : List (ClassData F V → Except String Bool)
  mapping : ClassData F V → Except String (Any F V)

/-- The check of the order of arguments in `arguments`; MatcherDataclass.cpp:272-285. -/
def defaultsLast {F V : Type} : List (Argument F V) → Bool
  | [] => true
  | a :: as =>
    (match as with
      | [] => true
      | b :: _ => !(a.default.isSome && b.default.isNone)) && defaultsLast as

/-- The constructor of `MatcherDataclass` with arguments; MatcherDataclass.cpp:260-285. -/
def createClass {F V : Type} (name : Text) (arguments : List (Argument F V)) : Outcome (ClassMatcher F V) :=
  if name = [] then .throw "Dataclass name cannot be empty"
  else if defaultsLast arguments then
    .ok ⟨name, arguments, none, none, [], fun d => .ok (.dataclass d.standard d.variadic d.keyword)⟩
  else .throw "argument with default value follows argument without default value"

/-- `variadicArgumentsMatcher` with its conversion reset; MatcherDataclass.h:140, MatcherDataclass.cpp:108-113. -/
def ClassMatcher.variadicMatcher {F V : Type} (c : ClassMatcher F V) : ArrayMatcher F V :=
  match c.variadic with
  | some m => { m with mapping := fun as => .ok (.array as) }
  | none => ⟨none, [fun as => .ok as.isEmpty], fun as => .ok (.array as)⟩

/-- `variadicKeywordArgumentsMatcher` with its conversion reset; MatcherDataclass.h:141, MatcherDataclass.cpp:115-120. -/
def ClassMatcher.keywordMatcher {F V : Type} (c : ClassMatcher F V) : DictionaryMatcher F V :=
  match c.keyword with
  | some m => { m with mapping := fun es => .ok (.dictionary es) }
  | none => ⟨[], none, [fun es => .ok es.isEmpty], fun es => .ok (.dictionary es)⟩

/-- `isStandardArgument`; MatcherDataclass.cpp:421-429. -/
def ClassMatcher.isStandard {F V : Type} (c : ClassMatcher F V) (k : Text) : Bool := c.arguments.any (fun a => a.name == k)

/-- `validateExcessiveArguments`; MatcherDataclass.cpp:407-419, 453-474. The maximum with variadic arguments is the largest number of
`std::size_t`, which the number of nodes cannot exceed. -/
def ClassMatcher.excessive {F V : Type} (c : ClassMatcher F V) (ps : List (Node F)) : Bool :=
  c.variadic.isNone && decide (c.arguments.length < ps.length)

/-- The names gathered by `validateMissingArguments`; MatcherDataclass.cpp:476-489. -/
def ClassMatcher.missing {F V : Type} (c : ClassMatcher F V) (ps : List (Node F)) (ks : List (Text × Node F)) : List Text :=
  ((c.arguments.drop ps.length).filter (fun a => (find a.name ks).isNone && a.default.isNone)).map (·.name)

/-- The name found by `validateRedefinedArguments`; MatcherDataclass.cpp:504-518. -/
def ClassMatcher.redefined {F V : Type} (c : ClassMatcher F V) (ps : List (Node F)) (ks : List (Text × Node F)) : Option Text :=
  ((c.arguments.take ps.length).find? (fun a => (find a.name ks).isSome)).map (·.name)

/-- The name found by `validateUnknownKeywordArguments`; MatcherDataclass.cpp:520-532. -/
def ClassMatcher.unknown {F V : Type} (c : ClassMatcher F V) (ks : List (Text × Node F)) : Option Text :=
  if c.keyword.isSome then none else (ks.find? (fun e => !c.isStandard e.1)).map (·.1)

/-- `validateArguments`; MatcherDataclass.cpp:431-451. -/
def ClassMatcher.validate {F V : Type} (c : ClassMatcher F V) (ps : List (Node F)) (ks : List (Text × Node F)) : Option ArgumentsReport :=
  if c.excessive ps then some .excessive
  else if c.missing ps ks ≠ [] then some (.missing (c.missing ps ks))
  else
    match c.redefined ps ks with
    | some k => some (.redefined k)
    | none => (c.unknown ks).map .unknown

/-- `emplaceArgument`; MatcherDataclass.cpp:362-379. -/
def Argument.convert {F V : Type} (a : Argument F V) (n : Node F) : Result (Any F V) :=
  match a.matcher with
  | none => .matched (.node n)
  | some m => (m.run n).inside (.argument a.name)

/-- An argument which is not given positionally; MatcherDataclass.cpp:342-355. -/
def Argument.byName {F V : Type} (a : Argument F V) (ks : List (Text × Node F)) : Result (Any F V) :=
  match find a.name ks with
  | some n => a.convert n
  | none =>
    match a.default with
    | some v => .matched v
    | none => .thrown "Missing argument should've been caught earlier"

/-- The two loops of `matchStandardArguments`; MatcherDataclass.cpp:330-356. -/
def bindArguments {F V : Type} (ks : List (Text × Node F)) : List (Argument F V) → List (Node F) → Result (List (Text × Any F V))
  | [], _ => .matched []
  | a :: as, [] => do
    let v ← a.byName ks
    let vs ← bindArguments ks as []
    pure ((a.name, v) :: vs)
  | a :: as, n :: ns => do
    let v ← a.convert n
    let vs ← bindArguments ks as ns
    pure ((a.name, v) :: vs)

/-- The constructor of `StandardArguments`; MatcherDataclass.cpp:10-21. -/
def standardArguments {F V : Type} (vs : List (Text × Any F V)) : Result (List (Text × Any F V)) :=
  if (vs.map Prod.fst).Nodup then .matched vs else .thrown "duplicate argument names"

/-- `matchStandardArguments`; MatcherDataclass.cpp:320-360. -/
def ClassMatcher.matchStandard {F V : Type} (c : ClassMatcher F V) (ps : List (Node F)) (ks : List (Text × Node F)) :
    Result (List (Text × Any F V)) :=
  match c.validate ps ks with
  | some r => .unmatched (.arguments r)
  | none => do
    let vs ← bindArguments ks c.arguments ps
    standardArguments vs

/-- `result.as<ArrayData>()`; Any.h:48-55. -/
def Any.asArray {F V : Type} : Any F V → Result (List (Any F V))
  | .array as => .matched as
  | _ => .thrown "pyon::Any::as"

/-- `result.as<DictionaryData>()`; Any.h:48-55. -/
def Any.asDictionary {F V : Type} : Any F V → Result (List (Text × Any F V))
  | .dictionary es => .matched es
  | _ => .thrown "pyon::Any::as"

/-- `matchVariadicArguments`; MatcherDataclass.cpp:287-300. -/
def ClassMatcher.matchVariadic {F V : Type} (c : ClassMatcher F V) (ps : List (Node F)) : Result (List (Any F V)) := do
  let a ← (c.variadicMatcher.run (.array (ps.drop c.arguments.length))).inside .variadic
  a.asArray

/-- `matchKeywordVariadicArguments`; MatcherDataclass.cpp:302-318. -/
def ClassMatcher.matchKeyword {F V : Type} (c : ClassMatcher F V) (ks : List (Text × Node F)) : Result (List (Text × Any F V)) := do
  let a ← (c.keywordMatcher.run (.dictionary (ks.filter (fun e => !c.isStandard e.1)))).inside .keyword
  a.asDictionary

/-- `MatcherDataclass::match`; MatcherDataclass.cpp:122-160. The map of keyword arguments is made with the node. -/
def ClassMatcher.run {F V : Type} (c : ClassMatcher F V) : Node F → Result (Any F V)
  | .dataclass name ps ks =>
    if name ≠ c.name then .unmatched .className
    else do
      let standard ← c.matchStandard ps (toMap ks)
      let variadic ← c.matchVariadic ps
      let keyword ← c.matchKeyword (toMap ks)
      finish c.filters c.mapping ⟨standard, variadic, keyword⟩
  | _ => .unmatched .nodeType

/-- `MatcherDataclass` as a matcher; MatcherDataclass.h:207. -/
def ClassMatcher.toMatcher {F V : Type} (c : ClassMatcher F V) : Matcher F V := ⟨c.run, fun t => t == .dataclass⟩

/-- `DataclassData::at(idx)`; MatcherDataclass.cpp:82-96. -/
def ClassData.atIndex {F V : Type} (d : ClassData F V) (i : Nat) : Outcome (Any F V) :=
  match d.standard[i]? with
  | some e => .ok e.2
  | none =>
    match d.variadic[i - d.standard.length]? with
    | some a => .ok a
    | none => .throw "trying to access index"

/-- `DataclassData::at(name)`; MatcherDataclass.cpp:98-106. -/
def ClassData.atName {F V : Type} (d : ClassData F V) (k : Text) : Outcome (Any F V) :=
  match find k d.standard with
  | some a => .ok a
  | none =>
    match find k d.keyword with
    | some a => .ok a
    | none => .throw "there is no argument named"

/-! ### Alternatives -/

/-- The fields of `MatcherAlternative`; MatcherAlternative.h:16-17. -/
structure Alternative (F V : Type) where
  classes : List (ClassMatcher F V)
  alternatives : List (Matcher F V)

/-- What can be joined with `|`: a class, another alternative, or any other matcher; MatcherAlternative.h:48-63. -/
inductive Variant (F V : Type) where
  | dataclass (c : ClassMatcher F V)
  | alternative (a : Alternative F V)
  | other (m : Matcher F V)

/-- `operator|=`; MatcherAlternative.h:43-65. -/
def Alternative.add {F V : Type} (a : Alternative F V) : Variant F V → Alternative F V
  | .dataclass c => ⟨a.classes ++ [c], a.alternatives ++ [c.toMatcher]⟩
  | .alternative b => ⟨a.classes ++ b.classes, a.alternatives ++ b.alternatives⟩
  | .other m => ⟨a.classes, a.alternatives ++ [m]⟩

/-- `collectVariants`; MatcherAlternative.cpp:50-66. -/
def Alternative.variants {F V : Type} (a : Alternative F V) : Node F → List (Matcher F V)
  | .dataclass name _ _ => (a.classes.filter (fun c => c.name == name)).map (·.toMatcher)
  | n => a.alternatives.filter (fun m => m.nodeType n.type)

/-- The loop over variants; MatcherAlternative.cpp:80-87. The reports are gathered in `rs`. -/
def firstMatch {F V : Type} (n : Node F) : List (Matcher F V) → List Report → Result (Any F V)
  | [], rs => .unmatched (.variants rs)
  | m :: ms, rs =>
    match m.run n with
    | .matched a => .matched a
    | .unmatched r => firstMatch n ms (rs ++ [r])
    | .thrown msg => .thrown msg

/-- `MatcherAlternative::match`; MatcherAlternative.cpp:68-90. -/
def Alternative.run {F V : Type} (a : Alternative F V) (n : Node F) : Result (Any F V) :=
  match a.variants n with
  | [] => .unmatched (if n.type = .dataclass then .unknownClass else .nodeType)
  | v :: vs => firstMatch n (v :: vs) []

/-- `MatcherAlternative` as a matcher; MatcherAlternative.cpp:92-97. -/
def Alternative.toMatcher {F V : Type} (a : Alternative F V) : Matcher F V := ⟨a.run, fun t => a.alternatives.any (·.nodeType t)⟩

/-- Matchers joined with `|`, in any order of joining. -/
inductive Choice (F V : Type) where
  | dataclass (c : ClassMatcher F V)
  | other (m : Matcher F V)
  | join (l r : Choice F V)

/-- `operator|`; Matcher.h:20-29. -/
def joined {F V : Type} (l r : Variant F V) : Alternative F V := (Alternative.add ⟨[], []⟩ l).add r

/-- A matcher as an operand of `|`; MatcherAlternative.h:48-63. -/
def Choice.toVariant {F V : Type} : Choice F V → Variant F V
  | .dataclass c => .dataclass c
  | .other m => .other m
  | .join l r => .alternative (joined l.toVariant r.toVariant)

/-- The matcher which comes out of `|`. -/
def Choice.toMatcher {F V : Type} : Choice F V → Matcher F V
  | .dataclass c => c.toMatcher
  | .other m => m
  | .join l r => (joined l.toVariant r.toVariant).toMatcher

/-- `RecursiveMatcher` attached to a matcher; RecursiveMatcher.cpp:10-22. -/
def recursive {F V : Type} (m : Matcher F V) : Matcher F V := ⟨m.run, m.nodeType⟩

end Rampack.Pyon
