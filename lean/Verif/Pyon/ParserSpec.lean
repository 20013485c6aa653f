import Verif.Pyon.Parser
/-
The grammar of PYON, after the section "PYON format" of /repo/docs/input-file.md. Literals are those of the C language: integers which begin
with 0 are octal, and there are hexadecimal floating-point numbers.
-/
namespace Rampack.Spec

open Rampack Rampack.Pyon

/-- White space and comments. -/
inductive Gap : Text → Prop where
  | nil : Gap []
  | space {c : Char} {t : Text} : c ∈ [' ', '\t', '\n', '\x0b', '\x0c', '\r'] → Gap t → Gap (c :: t)
  | comment {l t : Text} : '\n' ∉ l → Gap t → Gap ('#' :: l ++ '\n' :: t)

/-- White space and comments at the end of the text, where a comment needs no end of line. -/
def LastGap (t : Text) : Prop := Gap t ∨ ∃ g l, Gap g ∧ '\n' ∉ l ∧ t = g ++ '#' :: l

/-- Letters. -/
def Letter (c : Char) : Prop := ('a' ≤ c ∧ c ≤ 'z') ∨ ('A' ≤ c ∧ c ≤ 'Z')

/-- Names: letters, digits and underscores, a digit not being the first. -/
def IsIdentifier (t : Text) : Prop :=
  ∃ c r, t = c :: r ∧ (Letter c ∨ c = '_') ∧ ∀ d ∈ r, Letter d ∨ d = '_' ∨ ('0' ≤ d ∧ d ≤ '9')

/-- Names which mean something else than a class. -/
def Reserved (t : Text) : Prop := t = "True".toList ∨ t = "False".toList ∨ t = "None".toList

/-- The inside of a string literal and the string. -/
inductive Escaped : Text → Text → Prop where
  | nil : Escaped [] []
  | plain {c : Char} {t s : Text} : c ≠ '"' → c ≠ '\\' → Escaped t s → Escaped (c :: t) (c :: s)
  | escape {e c : Char} {t s : Text} : (e, c) ∈ [('\\', '\\'), ('"', '"'), ('n', '\n'), ('t', '\t')] → Escaped t s → Escaped ('\\' :: e :: t) (c :: s)

/-- A string literal and the string. -/
def Quoted (t s : Text) : Prop := ∃ b, Escaped b s ∧ t = '"' :: b ++ ['"']

/-! ### Numbers -/

/-- `c` is the digit `k` of the positional system of base `b` (at most 16). -/
def IsDigit (b : Nat) (c : Char) (k : Nat) : Prop :=
  k < b ∧ ("0123456789abcdef".toList[k]? = some c ∨ "0123456789ABCDEF".toList[k]? = some c)

/-- The text consists of digits of the base `b` and its value is `n`. -/
inductive Number (b : Nat) : Text → Nat → Prop where
  | nil : Number b [] 0
  | snoc {t : Text} {n : Nat} {c : Char} {k : Nat} : Number b t n → IsDigit b c k → Number b (t ++ [c]) (b * n + k)

/-- A sign, which may be missing, and whether it negates. -/
inductive Signed : Text → Bool → Prop where
  | none : Signed [] false
  | plus : Signed ['+'] false
  | minus : Signed ['-'] true

/-- Integers of the C language. -/
inductive IntForm : Text → Int → Prop where
  | decimal {s d : Text} {neg : Bool} {n : Nat} : Signed s neg → Number 10 d n → d ≠ [] → d.head? ≠ some '0' → IntForm (s ++ d) (if neg then -n else n)
  | octal {s d : Text} {neg : Bool} {n : Nat} : Signed s neg → Number 8 d n → IntForm (s ++ '0' :: d) (if neg then -n else n)
  | hex {s d : Text} {neg : Bool} {x : Char} {n : Nat} : Signed s neg → x = 'x' ∨ x = 'X' → Number 16 d n → d ≠ [] →
      IntForm (s ++ '0' :: x :: d) (if neg then -n else n)

/-- Binary integers. -/
def BinaryForm (t : Text) (i : Int) : Prop := ∃ d n, Number 2 d n ∧ d ≠ [] ∧ t = '0' :: 'b' :: d ∧ i = n

/-- The fractional part: the point may be missing if there are no digits. -/
def Fraction (t b : Text) : Prop := (t = [] ∧ b = []) ∨ t = '.' :: b

/-- The exponent, which may be missing; `e` is the letter, in lower and upper case. -/
def Exponent (e : List Char) (t : Text) (k : Int) : Prop :=
  (t = [] ∧ k = 0) ∨ ∃ c s neg d n, c ∈ e ∧ Signed s neg ∧ Number 10 d n ∧ d ≠ [] ∧ t = c :: s ++ d ∧ k = if neg then -(n : Int) else n

/-- Floating-point numbers of the C language (and integers in the same form). `a` and `b` are the digits before and after the point. -/
inductive FloatForm : Text → ℚ → Prop where
  | decimal {s a b p x : Text} {neg : Bool} {n : Nat} {k : Int} : Signed s neg → Number 10 (a ++ b) n → a ++ b ≠ [] → Fraction p b → Exponent ['e', 'E'] x k →
      FloatForm (s ++ a ++ p ++ x) (if neg then -(n / 10 ^ b.length * 10 ^ k) else n / 10 ^ b.length * 10 ^ k)
  | hex {s a b p x : Text} {neg : Bool} {y : Char} {n : Nat} {k : Int} : Signed s neg → y = 'x' ∨ y = 'X' → Number 16 (a ++ b) n → a ++ b ≠ [] → Fraction p b →
      Exponent ['p', 'P'] x k →
      FloatForm (s ++ '0' :: y :: a ++ p ++ x) (if neg then -(n / 16 ^ b.length * 2 ^ k) else n / 16 ^ b.length * 2 ^ k)

/-- 64-bit integers. -/
def InLong (i : Int) : Prop := -2 ^ 63 ≤ i ∧ i < 2 ^ 63

variable {F : Type}

/-- Numbers. `conv` rounds to a floating-point number, unless out of range. -/
inductive Numeral (conv : ℚ → Option F) : Text → Node F → Prop where
  | int {t : Text} {i : Int} : IntForm t i → InLong i → Numeral conv t (.int i)
  | binary {t : Text} {i : Int} : BinaryForm t i → InLong i → Numeral conv t (.int i)
  | float {t : Text} {q : ℚ} {d : F} : FloatForm t q → (∀ i, ¬ IntForm t i) → conv q = some d → Numeral conv t (.float d)

/-- Numbers where, in the case of floating-point ones, no integer at the beginning of the literal is out of range. -/
def PlainNumeral (conv : ℚ → Option F) (t : Text) (v : Node F) : Prop :=
  Numeral conv t v ∧ ∀ d, v = .float d → ∀ u r i, t = u ++ r → IntForm u i → InLong i

/-- Binary numbers with white space or a sign after `0b`. They are not described, but they are taken. -/
def OddBinary (t : Text) (v : Node F) : Prop :=
  ∃ g s neg d n, (∀ c ∈ g, c ∈ [' ', '\t', '\n', '\x0b', '\x0c', '\r']) ∧ Signed s neg ∧ Number 2 d n ∧ d ≠ [] ∧ g ++ s ≠ [] ∧ t = '0' :: 'b' :: g ++ s ++ d ∧
    v = .int (if neg then -(n : Int) else n)

/-- A decimal literal of a floating-point number, with the point or the exponent, and at most 18 digits before the point. -/
def FloatLiteral (conv : ℚ → Option F) (t : Text) (d : F) : Prop :=
  ∃ s neg a b p x n k, Signed s neg ∧ Number 10 (a ++ b) n ∧ a ++ b ≠ [] ∧ Fraction p b ∧ Exponent ['e', 'E'] x k ∧ p ++ x ≠ [] ∧ a.length ≤ 18 ∧
    t = s ++ a ++ p ++ x ∧ conv (if neg then -(n / 10 ^ b.length * 10 ^ k) else n / 10 ^ b.length * 10 ^ k) = some d

/-! ### Expressions -/

/-- Elements separated by commas, with any gaps around them; at least one. -/
inductive CommaList {α : Type} (R : Text → α → Prop) : Text → List α → Prop where
  | one {g g' t : Text} {a : α} : Gap g → R t a → Gap g' → CommaList R (g ++ t ++ g') [a]
  | more {g g' t ts : Text} {a : α} {as : List α} : Gap g → R t a → Gap g' → CommaList R ts as → CommaList R (g ++ t ++ g' ++ ',' :: ts) (a :: as)

/-- An entry of a dictionary. -/
inductive EntryOf {α : Type} (R : Text → α → Prop) : Text → Text × α → Prop where
  | mk {q k g g' t : Text} {a : α} : Quoted q k → Gap g → Gap g' → R t a → EntryOf R (q ++ g ++ ':' :: g' ++ t) (k, a)

/-- An argument, with its name if it is given. -/
inductive ArgumentOf {α : Type} (R : Text → α → Prop) : Text → Option Text × α → Prop where
  | positional {t : Text} {a : α} : R t a → ArgumentOf R t (none, a)
  | keyword {n g g' t : Text} {a : α} : IsIdentifier n → Gap g → Gap g' → R t a → ArgumentOf R (n ++ g ++ '=' :: g' ++ t) (some n, a)

/-- The text means the value; `N` tells which texts mean numbers. -/
inductive Means (N : Text → Node F → Prop) : Text → Node F → Prop where
  | number {t : Text} {v : Node F} : N t v → Means N t v
  | true : Means N "True".toList (.boolean true)
  | false : Means N "False".toList (.boolean false)
  | none : Means N "None".toList .none
  | string {t s : Text} : Quoted t s → Means N t (.string s)
  | emptyArray {g : Text} : Gap g → Means N ('[' :: g ++ [']']) (.array [])
  | array {t : Text} {vs : List (Node F)} : CommaList (Means N) t vs → Means N ('[' :: t ++ [']']) (.array vs)
  | emptyDictionary {g : Text} : Gap g → Means N ('{' :: g ++ ['}']) (.dictionary [])
  | dictionary {t : Text} {es : List (Text × Node F)} : CommaList (EntryOf (Means N)) t es → (es.map Prod.fst).Nodup → Means N ('{' :: t ++ ['}']) (.dictionary es)
  | name {t : Text} : IsIdentifier t → ¬ Reserved t → Means N t (.dataclass t [] [])
  | emptyCall {n g g' : Text} : IsIdentifier n → ¬ Reserved n → Gap g → Gap g' → Means N (n ++ g ++ '(' :: g' ++ [')']) (.dataclass n [] [])
  | call {n g t : Text} {as : List (Option Text × Node F)} {ps : List (Node F)} {ks : List (Text × Node F)} : IsIdentifier n → ¬ Reserved n → Gap g →
      CommaList (ArgumentOf (Means N)) t as → as = ps.map (fun v => (Option.none, v)) ++ ks.map (fun k => (some k.1, k.2)) → (ks.map Prod.fst).Nodup →
      Means N (n ++ g ++ '(' :: t ++ [')']) (.dataclass n ps ks)

/-- The whole text means the value. -/
def TextMeans (N : Text → Node F → Prop) (t : Text) (v : Node F) : Prop := ∃ g u g', Gap g ∧ Means N u v ∧ LastGap g' ∧ t = g ++ u ++ g'

/-! ### The canonical form -/

/-- The decimal digits of a number. -/
def decimalText (n : Nat) : Text := if n < 10 then [Char.ofNat (48 + n)] else decimalText (n / 10) ++ [Char.ofNat (48 + n % 10)]

/-- The decimal form of an integer. -/
def intText (i : Int) : Text := if i < 0 then '-' :: decimalText i.natAbs else decimalText i.natAbs

/-- A string literal. -/
def stringText (s : Text) : Text :=
  '"' :: s.flatMap (fun c => if c = '"' then ['\\', '"'] else if c = '\\' then ['\\', '\\'] else if c = '\n' then ['\\', 'n'] else if c = '\t' then ['\\', 't'] else [c]) ++ ['"']

/-- Texts separated by commas. -/
def joinText : List Text → Text
  | [] => []
  | [t] => t
  | t :: ts => t ++ ',' :: ' ' :: joinText ts

mutual

/-- The canonical form of a value; `lit` prints floating-point numbers. -/
def canonical (lit : F → Text) : Node F → Text
  | .int i => intText i
  | .float d => lit d
  | .boolean b => if b then "True".toList else "False".toList
  | .none => "None".toList
  | .string s => stringText s
  | .array vs => '[' :: joinText (canonicals lit vs) ++ [']']
  | .dictionary es => '{' :: joinText (canonicalEntries lit (fun k => stringText k ++ [':', ' ']) es) ++ ['}']
  | .dataclass n ps ks => n ++ '(' :: joinText (canonicals lit ps ++ canonicalEntries lit (fun k => k ++ ['=']) ks) ++ [')']

/-- The canonical forms of values. -/
def canonicals (lit : F → Text) : List (Node F) → List Text
  | [] => []
  | v :: vs => canonical lit v :: canonicals lit vs

/-- The canonical forms of values after the forms of their names. -/
def canonicalEntries (lit : F → Text) (f : Text → Text) : List (Text × Node F) → List Text
  | [] => []
  | (k, v) :: es => (f k ++ canonical lit v) :: canonicalEntries lit f es

end

/-- The values which the language can express, with `lit` printing floating-point numbers: integers are 64-bit, keys of dictionaries and names of keyword
arguments do not repeat, and names are identifiers. -/
inductive Expressible (conv : ℚ → Option F) (lit : F → Text) : Node F → Prop where
  | int {i : Int} : InLong i → Expressible conv lit (.int i)
  | float {d : F} : FloatLiteral conv (lit d) d → Expressible conv lit (.float d)
  | boolean {b : Bool} : Expressible conv lit (.boolean b)
  | none : Expressible conv lit .none
  | string {s : Text} : Expressible conv lit (.string s)
  | array {vs : List (Node F)} : (∀ v ∈ vs, Expressible conv lit v) → Expressible conv lit (.array vs)
  | dictionary {es : List (Text × Node F)} : (∀ e ∈ es, Expressible conv lit e.2) → (es.map Prod.fst).Nodup → Expressible conv lit (.dictionary es)
  | dataclass {n : Text} {ps : List (Node F)} {ks : List (Text × Node F)} : IsIdentifier n → ¬ Reserved n → (∀ v ∈ ps, Expressible conv lit v) →
      (∀ e ∈ ks, Expressible conv lit e.2) → (∀ e ∈ ks, IsIdentifier e.1) → (ks.map Prod.fst).Nodup → Expressible conv lit (.dataclass n ps ks)

/-- Integers are in the range of floating-point numbers. -/
def RoundsIntegers (conv : ℚ → Option F) : Prop := ∀ i : Int, |i| ≤ 10 ^ 22 → (conv i).isSome

end Rampack.Spec
