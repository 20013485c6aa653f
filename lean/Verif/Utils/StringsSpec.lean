import Verif.Utils.Strings
/-
What string helpers, versions and folding are supposed to do.
-/
namespace Rampack.Spec

/-- Only white space. -/
def Blank (t : Text) : Prop := ∀ c ∈ t, isSpace c = true

/-- Text put together from pieces with a delimiter between them. -/
def joined (delim : Text) : List Text → Text
  | [] => []
  | [x] => x
  | x :: y :: l => x ++ delim ++ joined delim (y :: l)

/-- The text occurs in another one. -/
def Occurs (search t : Text) : Prop := ∃ a b, t = a ++ search ++ b

/-- All occurrences of `search`, taken from the left and not overlapping, are replaced, and nothing else is changed: `source` consists of pieces, all but the last one followed by `search`, which does not occur earlier;
it does not occur in the last piece. -/
def Replaced (search replace source result : Text) : Prop :=
  ∃ (pieces : List Text) (last : Text),
    source = pieces.flatMap (· ++ search) ++ last ∧ result = pieces.flatMap (· ++ replace) ++ last ∧
    (∀ p ∈ pieces, ∀ a b, p ++ search = a ++ search ++ b → b = []) ∧ ¬ Occurs search last

/-- Removing quotes and backslashes before characters. -/
def unescape : Text → Text
  | [] => []
  | ['\\'] => ['\\']
  | '\\' :: c :: t => c :: unescape t
  | c :: t => c :: unescape t

/-- A number of a version: white space, maybe a sign, digits and white space. -/
def VersionToken (t : Text) (neg : Bool) (d : Text) : Prop :=
  ∃ a b sign, Blank a ∧ Blank b ∧ (sign = [] ∧ neg = false ∨ sign = ['+'] ∧ neg = false ∨ sign = ['-'] ∧ neg = true) ∧ d ≠ [] ∧ (∀ c ∈ d, isDec c = true) ∧ t = a ++ sign ++ d ++ b

/-- Separators of words. -/
def isSep (c : Char) : Bool := c == ' ' || c == '\n'

/-- The words of a text. -/
inductive Words : Text → List Text → Prop where
  | nil : Words [] []
  | sep {c : Char} {t : Text} {l : List Text} (hc : isSep c = true) (h : Words t l) : Words (c :: t) l
  | word {w t : Text} {l : List Text} (hw : w ≠ []) (hc : ∀ c ∈ w, isSep c = false) (ht : ∀ c ∈ t.head?, isSep c = true) (h : Words t l) : Words (w ++ t) (w :: l)

/-- A line begins after `a`. -/
def LineStart (a : Text) : Prop := a = [] ∨ a.getLast? = some '\n'

end Rampack.Spec
