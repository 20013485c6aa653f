import Verif.Utils.Config
import Verif.Utils.StringsSpec
/-
What a configuration text means.
-/
namespace Rampack.Spec

/-- Lines of a text; the last one may have a line end or not. -/
def IsLines (text : Text) (ls : List Text) : Prop :=
  (∀ l ∈ ls, '\n' ∉ l) ∧ (ls.flatMap (· ++ ['\n']) = text ∨ ls.flatMap (· ++ ['\n']) = text ++ ['\n'] ∧ ls.getLast? ≠ some [])

/-- `q` is `p` without white space at both ends. -/
def Trimmed (p q : Text) : Prop :=
  ∃ a b, Blank a ∧ Blank b ∧ p = a ++ q ++ b ∧ (∀ c ∈ q.head?, isSpace c = false) ∧ ∀ c ∈ q.getLast?, isSpace c = false

/-- `c` is the line without the comment and white space at both ends. -/
def ContentOf (line c : Text) : Prop :=
  ∃ body comment, line = body ++ comment ∧ (∀ x ∈ body, x ≠ ';' ∧ x ≠ '#') ∧ (∀ x ∈ comment.head?, x = ';' ∨ x = '#') ∧ Trimmed body c

/-- Lines are put together to entries: lines without content are ignored, and a line with a backslash at the end is continued in the next one with content, after a line end. -/
inductive Entries : List Text → List Text → Prop where
  | nil : Entries [] []
  | skip {l : Text} {ls es : List Text} (hl : ContentOf l []) (h : Entries ls es) : Entries (l :: ls) es
  | whole {l c : Text} {ls es : List Text} (hl : ContentOf l c) (h0 : c ≠ []) (hc : c.getLast? ≠ some '\\') (h : Entries ls es) : Entries (l :: ls) (c :: es)
  | continued {l p q e : Text} {ls es : List Text} (hl : ContentOf l (p ++ ['\\'])) (hp : Trimmed p q) (h : Entries ls (e :: es)) : Entries (l :: ls) ((q ++ '\n' :: e) :: es)

/-- Fields of entries: an entry in brackets begins a section, whose name is put with a point before keys; other ones are keys and values. -/
inductive Fields (delim : Char) : Text → List Text → List (Text × Text) → Prop where
  | nil {s : Text} : Fields delim s [] []
  | section' {s name : Text} {es : List Text} {fs : List (Text × Text)} (h : Fields delim (name ++ ['.']) es fs) : Fields delim s (('[' :: name ++ [']']) :: es) fs
  | field {s k v k' v' : Text} {es : List Text} {fs : List (Text × Text)} (hb : (k ++ delim :: v).head? ≠ some '[') (hd : delim ∉ k) (hp : '.' ∉ k) (hk : Trimmed k k') (hv : Trimmed v v')
      (h : Fields delim s es fs) : Fields delim s ((k ++ delim :: v) :: es) ((s ++ k', v') :: fs)

/-- Different elements in the order of their first appearance. -/
def firsts : List Text → List Text
  | [] => []
  | k :: l => k :: (firsts l).filter (fun x => decide (x ≠ k))

/-- The last value given to a key. -/
def lastValue (fs : List (Text × Text)) (k : Text) : Option Text := (fs.filter fun f => decide (f.1 = k)).getLast?.map Prod.snd

/-- The key belongs directly to the section; the empty section also has keys without points. -/
def InSection (k s : Text) : Prop := (s = [] ∧ '.' ∉ k) ∨ ∃ n, '.' ∉ n ∧ k = s ++ '.' :: n

/-- The key belongs to the root section. -/
def InRoot (k s : Text) : Prop := (s = [] ∧ '.' ∉ k) ∨ ∃ n, '.' ∉ s ∧ k = s ++ '.' :: n

/-- `k` in the sub-configuration `s` is `full`. -/
def FullKey (s k full : Text) : Prop := (s = [] ∧ '.' ∉ k ∧ full = k) ∨ (s ≠ [] ∧ full = s ++ '.' :: k)

/-- Configurations which can be met: parsed ones and parts of them. -/
inductive ConfigReached : Config → Prop where
  | parsed {text : Text} {delim : Char} {allow : Bool} {C : Config} (h : Config.parse text delim allow = .ok C) : ConfigReached C
  | fetched {C R : Config} {s : Text} (hC : ConfigReached C) (h : C.fetchSubconfig s = .ok R) : ConfigReached R

/-- Tokens of fields: names of fields, each followed by tokens of its value. -/
def fieldTokens (parts : List (Text × List Text)) : List Text := parts.flatMap fun p => p.1 :: p.2

end Rampack.Spec
