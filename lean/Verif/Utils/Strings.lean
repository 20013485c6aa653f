import Verif.IO.Text
/-
Model of string helpers, /repo/src/utils/Utils.cpp and Utils.h, of /repo/src/utils/Version.{h,cpp} and /repo/src/utils/Fold.cpp.

Simplification: `std::isspace` of characters outside ASCII (negative values of `char`, which are undefined behaviour for `isspace`) is false. Lengths do not overflow `std::size_t`.
-/
namespace Rampack

namespace Utils

/-- `ltrim`; Utils.cpp:21-24. -/
def ltrim (s : Text) : Text := s.dropWhile isSpace

/-- `rtrim`; Utils.cpp:27-30. -/
def rtrim (s : Text) : Text := (s.reverse.dropWhile isSpace).reverse

/-- `trim`; Utils.cpp:33-35. -/
def trim (s : Text) : Text := ltrim (rtrim s)

/-- `endsWith`; Utils.cpp:37-39. -/
def endsWith (str suffix : Text) : Bool := decide (str.length ≥ suffix.length) && decide (str.drop (str.length - suffix.length) = suffix)

/-- `startsWith`; Utils.cpp:41-43. -/
def startsWith (str pre : Text) : Bool := decide (str.length ≥ pre.length) && decide (str.take pre.length = pre)

/-- `source.find(search, pos)`: the first place from `pos` on at which `search` begins. -/
def find (source search : Text) (pos : Nat) : Option Nat :=
  if pos + search.length ≤ source.length then
    if (source.drop pos).take search.length = search then some pos else find source search (pos + 1)
  else none
termination_by source.length + 1 - (pos + search.length)

theorem find_some {source search : Text} {pos q : Nat} (h : find source search pos = some q) :
    pos ≤ q ∧ q + search.length ≤ source.length ∧ (source.drop q).take search.length = search ∧
      ∀ r, pos ≤ r → r < q → (source.drop r).take search.length ≠ search := by
  induction pos using find.induct source search with
  | case1 pos h1 h2 =>
    rw [find, if_pos h1, if_pos h2] at h
    cases h
    exact ⟨Nat.le_refl _, h1, h2, fun r h3 h4 => by omega⟩
  | case2 pos h1 h2 ih =>
    rw [find, if_pos h1, if_neg h2] at h
    obtain ⟨a, b, c, d⟩ := ih h
    refine ⟨by omega, b, c, fun r h3 h4 => ?_⟩
    by_cases hr : r = pos
    · subst hr; exact h2
    · exact d r (by omega) h4
  | case3 pos h1 =>
    rw [find, if_neg h1] at h
    cases h

theorem find_none {source search : Text} {pos : Nat} (h : find source search pos = none) :
    ∀ r, pos ≤ r → r + search.length ≤ source.length → (source.drop r).take search.length ≠ search := by
  induction pos using find.induct source search with
  | case1 pos h1 h2 =>
    rw [find, if_pos h1, if_pos h2] at h
    cases h
  | case2 pos h1 h2 ih =>
    rw [find, if_pos h1, if_neg h2] at h
    intro r h3 h4
    by_cases hr : r = pos
    · subst hr; exact h2
    · exact ih h r (by omega) h4
  | case3 pos h1 =>
    intro r h3 h4
    omega

/-- The loop of `replaceAll`; Utils.cpp:46-50. Looking for an empty text it never ends. -/
def replaceFrom (search replace : Text) (source : Text) (pos : Nat) : Outcome Text :=
  if hs : search = [] then .diverge
  else match h : find source search pos with
    | none => .ok source
    | some q => replaceFrom search replace (source.take q ++ replace ++ source.drop (q + search.length)) (q + replace.length)
termination_by source.length - pos
decreasing_by
  obtain ⟨h1, h2, -⟩ := find_some h
  have : 0 < search.length := List.length_pos_iff.mpr hs
  simp only [List.length_append, List.length_take, List.length_drop]
  omega

/-- `replaceAll`; Utils.cpp:45-52. -/
def replaceAll (source search replace : Text) : Outcome Text := replaceFrom search replace source 0

/-- The loop of `lastIndexOf`; Utils.cpp:55-61. `s[s.size()]` is the null character. -/
def lastIndexLoop (target : Char) (ret curIdx : Int) : Text → Int
  | [] => ret
  | c :: s => if c = '\x00' then ret else lastIndexLoop target (if c = target then curIdx else ret) (curIdx + 1) s

/-- `lastIndexOf`; Utils.cpp:54-62. -/
def lastIndexOf (s : Text) (target : Char) : Int := lastIndexLoop target (-1) 0 s

/-- The loop of `std::getline` with a delimiter; Utils.cpp:71-73. It ends when there is nothing to be read. -/
def getlines (delim : Char) (s : Text) : List Text :=
  if h : s = [] then []
  else s.takeWhile (· != delim) :: getlines delim ((s.dropWhile (· != delim)).drop 1)
termination_by s.length
decreasing_by
  have h1 := List.length_pos_iff.mpr h
  have h2 := List.Sublist.length_le (List.dropWhile_sublist (fun x => x != delim) (l := s))
  simp only [List.length_drop]
  omega

/-- `explode`; Utils.cpp:64-79. -/
def explode (s : Text) (delim : Char) : List Text :=
  if s = [] then [] else if s.getLast? = some delim then getlines delim s ++ [[]] else getlines delim s

/-- `implode`; Utils.h:30-41. -/
def implode (l : List Text) (delim : Text) : Text :=
  if l = [] then []
  else (l.flatMap (· ++ delim)).take ((l.flatMap (· ++ delim)).length - delim.length)

/-- `quoted`; Utils.cpp:101-105: `std::quoted` puts a backslash before quotes and backslashes. -/
def quoted (s : Text) : Text := '"' :: s.flatMap (fun c => if c = '"' ∨ c = '\\' then ['\\', c] else [c]) ++ ['"']

end Utils

/-- `Version`; Version.h:17-21. -/
@[ext] structure Version where
  major : Nat
  minor : Nat
  patch : Nat
  deriving DecidableEq

namespace Version

/-- `std::stoul(token, &idx)` with base 10: the value and the number of characters taken. White space, a sign and digits; a minus sign negates modulo 2^64. `std::out_of_range` and
`std::invalid_argument` are exceptions. -/
def stoul (t : Text) : Outcome (Nat × Nat) :=
  let w := t.dropWhile isSpace
  let neg := w.head? == some '-'
  let u := if neg || w.head? == some '+' then w.tail else w
  let d := u.takeWhile isDec
  if d.isEmpty then .throw "std::invalid_argument"
  else if 2 ^ 64 ≤ textNat d then .throw "std::out_of_range"
  else .ok (if neg then (2 ^ 64 - textNat d) % 2 ^ 64 else textNat d, t.length - (u.length - d.length))

/-- `Version::parseToken`; Version.cpp:31-43. -/
def parseToken (token : Text) : Outcome Nat := do
  Outcome.require (decide (Utils.trim token ≠ [])) "Expects(!token.empty())"
  let (n, idx) ← stoul (Utils.trim token)
  Outcome.require (decide (idx = (Utils.trim token).length)) "Expects(idx == token.length())"
  return n

/-- The part of the constructor with `switch`; Version.cpp:15-25. -/
def ofTokens : List Text → Outcome Version
  | [a] => do
    let major ← parseToken a
    return ⟨major, 0, 0⟩
  | [a, b] => do
    let minor ← parseToken b
    let major ← parseToken a
    return ⟨major, minor, 0⟩
  | [a, b, c] => do
    let patch ← parseToken c
    let minor ← parseToken b
    let major ← parseToken a
    return ⟨major, minor, patch⟩
  | _ => .throw "Expects(!tokens.empty() && tokens.size() <= 3)"

/-- The constructor from a string; Version.cpp:12-26. -/
def parse (s : Text) : Outcome Version := ofTokens (Utils.explode s '.')

/-- `str`, `operator<<`; Version.cpp:45-53. -/
def str (v : Version) : Text := natText v.major ++ '.' :: natText v.minor ++ '.' :: natText v.patch

/-- `operator==`; Version.h:66-68. -/
def eq (a b : Version) : Bool := a.major == b.major && (a.minor == b.minor && a.patch == b.patch)

/-- `operator!=`; Version.h:70-72. -/
def ne (a b : Version) : Bool := !eq b a

/-- `operator<`; Version.h:74-76: the comparison of tuples compares the first elements, and the rest if none is less than the other. -/
def lt (a b : Version) : Bool :=
  decide (a.major < b.major) || (!decide (b.major < a.major) && (decide (a.minor < b.minor) || (!decide (b.minor < a.minor) && decide (a.patch < b.patch))))

/-- `operator>`; Version.h:78-80. -/
def gt (a b : Version) : Bool := lt b a

/-- `operator<=`; Version.h:82-84. -/
def le (a b : Version) : Bool := !lt b a

/-- `operator>=`; Version.h:86-88. -/
def ge (a b : Version) : Bool := !lt a b

end Version

namespace Fold

/-- `findEnterInCurrentLine`; Fold.cpp:55-60. -/
def findEnterInCurrentLine (str : Text) (lineBeg effectiveWidth : Nat) : Option Nat :=
  match (str.drop lineBeg).findIdx? (· == '\n') with
  | none => none
  | some k => if k ≥ effectiveWidth then none else some (lineBeg + k)

/-- `findLastSpaceInCurrentLine`; Fold.cpp:62-67: `rfind` looks for the last space not after the given place. -/
def findLastSpaceInCurrentLine (str : Text) (lineBeg effectiveWidth : Nat) : Option Nat :=
  match (str.take (lineBeg + effectiveWidth)).reverse.findIdx? (· == ' ') with
  | none => none
  | some k => if (str.take (lineBeg + effectiveWidth)).length - 1 - k < lineBeg then none else some ((str.take (lineBeg + effectiveWidth)).length - 1 - k)

/-- `spaceOnBreak`; Fold.cpp:69-71. -/
def spaceOnBreak (str : Text) (lineBeg effectiveWidth : Nat) : Bool := str[lineBeg + effectiveWidth]? == some ' '

/-- `notLastLine`; Fold.cpp:73-75. -/
def notLastLine (str : Text) (lineBeg effectiveWidth : Nat) : Bool := decide (lineBeg + effectiveWidth < str.length)

/-- The body of the loop: what is printed after the margin and the new `lineBeg`; Fold.cpp:21-37. -/
def step (str : Text) (lineBeg w : Nat) : Text × Nat :=
  match findEnterInCurrentLine str lineBeg w with
  | some newline => ((str.drop lineBeg).take (newline - lineBeg + 1), newline + 1)
  | none =>
    if spaceOnBreak str lineBeg w then ((str.drop lineBeg).take w ++ ['\n'], lineBeg + w + 1)
    else match findLastSpaceInCurrentLine str lineBeg w with
      | none => ((str.drop lineBeg).take w ++ ['\n'], lineBeg + w)
      | some spacePos => ((str.drop lineBeg).take (spacePos - lineBeg + 1) ++ ['\n'], spacePos + 1)

/-- The loop and the last line; Fold.cpp:20-42. It would not end if `lineBeg` were not growing. -/
def loop (str : Text) (margin w lineBeg : Nat) : Outcome Text :=
  if notLastLine str lineBeg w then
    if lineBeg < (step str lineBeg w).2 then do
      let rest ← loop str margin w (step str lineBeg w).2
      return List.replicate margin ' ' ++ (step str lineBeg w).1 ++ rest
    else .diverge
  else if lineBeg < str.length then .ok (List.replicate margin ' ' ++ str.drop lineBeg)
  else .ok []
termination_by str.length - lineBeg
decreasing_by
  rename_i h1 h2
  have := of_decide_eq_true h1
  omega

/-- `operator std::string`; Fold.cpp:8-43. -/
def fold (str : Text) (width margin : Nat) : Outcome Text := do
  Outcome.require (decide (width > 1)) "Expects(width_ > 1)"
  Outcome.require (decide (margin < width)) "Expects( margin_ < width_)"
  if str = [] then return []
  else loop str margin (width - margin) 0

end Fold

end Rampack
