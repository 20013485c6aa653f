import Verif.Sim.Scaler
/-
Model of /repo/src/frontend/ScalingDirectionParser.cpp. Strings are lists of characters.
-/
namespace Rampack

namespace Direction

/-- `charToScalingDirection`; ScalingDirectionParser.cpp:11-22. -/
def charDirections (c : Char) : Outcome Directions :=
  if c = 'x' then .ok Directions.X
  else if c = 'y' then .ok Directions.Y
  else if c = 'z' then .ok Directions.Z
  else .throw "AssertThrow"

/-- `isDirectionUsed[direction - 'x']`. -/
def isUsed (used : Vec3 Bool) (c : Char) : Bool :=
  if c = 'x' then used.x else if c = 'y' then used.y else used.z

/-- `isDirectionUsed[direction - 'x'] = true`. -/
def setUsed (used : Vec3 Bool) (c : Char) : Vec3 Bool :=
  if c = 'x' then { used with x := true } else if c = 'y' then { used with y := true } else { used with z := true }

/-- `registerScalingDirection`; ScalingDirectionParser.cpp:24-31. -/
def register (c : Char) (used : Vec3 Bool) : Outcome (Vec3 Bool) :=
  if c < 'x' ∨ c > 'z' then .throw "Unexpected character"
  else if isUsed used c then .throw "Duplicated occurrence"
  else .ok (setUsed used c)

/-- `str.find(closing, idx)` and the parts before and after it. -/
def splitAtChar (closing : Char) : List Char → Option (List Char × List Char)
  | [] => none
  | c :: l => if c = closing then some ([], l) else (splitAtChar closing l).map fun (a, b) => (c :: a, b)

theorem splitAtChar_length {closing : Char} : ∀ {l a b : List Char}, splitAtChar closing l = some (a, b) → b.length < l.length
  | [], a, b, h => by simp [splitAtChar] at h
  | c :: l, a, b, h => by
    unfold splitAtChar at h
    split_ifs at h
    · cases h; simp
    · cases h' : splitAtChar closing l with
      | none => rw [h'] at h; cases h
      | some p =>
        rw [h'] at h
        cases h
        have := splitAtChar_length h'
        simp only [List.length_cons]
        omega

/-- The loop over the characters in round brackets; ScalingDirectionParser.cpp:60-63. -/
def group : List Char → Directions → Vec3 Bool → Outcome (Directions × Vec3 Bool)
  | [], d, used => .ok (d, used)
  | c :: l, d, used => do
    let used ← register c used
    let e ← charDirections c
    let d ← d.and e
    group l d used

/-- The loop over the characters in square brackets; ScalingDirectionParser.cpp:69-70. -/
def frozen : List Char → Vec3 Bool → Outcome (Vec3 Bool)
  | [], used => .ok used
  | c :: l, used => do
    let used ← register c used
    frozen l used

/-- The main loop; ScalingDirectionParser.cpp:48-76. -/
def parseLoop (s : List Char) (d : Directions) (used : Vec3 Bool) : Outcome (Directions × Vec3 Bool) :=
  match s with
  | [] => .ok (d, used)
  | c :: l =>
    if c = 'x' ∨ c = 'y' ∨ c = 'z' then do
      let used ← register c used
      let e ← charDirections c
      parseLoop l (d.or e) used
    else if c = '(' then
      match h : splitAtChar ')' l with
      | none => .throw "Unmatched '(' in scaling direction"
      | some (content, rest) => do
        let (g, used) ← group content [] used
        parseLoop rest (d.or g) used
    else if c = '[' then
      match h : splitAtChar ']' l with
      | none => .throw "Unmatched '[' in scaling direction"
      | some (content, rest) => do
        let used ← frozen content used
        parseLoop rest d used
    else .throw "Unexpected character"
termination_by s.length
decreasing_by
  · simp
  · have := splitAtChar_length h; simp only [List.length_cons]; omega
  · have := splitAtChar_length h; simp only [List.length_cons]; omega

/-- `parse`; ScalingDirectionParser.cpp:43-81. -/
def parse (s : List Char) : Outcome Directions := do
  let (d, used) ← parseLoop s [] ⟨false, false, false⟩
  Outcome.require (used.x && used.y && used.z) "The behaviour of one or more scaling directions is unspecified"
  return d

end Direction

end Rampack
