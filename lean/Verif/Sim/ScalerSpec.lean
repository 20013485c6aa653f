import Verif.Sim.Direction
/-
Specification of scaling directions and of volume moves.
-/
namespace Rampack.Spec

open Rampack

/-- A part of a scaling direction: a direction scaled on its own, directions scaled together `(...)`, directions which are not
scaled `[...]`. -/
inductive Piece where
  | alone (c : Char)
  | together (cs : List Char)
  | kept (cs : List Char)

/-- How it is written. -/
def Piece.text : Piece → List Char
  | .alone c => [c]
  | .together cs => '(' :: cs ++ [')']
  | .kept cs => '[' :: cs ++ [']']

/-- The directions it mentions. -/
def Piece.letters : Piece → List Char
  | .alone c => [c]
  | .together cs => cs
  | .kept cs => cs

/-- The sets of axes to be scaled. -/
def Piece.directions : Piece → List (Vec3 Bool)
  | .alone c => [⟨c == 'x', c == 'y', c == 'z'⟩]
  | .together [] => []
  | .together cs => [⟨cs.contains 'x', cs.contains 'y', cs.contains 'z'⟩]
  | .kept _ => []

/-- All factors are positive. -/
def PositiveFactors (f : Vec3 ℝ) : Prop := 0 < f.x ∧ 0 < f.y ∧ 0 < f.z

/-- The factor of a length: `log` multiplies it, `linear` adds to it. -/
noncomputable def scaleFactor (fs : FactorSampler) (length s : ℝ) : ℝ :=
  match fs with
  | .linear => (length + s) / length
  | .log => Real.exp s

/-- The product, over the alternatives containing an axis, of their factors. -/
noncomputable def productFactor (fs : FactorSampler) (axis : Vec3 Bool → Bool) (length step : ℝ) : Directions → Tape → ℝ
  | [], _ => 1
  | d :: dirs, t => (if axis d then scaleFactor fs length (uniformReal (-step) step (t 0)) else 1) *
      productFactor fs axis length step dirs (t.drop 1)

end Rampack.Spec
