import Verif.IO.Ramsnap
/-
Specification of snapshot files (C34).
-/
namespace Rampack

namespace Spec

open Traj Ramsnap

/-- Some digits, at least one. -/
def Digits (t : Text) : Prop := t ≠ [] ∧ ∀ c ∈ t, c ∈ ['0', '1', '2', '3', '4', '5', '6', '7', '8', '9']

/-- How finite numbers are printed by `out << x`: an optional minus, digits, optional fraction and optional exponent. -/
inductive Literal : Text → Prop where
  | intro (sign whole frac exp : Text) (hs : sign = [] ∨ sign = ['-']) (hw : Digits whole) (hf : frac = [] ∨ ∃ f, Digits f ∧ frac = '.' :: f)
      (he : exp = [] ∨ ∃ s e, (s = '+' ∨ s = '-') ∧ Digits e ∧ exp = 'e' :: s :: e) : Literal (sign ++ whole ++ frac ++ exp)

/-- A number which can be printed and read back (17 significant digits are enough for all finite numbers of type `double`). -/
structure Printable (P : Numbers) (w : Word) : Prop where
  literal : Literal (P.print w)
  back : P.read (P.print w) = some w

/-- Three numbers. -/
def PrintableVec (P : Numbers) (v : Vec3 Word) : Prop := Printable P v.x ∧ Printable P v.y ∧ Printable P v.z

/-- Nine numbers. -/
def PrintableMat (P : Numbers) (m : MatW) : Prop := PrintableVec P m.x ∧ PrintableVec P m.y ∧ PrintableVec P m.z

/-- A packing with finite numbers, of a size which fits in its type, which can be loaded. -/
structure Storable (A : Arith) (P : Numbers) (x : Snapshot) : Prop where
  box : PrintableMat P x.box
  shapes : ∀ s ∈ x.shapes, PrintableVec P s.pos ∧ PrintableMat P s.rot
  size : x.shapes.length < 2 ^ 64
  boxOk : A.boxOk x.box = true
  reset : A.resetOk x.box (x.shapes.map ShapeW.pos) = true

/-- A word: something without white space. -/
def Word1 (t : Text) : Prop := t ≠ [] ∧ ∀ c ∈ t, isSpace c = false

/-- What can be the rest of a line: it does not begin with white space and has no line end. -/
def Line1 (t : Text) : Prop := (∃ c l, t = c :: l ∧ isSpace c = false) ∧ '\n' ∉ t

/-- Entries of a map with words as keys and lines as values, at least one of them. -/
structure PlainAux (m : Aux) : Prop where
  sorted : (m.map Prod.fst).Pairwise (· < ·)
  ne : m ≠ []
  size : m.length < 2 ^ 64
  keys : ∀ e ∈ m, Word1 e.1
  values : ∀ e ∈ m, Line1 e.2

end Spec

end Rampack
