import Verif.Frontend.PreviewFile
import Verif.Frontend.InputSpec
import Verif.Utils.StringsSpec
/-
What formats of shape previews are, after /repo/docs/output-formats.md (Shape model formats), and what the program takes for a number of divisions.
-/
namespace Rampack.PreviewFile.Spec

open Pyon Pyon.Spec Rampack.Input.Spec

/-- A text which begins with a number, as `std::stoul` of C++ has it: white space, a sign, digits and anything else. With the minus sign the number is counted down from 2^64. -/
def BeginsWith (s : Text) (n : Nat) : Prop :=
  ∃ blanks sign digits rest : Text, s = blanks ++ sign ++ digits ++ rest ∧ (∀ c ∈ blanks, isSpace c = true) ∧ digits ≠ [] ∧ (∀ c ∈ digits, isDec c = true) ∧
    (∀ c ∈ rest.head?, isDec c = false) ∧ textNat digits < 2 ^ 64 ∧
    ((sign = [] ∨ sign = "+".toList) ∧ n = textNat digits ∨ sign = "-".toList ∧ n = (2 ^ 64 - textNat digits) % 2 ^ 64)

/-- The number of divisions: 3, or the one which is given. -/
def Divisions (params : List (Text × Text)) (n : Nat) : Prop :=
  (∀ s, ("mesh_divisions".toList, s) ∉ params) ∧ n = 3 ∨ ∃ s, ("mesh_divisions".toList, s) ∈ params ∧ BeginsWith s n ∧ 1 ≤ n

/-- The expression describes a preview: a class with the name of the file and other named arguments, all of which are texts. -/
def IsPreview (n : Node ℝ) (p : Preview) : Prop :=
  ∃ (name : String) (ps : List (Node ℝ)) (ks : List (Text × Node ℝ)) (a : Node ℝ) (params : List (Text × Text)),
    (name, p.format) ∈ [("wolfram", Format.wolfram), ("obj", Format.obj)] ∧ n = .dataclass name.toList ps ks ∧ ps.length ≤ 1 ∧ Arguments ps ks [("filename", none)] [a] ∧
      IsText a p.filename ∧ Ordered params ∧ (∀ k m, (Given ks k m ∧ k ≠ "filename".toList) ↔ ∃ s, m = .string s ∧ (k, s) ∈ params) ∧ Divisions params p.divisions

end Rampack.PreviewFile.Spec
