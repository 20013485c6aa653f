import Verif.IO.SnapSpec
import Verif.IO.Xyz
/-
Specification of reading lines backwards (C35) and of outputs made of lines.
-/
namespace Rampack.Spec

open Xyz Traj

/-- The text with the given lines, separated by line ends. -/
def joinLines : List Text → Text
  | [] => []
  | [l] => l
  | l :: k :: ls => l ++ '\n' :: joinLines (k :: ls)

/-- Reading backwards until it fails gives these lines, in this order. -/
inductive ReadsBack : TextFile → List Text → Prop where
  | stop {f f' : TextFile} {l : Text} (h : f.getlineBackwards = .ok (l, f')) (hf : f'.fail = true) : ReadsBack f []
  | line {f f' : TextFile} {l : Text} {ls : List Text} (h : f.getlineBackwards = .ok (l, f')) (hf : f'.fail = false) (rest : ReadsBack f' ls) :
      ReadsBack f (l :: ls)

/-- The text of an output with observables: a line with the names, then a line for each snapshot, with the number of cycles and the values. -/
def obsText (header : Text) (rows : List (Nat × Text)) : Text :=
  header ++ '\n' :: rows.flatMap (fun r => natText r.1 ++ ' ' :: r.2 ++ ['\n'])

/-- The number of cycles in the last line, or 0. -/
def lastOf (rows : List (Nat × Text)) : Nat := (rows.getLast?.map Prod.fst).getD 0

/-- Numbers of a matrix are printed as numbers. -/
def Plain (F : Format) (m : MatW) : Prop :=
  (Literal (F.print m.x.x) ∧ Literal (F.print m.x.y) ∧ Literal (F.print m.x.z)) ∧
  (Literal (F.print m.y.x) ∧ Literal (F.print m.y.y) ∧ Literal (F.print m.y.z)) ∧
  (Literal (F.print m.z.x) ∧ Literal (F.print m.z.y) ∧ Literal (F.print m.z.z))

/-- An XYZ trajectory with the given snapshots and their numbers of cycles. -/
def xyzText (F : Format) (l : List (Snapshot × Nat)) : Text := l.flatMap fun x => write F x.1 x.2

end Rampack.Spec
