import Verif.Frontend.Outputs
import Verif.IO.TrajSpec
import Verif.IO.CollectorSpec
/-
Specification of resumed outputs (C37).
-/
namespace Rampack.Spec

open Traj

variable {ι D : Type}

/-- What is done with outputs in a run: snapshots go to recorders and to the collector, other things to the collector only. -/
noncomputable def outputsOp (A : Arith) (F : Xyz.Format) (print : D → Text) (view : ι → Snapshot) (o : Outputs ι D) : CollOp ι → Outcome (Outputs ι D)
  | .snapshot x cycle => o.snapshot A F print view x cycle
  | op => do
    let C ← op.run print o.collector
    return ⟨o.recorders, C⟩

/-- Files of a run: recorders and observables. -/
abbrev OutFiles := List RecFile × Option (Option Text)

/-- What a user asks for: observables, how many bulk observables, how many molecules there are, and the period of snapshots. -/
structure OutSetup (ι D : Type) where
  entries : List (Entry ι D)
  bulk : Nat
  molecules : Nat
  every : Nat

/-- A part of a run, from the cycle number `absolute` on: outputs are created or continued, written and closed. -/
noncomputable def outSession (A : Arith) (F : Xyz.Format) (print : D → Text) (view : ι → Snapshot) (s : OutSetup ι D) (absolute : Nat) (cont : Bool)
    (ops : List (CollOp ι)) (files : OutFiles) : Outcome OutFiles := do
  let C ← build s.entries s.bulk
  let o ← Outputs.create s.molecules s.every absolute cont files.1 files.2 C
  let o ← ops.foldlM (outputsOp A F print view) o
  return o.finish

/-- Parts of a run, one after another; each with the number of its last cycle. All but the first one are continuations. -/
noncomputable def outSessions (A : Arith) (F : Xyz.Format) (print : D → Text) (view : ι → Snapshot) (s : OutSetup ι D) :
    Nat → Bool → List (Nat × List (CollOp ι)) → OutFiles → Outcome OutFiles
  | _, _, [], files => .ok files
  | o, cont, (m, ops) :: rest, files => do
    let files ← outSession A F print view s o cont ops files
    outSessions A F print view s m true rest files

/-- Snapshots taken in a part of a run. -/
def taken (ops : List (CollOp ι)) : List (ι × Nat) := ops.filterMap fun | .snapshot x n => some (x, n) | _ => none

/-- The parts follow one another; in each snapshots are taken after all cycles which are divisible by the period (C25). -/
def Follow (every : Nat) : Nat → List (Nat × List (CollOp ι)) → Prop
  | _, [] => True
  | o, (m, ops) :: rest => o ≤ m ∧ (taken ops).map Prod.snd = (List.range' (o + 1) (m - o)).filter (fun n => decide (every ∣ n)) ∧ Follow every m rest

/-- The last cycle of all parts. -/
def endOf : Nat → List (Nat × List (CollOp ι)) → Nat
  | o, [] => o
  | _, (m, _) :: rest => endOf m rest

/-- The file of a recorder is whole and its last snapshot is that of the cycle number `c` (0 if there are none). -/
def Ends (A : Arith) (F : Xyz.Format) (molecules every : Nat) : RecFile → Nat → Prop
  | .ramtrj file, c => ∃ l r, Fits64 molecules every l.length ∧ (∀ x ∈ l, Recordable A molecules x) ∧ session A [] molecules every false l = .ok r ∧
      file = some r.stream.bytes ∧ c = l.length * every
  | .xyz file, c => file = some [] ∧ c = 0 ∨ ∃ l x, Plain F x.box ∧ c < 2 ^ 64 ∧ file = some (xyzText F (l ++ [(x, c)]))

end Rampack.Spec
