import Verif.Sim.LogSpec
import Verif.Domain.Spec
/-
Division of a sweep into domains: what division is used, and how many moves are tried.
-/
namespace Rampack.Spec

open Rampack

/-- A move was tried. -/
def isTry : Event → Bool
  | .tried _ => true
  | _ => false

/-- The log is longer by so many tried moves. -/
def Tries (k : Nat) (S S' : Sim) : Prop := ∃ evs, S'.log = S.log ++ evs ∧ evs.countP isTry = k

/-- The number of moves all groups together ask for, when there are so many molecules: one for each molecule, except for flips. -/
def movesAsked (molecules : Nat) (samplers : List Sampler) : Nat :=
  (samplers.map fun s => match s with
    | .flip every _ _ _ => molecules / every
    | _ => molecules).sum

/-- Dividing the axis `a` into `d` domains is possible: it is one domain, or the part of each domain which is active is wider than a
cell of the grid. What is not active is a cell and what the range of molecules exceeds that of sites by. -/
def Fits (b : Box) (I : Interaction) (cells : Vec3 Nat) (a : Fin 3) (d : Nat) : Prop :=
  d = 1 ∨ b.heights.get a / cells.get a < b.heights.get a / d - (b.heights.get a / cells.get a + (I.totalRange - I.range))

/-- Of `d`, `d` - 1, ..., 1 domains along an axis, `d'` is the first possible number. -/
def FirstFit (b : Box) (I : Interaction) (cells : Vec3 Nat) (a : Fin 3) (d d' : Nat) : Prop :=
  0 < d' ∧ d' ≤ d ∧ Fits b I cells a d' ∧ ∀ e, d' < e → e ≤ d → ¬ Fits b I cells a e

/-- There are molecules in the active part of the domain. -/
def occupied (D : Domain.Decomposition) (c : Vec3 Nat) : Bool :=
  match D.getParticlesInRegion c with
  | .ok (_ :: _) => true
  | _ => false

end Rampack.Spec
