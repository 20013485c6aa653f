import Verif.Packing.Spec
/-
Histories of a packing: what a user may call on it one after another. (Parallel calls are the subject of `Verif.Sim`.)
-/
namespace Rampack

open Rampack.Spec

namespace Packing

/-- The kinds of trial moves with their arguments. -/
inductive Kind where
  | translation (v : Vec3 ℝ)
  | rotation (R : Mat3)
  | move (v : Vec3 ℝ) (R : Mat3)

/-- The shape a trial move proposes. -/
noncomputable def Kind.apply (b : Box) (s : Shape) : Kind → Shape
  | .translation v => s.translate b v
  | .rotation R => s.rotate R
  | .move v R => (s.translate b v).rotate R

/-- A trial move of the given kind. -/
noncomputable def tryKind (P : Packing) (I : Interaction) (tid i : Nat) (k : Kind) (domain : Option (Vec3 ℝ → Bool)) :
    Outcome (Packing × EnergyChange) :=
  match k with
  | .translation v => P.tryTranslation I tid i v domain
  | .rotation R => P.tryRotation I tid i R
  | .move v R => P.tryMove I tid i v R domain

/-- The proposed position is allowed. -/
def InDomain (k : Kind) (domain : Option (Vec3 ℝ → Bool)) (p : Vec3 ℝ) : Prop :=
  match k with
  | .rotation _ => True
  | _ => ∀ d, domain = some d → d p = true

/-- The three accepting functions. -/
inductive How where
  | translation
  | rotation
  | move

/-- Calling one of the accepting functions. -/
noncomputable def acceptHow (P : Packing) (tid : Nat) : How → Outcome Packing
  | .translation => P.acceptTranslation tid
  | .rotation => P.acceptRotation tid
  | .move => P.acceptMove tid

/-- `acceptTranslation` is for trial translations, `acceptRotation` for trial rotations, `acceptMove` for everything. -/
def How.For : Kind → How → Prop
  | .translation _, .translation => True
  | .rotation _, .rotation => True
  | _, .move => True
  | _, _ => False

/-- Public operations on a packing. -/
inductive Op where
  /-- a trial move which is not accepted -/
  | trial (tid i : Nat) (k : Kind) (domain : Option (Vec3 ℝ → Bool))
  /-- a trial move which is accepted -/
  | move (tid i : Nat) (k : Kind) (domain : Option (Vec3 ℝ → Bool)) (how : How)
  /-- `tryScaling`, followed by `revertScaling` if `keep` is false -/
  | scale (b : Box) (keep : Bool)
  /-- `toggleOverlapCounting` -/
  | counting (on : Bool)
  /-- `toggleWalls` -/
  | walls (w : Vec3 Bool)
  /-- `reset` -/
  | reset (shapes : List Shape) (b : Box) (I' : Interaction)
  /-- `setupForInteraction` -/
  | setup (I' : Interaction)
  /-- `renormalizeOrientations` -/
  | renormalize (tid : Nat) (allowOverlaps : Bool)

/-- Executing an operation; the second component is the interaction the packing is then set up for. -/
noncomputable def Op.run (P : Packing) (I : Interaction) : Op → Outcome (Packing × Interaction)
  | .trial tid i k domain => do
    let (P, _) ← P.tryKind I tid i k domain
    return (P, I)
  | .move tid i k domain how => do
    let (P, _) ← P.tryKind I tid i k domain
    let P ← P.acceptHow tid how
    return (P, I)
  | .scale b true => do
    let (P, _) ← P.tryScaling I b
    return (P, I)
  | .scale b false => do
    let (P, _) ← P.tryScaling I b
    let P ← P.revertScaling
    return (P, I)
  | .counting on => do
    let P ← P.toggleOverlapCounting on I
    return (P, I)
  | .walls w => .ok (P.toggleWalls w, I)
  | .reset shapes b I' => do
    let P ← P.reset shapes b I'
    return (P, I')
  | .setup I' => do
    let P ← P.setupForInteraction I'
    return (P, I')
  | .renormalize tid allow => do
    let (P, _) ← P.renormalizeOrientations I tid allow
    return (P, I)

/-- The number of sites of `n` molecules. -/
def sites (n m : Nat) : Nat := n * max 1 m

/-- The conditions under which the operations are used. Those for walls, `reset` and `setupForInteraction` exclude what the
code gets wrong: switching walls does not refresh the number of overlaps, the grid does not grow when there are more sites
than before, and differences of overlap numbers from an interaction with a hard part are still there after a change to one
without. -/
def Op.Allowed (P : Packing) (I : Interaction) : Op → Prop
  | .trial tid i _ _ => tid < P.moveThreads ∧ i < P.size
  | .move tid i k domain how => tid < P.moveThreads ∧ how.For k ∧
      ∃ s, (mols P)[i]? = some s ∧ InDomain k domain (k.apply P.box s).pos
  | .scale b _ => ∃ M, Box.make M = .ok b
  | .counting _ => True
  | .walls _ => P.overlapCounting = false
  | .reset shapes b I' => Contract I' ∧ (∃ M, Box.make M = .ok b) ∧ shapes ≠ [] ∧ (∀ s ∈ shapes, Inside b s.pos) ∧
      sites shapes.length I'.centres.length < 2 ^ 50 ∧
      (sites shapes.length I'.centres.length ≤ sites P.size I.centres.length ∨ P.ng = none ∧ P.tempNg = none) ∧
      (I'.hasHard = false → I.hasHard = false)
  | .setup I' => Contract I' ∧ sites P.size I'.centres.length < 2 ^ 50 ∧
      (sites P.size I'.centres.length ≤ sites P.size I.centres.length ∨ P.ng = none ∧ P.tempNg = none) ∧
      (I'.hasHard = false → I.hasHard = false)
  | .renormalize tid _ => tid < P.moveThreads

/-- The packings (with the interaction they are set up for) which one can get by using the public operations. -/
inductive Reachable : Packing → Interaction → Prop
  | create {M : Mat3} {b : Box} {shapes : List Shape} {I : Interaction} {threads : Nat} {P : Packing} (hI : Contract I)
      (hb : Box.make M = .ok b) (hne : shapes ≠ []) (hin : ∀ s ∈ shapes, Inside b s.pos)
      (hcap : sites shapes.length I.centres.length < 2 ^ 50) (hP : create b shapes I threads = .ok P) : Reachable P I
  | step {P P' : Packing} {I I' : Interaction} (op : Op) (h : Reachable P I) (ha : op.Allowed P I)
      (hr : op.run P I = .ok (P', I')) : Reachable P' I'

end Packing

end Rampack
