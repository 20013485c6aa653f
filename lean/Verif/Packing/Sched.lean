import Verif.Packing.Model
/-
Model of the two OpenMP loops with the shared flag `overlapFound`, under arbitrary schedules:
/repo/src/core/Packing.cpp:522-544 and 561-580.

The iterations are distributed among threads in any way. Each thread goes through its iterations; for each of them it
loads the flag (a relaxed atomic load: it may see `true` only after some thread has stored it, but it may always see an
outdated `false`), and either skips the iteration or does the counting, which reads nothing that others change, and then
stores the flag (if something was found) and adds to its private copy of the reduction variable. Steps of threads
interleave arbitrarily.
-/
namespace Rampack.Packing

/-- A thread of the parallel loop: remaining iterations, the iteration being processed, the private sum. -/
structure Thread (α : Type) where
  todo : List α
  busy : Option α
  acc : Nat

/-- The state of the parallel loop; `flag` is set once somebody has stored `true` in `overlapFound`. -/
structure LoopState (α : Type) where
  flag : Bool
  threads : List (Thread α)

/-- One step of one of the threads; src/core/Packing.cpp:530-539 and 570-577. -/
inductive SchedStep {α : Type} (earlyExit : Bool) (f : α → Outcome Nat) : LoopState α → LoopState α → Prop
  /-- `if (earlyExit && overlapFound.load()) continue;` -/
  | skip (pre post : List (Thread α)) (c : α) (rest : List α) (acc : Nat) (h : earlyExit = true) :
      SchedStep earlyExit f ⟨true, pre ++ ⟨c :: rest, none, acc⟩ :: post⟩ ⟨true, pre ++ ⟨rest, none, acc⟩ :: post⟩
  /-- the flag was not asked for or `false` was seen -/
  | enter (flag : Bool) (pre post : List (Thread α)) (c : α) (rest : List α) (acc : Nat) :
      SchedStep earlyExit f ⟨flag, pre ++ ⟨c :: rest, none, acc⟩ :: post⟩ ⟨flag, pre ++ ⟨rest, some c, acc⟩ :: post⟩
  /-- counting, `if (earlyExit && n > 0) overlapFound.store(true);`, adding -/
  | finish (flag : Bool) (pre post : List (Thread α)) (c : α) (rest : List α) (acc n : Nat) (h : f c = .ok n) :
      SchedStep earlyExit f ⟨flag, pre ++ ⟨rest, some c, acc⟩ :: post⟩
        ⟨flag || (earlyExit && decide (n > 0)), pre ++ ⟨rest, none, acc + n⟩ :: post⟩

/-- Any number of steps. -/
inductive SchedSteps {α : Type} (earlyExit : Bool) (f : α → Outcome Nat) : LoopState α → LoopState α → Prop
  | refl (s : LoopState α) : SchedSteps earlyExit f s s
  | tail {s s' s'' : LoopState α} : SchedSteps earlyExit f s s' → SchedStep earlyExit f s' s'' → SchedSteps earlyExit f s s''

/-- The loop starts with the iterations distributed among the threads. -/
def LoopState.start {α : Type} (parts : List (List α)) : LoopState α := ⟨false, parts.map fun l => ⟨l, none, 0⟩⟩

/-- All threads are at the end. -/
def LoopState.Done {α : Type} (s : LoopState α) : Prop := ∀ t ∈ s.threads, t.todo = [] ∧ t.busy = none

/-- The value of the reduction variable after the loop. -/
def LoopState.result {α : Type} (s : LoopState α) : Nat := (s.threads.map Thread.acc).sum

/-- `k` is a possible result of the parallel loop over the given iterations. -/
def LoopResult {α : Type} (earlyExit : Bool) (f : α → Outcome Nat) (iterations : List α) (k : Nat) : Prop :=
  ∃ parts s, parts.flatten.Perm iterations ∧ SchedSteps earlyExit f (LoopState.start parts) s ∧ s.Done ∧ k = s.result

/-- `k` is a possible result of `countWallOverlaps`; src/core/Packing.cpp:561-580. -/
def WallCount (P : Packing) (I : Interaction) (earlyExit : Bool) (k : Nat) : Prop :=
  if P.hasAnyWalls then LoopResult earlyExit (fun i => P.countParticleWallOverlaps I i earlyExit) (List.range P.size) k else k = 0

/-- `k` is a possible result of the part of `countTotalOverlaps` concerned with pairs of molecules;
src/core/Packing.cpp:522-557. -/
def PairCount (P : Packing) (I : Interaction) (earlyExit : Bool) (k : Nat) : Prop :=
  match P.ng with
  | some g => LoopResult earlyExit (P.countCell I g earlyExit) (loopCells g.getCellDivisions) k
  | none => P.countChecks I earlyExit P.totalChecksNoNG = .ok k

/-- `k` is a possible result of `countTotalOverlaps`, for some schedule of its parallel loops;
src/core/Packing.cpp:519-559. -/
def TotalCount (P : Packing) (I : Interaction) (earlyExit : Bool) (k : Nat) : Prop :=
  ∃ c, PairCount P I earlyExit c ∧
    if earlyExit = true ∧ c > 0 then k = 1 else ∃ w, WallCount P I earlyExit w ∧ k = c + w

end Rampack.Packing
