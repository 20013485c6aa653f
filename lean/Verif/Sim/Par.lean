import Verif.Sim.Model
/-
Model of the parallel execution of a sweep with domains: /repo/src/core/Simulation.cpp:419-444.

Threads share the packing, the samplers and the list of engines. A thread goes on by steps: in a trial it samples a move, calls a
trial function of the packing and compares the energy change with a random number; in the next step it accepts or rejects the
move. Between two steps of a thread the others may do any number of steps.

Simplifications: a trial and an acceptance are single steps (what they read and write are disjoint sets of grid cells for
different threads, see `C22_cells_disjoint`). Each domain is given to the thread of the same number, the numbers of moves to be done
are found before the first step. `#pragma omp critical` on the number of overlaps is a part of the acceptance.
-/
namespace Rampack.Par

/-- A domain with the thread which works on it; Simulation.cpp:426-433. -/
structure Dom where
  tid : Nat
  idxs : List Nat
  active : Domain.Active
  accs : List Nat

/-- A thread: its domain, how many moves are left, its copy of the counters, and the group and the verdict if a trial was done
which has not been accepted or rejected yet. -/
structure Worker where
  dom : Dom
  left : Nat
  counters : List Counter
  pending : Option (Nat × Bool)

/-- The first part of `tryMove`: sampling the move, the trial and the comparison with a random number; Simulation.cpp:447-483. -/
noncomputable def trial (T : Traits) (S : Sim) (w : Worker) : Outcome (Sim × Worker) := do
  let samplers ← S.env.getMoveSamplers
  Outcome.require (decide (w.counters.length = samplers.length)) "Expects(moveCounters_.size() == moveSamplers.size())"
  Outcome.require (decide (w.dom.accs.length = samplers.length)) "Expects(moveTypeAccumulations.size() == moveSamplers.size())"
  let numMoves ← vback w.dom.accs
  let t ← vget S.mts w.dom.tid
  let (sampled, t) ← uniformInt numMoves t
  let g := moveTypeFor w.dom.accs sampled
  let sampler ← vget samplers g
  let (move, sampler, t) ← sampler.sampleMove S.P w.dom.idxs t
  let (P, dE) ← S.P.tryKind T.I w.dom.tid move.idx move.kind (some w.dom.active.isInside)
  let S' := { S with
    P := P
    env := { S.env with samplers := samplers.set g sampler }
    mts := S.mts.set w.dom.tid (t.drop 1)
    log := S.log ++ [Event.tried g] }
  return (S', { w with pending := some (g, (Sim.boltzmann dE S.temperature).geNum (t 0)) })

/-- The second part of `tryMove`: accepting or rejecting; Simulation.cpp:482-490. -/
noncomputable def finish (S : Sim) (w : Worker) (g : Nat) (accept : Bool) : Outcome (Sim × Worker) := do
  let (S, counters) ← S.decideMove w.counters w.dom.tid g accept
  return (S, { w with counters := counters, left := w.left - 1, pending := none })

/-- A step of a thread, with the shared data before and after it. -/
inductive WorkerStep (T : Traits) : Sim × Worker → Sim × Worker → Prop
  | trial {S S' : Sim} {w w' : Worker} (idle : w.pending = none) (more : 0 < w.left) (h : Par.trial T S w = .ok (S', w')) :
      WorkerStep T (S, w) (S', w')
  | finish {S S' : Sim} {w w' : Worker} {g : Nat} {accept : Bool} (busy : w.pending = some (g, accept))
      (h : Par.finish S w g accept = .ok (S', w')) : WorkerStep T (S, w) (S', w')

/-- The shared data and the threads. -/
structure State where
  S : Sim
  workers : List Worker

/-- Any thread may do the next step. -/
inductive Step (T : Traits) : State → State → Prop
  | step {S S' : Sim} (pre post : List Worker) {w w' : Worker} (h : WorkerStep T (S, w) (S', w')) :
      Step T ⟨S, pre ++ w :: post⟩ ⟨S', pre ++ w' :: post⟩

/-- Any number of steps. -/
inductive Steps (T : Traits) : State → State → Prop
  | refl (X : State) : Steps T X X
  | tail {X Y Z : State} (h : Steps T X Y) (h' : Step T Y Z) : Steps T X Z

/-- Threads with their domains before the first step; Simulation.cpp:417-434. Empty domains are left out (429-430). -/
noncomputable def workers (D : Domain.Decomposition) (S : Sim) : List (Vec3 Nat × Nat) → Outcome (List Worker)
  | [] => .ok []
  | c :: l => do
    let idxs ← D.getParticlesInRegion c.1
    let active ← D.getActiveDomainBounds c.1
    let rest ← workers D S l
    if idxs.isEmpty then return rest
    else do
      let samplers ← S.env.getMoveSamplers
      let accs ← moveTypeAccumulations (S.P.size / S.numDomains) samplers 0
      let numMoves ← vback accs
      return ⟨⟨c.2, idxs, active, accs⟩, numMoves, List.replicate S.counters.length Counter.zero, none⟩ :: rest

/-- The beginning of the parallel loop; Simulation.cpp:417-434. -/
noncomputable def start (D : Domain.Decomposition) (S : Sim) : Outcome State := do
  let ws ← workers D S (Packing.loopCells S.divs).zipIdx
  return ⟨S, ws⟩

/-- A thread has done all its moves. -/
def Worker.Done (w : Worker) : Prop := w.left = 0 ∧ w.pending = none

/-- All threads have done all moves. -/
def State.Done (X : State) : Prop := ∀ w ∈ X.workers, w.Done

/-- The state after the loop: copies of counters are summed up in some order, and added; Simulation.cpp:417-418, 444. -/
def State.Ends (X : State) (S : Sim) : Prop :=
  ∃ order : List Worker, order.Perm X.workers ∧ S = { X.S with
    counters := List.zipWith Counter.add X.S.counters
      (order.foldl (fun a w => List.zipWith Counter.add a w.counters) (List.replicate X.S.counters.length Counter.zero)) }

/-- The beginning of `performMovesWithDomainDivision`, when the domains are not too narrow: the shared data and the threads before
the first step; Simulation.cpp:396-434. -/
noncomputable def begin (T : Traits) (S : Sim) : Outcome State := do
  let t ← vget S.mts 0
  let origin := S.P.box.relToAbs ⟨t 0, t 1, t 2⟩
  let S := { S with mts := S.mts.set 0 (t.drop 3) }
  let grid ← S.P.gridDivisions
  let r ← Domain.decompose S.P T.I S.divs grid origin
  match r with
  | .tooNarrow _ => .throw "TooNarrowDomainException"
  | .ok D => start D S

end Rampack.Par
