import Verif.Sim.Sampler
import Verif.Sim.Scaler
import Verif.Param.Model
import Verif.Domain.Model
import Mathlib.Analysis.SpecialFunctions.Log.Basic
/-
Model of Monte Carlo runs: /repo/src/core/Simulation.{h,cpp}.

What is observable from outside while a run goes on is written down in the log (`Event`): calls to the observables collector
and to the recorders, cycles with the step sizes after them, tried and accepted moves. The log is not used by the run itself.

Simplifications: logging and measuring time are omitted. Observables and recorders do nothing to the simulation. An interruption
(SIGINT) is given by a function `stop`: whether the flag is set when it is checked after the cycle of the given number. Move
samplers and box scalers of an environment are values: an object shared by two environments or listed twice is not modelled.
Cycle numbers are natural numbers. In a sweep with domains, the domain number d in the order of the triple loop is done by the
thread number d (the static schedule for at least as many threads as there are domains), one domain after another; other orders
of execution are the subject of `Verif.Sim.Par`.
-/
namespace Rampack

/-- Values of `double` in the Metropolis rule: a number, an infinity, or not a number. -/
inductive Ext where
  | fin (x : ℝ)
  | posInf
  | negInf
  | nan

namespace Ext

/-- Unary minus. -/
def neg : Ext → Ext
  | fin x => fin (-x)
  | posInf => negInf
  | negInf => posInf
  | nan => nan

/-- Addition. -/
def add : Ext → Ext → Ext
  | nan, _ => nan
  | _, nan => nan
  | fin x, fin y => fin (x + y)
  | posInf, negInf => nan
  | negInf, posInf => nan
  | posInf, _ => posInf
  | _, posInf => posInf
  | negInf, _ => negInf
  | _, negInf => negInf

/-- Subtraction. -/
def sub (x y : Ext) : Ext := x.add y.neg

/-- Division by a number (a zero is a positive one). -/
noncomputable def div (x : Ext) (t : ℝ) : Ext :=
  match x with
  | nan => nan
  | fin x => if t ≠ 0 then fin (x / t) else if x > 0 then posInf else if x < 0 then negInf else nan
  | posInf => if t ≥ 0 then posInf else negInf
  | negInf => if t ≥ 0 then negInf else posInf

/-- `std::exp`. -/
noncomputable def exp : Ext → Ext
  | fin x => fin (Real.exp x)
  | posInf => posInf
  | negInf => fin 0
  | nan => nan

/-- `u <= x`. -/
noncomputable def geNum (x : Ext) (u : ℝ) : Bool :=
  match x with
  | fin x => decide (u ≤ x)
  | posInf => true
  | _ => false

/-- `u > x`. -/
noncomputable def ltNum (x : Ext) (u : ℝ) : Bool :=
  match x with
  | fin x => decide (u > x)
  | negInf => true
  | _ => false

end Ext

/-- An energy change as a `double`. -/
def EnergyChange.toExt : EnergyChange → Ext
  | .negInf => .negInf
  | .fin e => .fin e
  | .posInf => .posInf

/-- `Simulation::Counter`; src/core/Simulation.h:185-205. -/
@[ext] structure Counter where
  movesSince : Nat
  acceptedSince : Nat
  moves : Nat
  accepted : Nat

namespace Counter

/-- A counter which has counted nothing; Simulation.h:187-190. -/
def zero : Counter := ⟨0, 0, 0, 0⟩

/-- `increment`; Simulation.cpp:609-616. -/
def increment (c : Counter) (accepted : Bool) : Counter :=
  if accepted then ⟨c.movesSince + 1, c.acceptedSince + 1, c.moves + 1, c.accepted + 1⟩
  else ⟨c.movesSince + 1, c.acceptedSince, c.moves + 1, c.accepted⟩

/-- `reset`; Simulation.cpp:618-623. -/
def reset (_ : Counter) : Counter := ⟨0, 0, 0, 0⟩

/-- `resetCurrent`; Simulation.cpp:625-628. -/
def resetCurrent (c : Counter) : Counter := { c with movesSince := 0, acceptedSince := 0 }

/-- `getCurrentRate`; Simulation.cpp:630-632. `none` is not a number (0 / 0). -/
noncomputable def currentRate (c : Counter) : Option ℝ :=
  if c.movesSince = 0 then none else some ((c.acceptedSince : ℝ) / c.movesSince)

/-- `operator+=`; Simulation.cpp:642-648. -/
def add (c d : Counter) : Counter :=
  ⟨c.movesSince + d.movesSince, c.acceptedSince + d.acceptedSince, c.moves + d.moves, c.accepted + d.accepted⟩

end Counter

/-- `accumulateCounters`; Simulation.cpp:676-679. -/
def accumulateCounters (out inn : List Counter) : Outcome (List Counter) :=
  if out.length ≤ inn.length then .ok (List.zipWith Counter.add out inn) else .ub

/-- The box scaler of an environment with its status; Simulation.h:115-119 and 125-126. -/
inductive ScalerStatus where
  | unset
  | disabled
  | enabled (s : Scaler)

/-- `Simulation::Environment`; Simulation.h:113-126. The two vectors of samplers always have the same elements. -/
structure Env where
  temperature : Option Param
  pressure : Option Param
  samplers : List Sampler
  scaler : ScalerStatus

namespace Env

/-- The default constructor. -/
def empty : Env := ⟨none, none, [], .unset⟩

/-- `hasTemperature`; Simulation.h:129. -/
def hasTemperature (e : Env) : Bool := e.temperature.isSome

/-- `hasPressure`; Simulation.h:134. -/
def hasPressure (e : Env) : Bool := e.pressure.isSome

/-- `hasMoveSamplers`; Simulation.h:139. -/
def hasMoveSamplers (e : Env) : Bool := !e.samplers.isEmpty

/-- `hasBoxScaler`; Simulation.h:144. -/
def hasBoxScaler (e : Env) : Bool := match e.scaler with | .unset => false | _ => true

/-- `isBoxScalingEnabled`; Simulation.h:145-147. -/
def isBoxScalingEnabled (e : Env) : Bool := match e.scaler with | .enabled _ => true | _ => false

/-- `setTemperature`; Simulation.cpp:837-840. -/
def setTemperature (e : Env) (p : Option Param) : Outcome Env := do
  Outcome.require p.isSome "Expects(temperature_.hasValue())"
  return { e with temperature := p }

/-- `setPressure`; Simulation.cpp:852-855. -/
def setPressure (e : Env) (p : Option Param) : Outcome Env := do
  Outcome.require p.isSome "Expects(pressure_.hasValue())"
  return { e with pressure := p }

/-- `setMoveSamplers`; Simulation.cpp:867-873. `none` is a null pointer. -/
def setMoveSamplers (e : Env) (s : List (Option Sampler)) : Outcome Env := do
  Outcome.require (!s.isEmpty) "Expects(!moveSamplers_.empty())"
  Outcome.require (s.all Option.isSome) "Expects(std::all_of(...))"
  return { e with samplers := s.reduceOption }

/-- `setBoxScaler`; Simulation.cpp:885-889. -/
def setBoxScaler (e : Env) (s : Option Scaler) : Outcome Env :=
  match s with
  | none => .throw "Expects(boxScaler_ != nullptr)"
  | some s => .ok { e with scaler := .enabled s }

/-- `disableBoxScaling`; Simulation.cpp:891-894. -/
def disableBoxScaling (e : Env) : Env := { e with scaler := .disabled }

/-- `getTemperature`; Simulation.cpp:827-835. -/
def getTemperature (e : Env) : Outcome Param :=
  match e.temperature with
  | none => .throw "Expects(this->hasTemperature())"
  | some p => .ok p

/-- `getPressure`; Simulation.cpp:842-850. -/
def getPressure (e : Env) : Outcome Param :=
  match e.pressure with
  | none => .throw "Expects(this->hasPressure())"
  | some p => .ok p

/-- `getMoveSamplers`; Simulation.cpp:857-865. -/
def getMoveSamplers (e : Env) : Outcome (List Sampler) := do
  Outcome.require e.hasMoveSamplers "Expects(this->hasMoveSamplers())"
  return e.samplers

/-- `getBoxScaler`; Simulation.cpp:875-883. -/
def getBoxScaler (e : Env) : Outcome Scaler :=
  match e.scaler with
  | .enabled s => .ok s
  | _ => .throw "Expects(this->isBoxScalingEnabled())"

/-- `combine`; Simulation.cpp:802-815. -/
def combine (e other : Env) : Env :=
  let e := if other.hasTemperature then { e with temperature := other.temperature } else e
  let e := if other.hasPressure then { e with pressure := other.pressure } else e
  let e := if other.hasMoveSamplers then { e with samplers := other.samplers } else e
  if other.hasBoxScaler then { e with scaler := other.scaler } else e

/-- `isComplete`; Simulation.cpp:817-825. -/
def isComplete (e : Env) : Bool :=
  if !e.hasBoxScaler then false
  else if e.isBoxScalingEnabled then e.hasTemperature && e.hasPressure && e.hasMoveSamplers
  else e.hasTemperature && e.hasMoveSamplers

end Env

/-- What happens in a run. -/
inductive Event where
  /-- `observablesCollector->clear()`: a run begins -/
  | clear
  /-- `observablesCollector->setThermodynamicParameters` -/
  | thermo (temperature pressure : ℝ)
  /-- thermalisation (or overlap relaxation) begins -/
  | thermalisation
  /-- averaging begins -/
  | averaging
  /-- a move of a group was tried -/
  | tried (group : Nat)
  /-- the move was accepted, and what the packing is then -/
  | accepted (group : Nat) (P : Packing)
  /-- a scaling was tried -/
  | triedScaling
  /-- the scaling was accepted, and what the packing is then -/
  | acceptedScaling (P : Packing)
  /-- a cycle was finished: its number, the packing, the samplers and the scaler after it -/
  | cycle (n : Nat) (P : Packing) (samplers : List Sampler) (scaler : ScalerStatus)
  /-- orientations were renormalised, and what the packing is then -/
  | fixed (P : Packing)
  /-- `observablesCollector->addSnapshot` -/
  | snapshot (n : Nat) (P : Packing)
  /-- `recordSnapshot` of the recorder number `r` -/
  | recorded (r n : Nat) (P : Packing)
  /-- `observablesCollector->addAveragingValues` -/
  | averaged (P : Packing)
  /-- `printInlineInfo` -/
  | info (n : Nat)

/-- `Simulation` with the log; Simulation.h:207-232. -/
structure Sim where
  temperature : ℝ
  pressure : ℝ
  env : Env
  cancelReported : List Bool
  counters : List Counter
  scalingCounter : Counter
  shouldAdjust : Bool
  overlapsCounted : Bool
  performed : Nat
  total : Nat
  max : Nat
  mts : List Tape
  P : Packing
  all : List Nat
  divs : Vec3 Nat
  numDomains : Nat
  interrupted : Bool
  log : List Event

/-- `n % k == 0`. -/
def divisible (n k : Nat) : Outcome Bool := if k = 0 then .ub else .ok (n % k == 0)

/-- A loop of `n` iterations. -/
def iterate {α : Type} (f : α → Outcome α) : Nat → α → Outcome α
  | 0, a => .ok a
  | n + 1, a => do
    let a ← f a
    iterate f n a

/-- The position of the first accumulated number greater than the sampled one; Simulation.cpp:459-464. -/
def moveTypeFor : List Nat → Nat → Nat
  | [], _ => 0
  | a :: l, s => if s < a then 0 else moveTypeFor l s + 1

/-- `calculateMoveTypeAccumulations`: accumulated numbers of requested moves; Simulation.cpp:681-692. -/
def moveTypeAccumulations (n : Nat) : List Sampler → Nat → Outcome (List Nat)
  | [], _ => .ok []
  | s :: l, acc => do
    let r ← s.requested n
    let rest ← moveTypeAccumulations n l (acc + r)
    return (acc + r) :: rest

/-- `back()` of a vector. -/
def vback {α : Type} (l : List α) : Outcome α := match l.getLast? with | some a => .ok a | none => .ub

/-- `setupForShapeTraits` of all samplers; Simulation.cpp:112-113. -/
noncomputable def setupSamplers (T : Traits) : List Sampler → Outcome (List Sampler)
  | [] => .ok []
  | s :: l => do
    let s ← s.setup T
    let l ← setupSamplers T l
    return s :: l

/-- `getNeighbourGridCellDivisions`: undefined without the grid; src/core/Packing.h:235-237. -/
def Packing.gridDivisions (P : Packing) : Outcome (Vec3 Nat) :=
  match P.ng with
  | some g => .ok g.getCellDivisions
  | none => .ub

namespace Sim

/-- Appending to the log. -/
def note (S : Sim) (e : Event) : Sim := { S with log := S.log ++ [e] }

/-- The constructor; Simulation.cpp:54-76. Engines with different seeds are given. The product of divisions is computed as an
`int`; values beyond its range are not modelled (`numDomains` is at most the number of threads). -/
def make (P : Packing) (seeds : Nat → Tape) (env : Env) (divs : Vec3 Nat) : Outcome Sim := do
  Outcome.require (decide (P.size ≠ 0)) "Expects(!this->packing->empty())"
  let n := divs.x * divs.y * divs.z
  Outcome.require (decide (n > 0)) "Expects(this->numDomains > 0)"
  Outcome.require (decide (n ≤ P.moveThreads)) "Expects(this->numDomains <= this->packing->getMoveThreads())"
  return {
    temperature := 0, pressure := 0, env := env, cancelReported := [], counters := [], scalingCounter := .zero,
    shouldAdjust := false, overlapsCounted := false, performed := 0, total := 0, max := 0,
    mts := (List.range n).map seeds, P := P, all := List.range P.size, divs := divs, numDomains := n, interrupted := false,
    log := [] }

/-- `reset`; Simulation.cpp:304-323. -/
def reset (S : Sim) : Outcome Sim := do
  let samplers ← S.env.getMoveSamplers
  let n := samplers.length
  return { S with
    counters := List.replicate n .zero
    cancelReported := List.replicate n false
    scalingCounter := .zero
    performed := 0
    total := 0
    max := 0
    interrupted := false
    log := S.log ++ [.clear] }

/-- The pressure; Simulation.cpp:795-798. -/
noncomputable def currentPressure (S : Sim) : Outcome ℝ :=
  if S.env.isBoxScalingEnabled then do
    let p ← S.env.getPressure
    p.value S.total S.max
  else .ok 0

/-- `updateThermodynamicParameters`; Simulation.cpp:793-800. -/
noncomputable def updateThermo (S : Sim) : Outcome Sim := do
  let t ← S.env.getTemperature
  let t ← t.value S.total S.max
  let p ← S.currentPressure
  return { S with temperature := t, pressure := p, log := S.log ++ [.thermo t p] }

/-- `std::exp(-dE / this->temperature)`; Simulation.cpp:483. -/
noncomputable def boltzmann (dE : EnergyChange) (temperature : ℝ) : Ext := (dE.toExt.neg.div temperature).exp

/-- Accepting or rejecting the move; Simulation.cpp:482-490. -/
noncomputable def decideMove (S : Sim) (counters : List Counter) (tid g : Nat) (accept : Bool) :
    Outcome (Sim × List Counter) := do
  let c ← vget counters g
  if accept then do
    let P ← S.P.acceptMove tid
    return ({ S with P := P, log := S.log ++ [.accepted g P] }, counters.set g (c.increment true))
  else return (S, counters.set g (c.increment false))

/-- `tryMove` done by the thread `tid`; Simulation.cpp:447-491. -/
noncomputable def tryMove (T : Traits) (idxs accs : List Nat) (tid : Nat) (domain : Option (Vec3 ℝ → Bool))
    (st : Sim × List Counter) : Outcome (Sim × List Counter) := do
  let S := st.1
  let samplers ← S.env.getMoveSamplers
  Outcome.require (decide (st.2.length = samplers.length)) "Expects(moveCounters_.size() == moveSamplers.size())"
  Outcome.require (decide (accs.length = samplers.length)) "Expects(moveTypeAccumulations.size() == moveSamplers.size())"
  let numMoves ← vback accs
  let t ← vget S.mts tid
  let (sampled, t) ← uniformInt numMoves t
  let g := moveTypeFor accs sampled
  let sampler ← vget samplers g
  let (move, sampler, t) ← sampler.sampleMove S.P idxs t
  let (P, dE) ← S.P.tryKind T.I tid move.idx move.kind domain
  let S := { S with
    P := P
    env := { S.env with samplers := samplers.set g sampler }
    mts := S.mts.set tid (t.drop 1)
    log := S.log ++ [Event.tried g] }
  S.decideMove st.2 tid g ((boltzmann dE S.temperature).geNum (t 0))

/-- `performMovesWithoutDomainDivision`; Simulation.cpp:389-394. -/
noncomputable def sweep (S : Sim) (T : Traits) : Outcome Sim := do
  let samplers ← S.env.getMoveSamplers
  let accs ← moveTypeAccumulations S.P.size samplers 0
  let numMoves ← vback accs
  let (S, counters) ← iterate (tryMove T S.all accs 0 none) numMoves (S, S.counters)
  return { S with counters := counters }

/-- The moves in a domain which is not empty; Simulation.cpp:431-437. -/
noncomputable def domainMoves (T : Traits) (S : Sim) (zeros : List Counter) (idxs : List Nat) (tid : Nat)
    (active : Domain.Active) : Outcome (Sim × List Counter) := do
  let samplers ← S.env.getMoveSamplers
  let accs ← moveTypeAccumulations (S.P.size / S.numDomains) samplers 0
  let numMoves ← vback accs
  iterate (tryMove T idxs accs tid (some active.isInside)) numMoves (S, zeros)

/-- One iteration of the loop over domains: the state and the counters reduced so far; Simulation.cpp:424-437. Every thread
begins with its own zero counters (417-418). -/
noncomputable def domainStep (T : Traits) (D : Domain.Decomposition) (zeros : List Counter) (st : Sim × List Counter)
    (c : Vec3 Nat × Nat) : Outcome (Sim × List Counter) := do
  let idxs ← D.getParticlesInRegion c.1
  let active ← D.getActiveDomainBounds c.1
  if idxs.isEmpty then return st
  else do
    let (S, priv) ← domainMoves T st.1 zeros idxs c.2 active
    let temp ← accumulateCounters st.2 priv
    return (S, temp)

/-- The parallel loop and the accumulation of counters; Simulation.cpp:419-444. -/
noncomputable def domainLoop (T : Traits) (D : Domain.Decomposition) (S : Sim) : Outcome Sim := do
  let zeros := List.replicate S.counters.length Counter.zero
  let (S, temp) ← ((Packing.loopCells S.divs).zipIdx).foldlM (domainStep T D zeros) (S, zeros)
  let counters ← accumulateCounters S.counters temp
  return { S with counters := counters }

/-- The result of an attempt of a sweep: done, or `TooNarrowDomainException`. -/
inductive Attempt where
  | done (S : Sim)
  | tooNarrow (coord : Nat) (S : Sim)

/-- What follows the constructor of `DomainDecomposition`. -/
noncomputable def afterDecompose (T : Traits) (S : Sim) (r : Domain.Result) : Outcome Attempt :=
  match r with
  | .tooNarrow c => .ok (.tooNarrow c S)
  | .ok D => do
    let S ← domainLoop T D S
    return .done S

/-- `performMovesWithDomainDivision`; Simulation.cpp:396-445. -/
noncomputable def sweepDomains (S : Sim) (T : Traits) : Outcome Attempt := do
  let t ← vget S.mts 0
  let origin := S.P.box.relToAbs ⟨t 0, t 1, t 2⟩
  let S := { S with mts := S.mts.set 0 (t.drop 3) }
  let grid ← S.P.gridDivisions
  let r ← Domain.decompose S.P T.I S.divs grid origin
  afterDecompose T S r

/-- An attempt of a sweep; Simulation.cpp:370-374. -/
noncomputable def attempt (S : Sim) (T : Traits) : Outcome Attempt :=
  if S.numDomains = 1 then do
    let S ← S.sweep T
    return .done S
  else S.sweepDomains T

/-- The divisions with one fewer along the given axis; Simulation.cpp:376. Going below zero (modulo 2^64) is not modelled. -/
def lowerDivs (d : Vec3 Nat) (coord : Nat) : Outcome (Vec3 Nat) :=
  match coord with
  | 0 => if d.x = 0 then .ub else .ok { d with x := d.x - 1 }
  | 1 => if d.y = 0 then .ub else .ok { d with y := d.y - 1 }
  | 2 => if d.z = 0 then .ub else .ok { d with z := d.z - 1 }
  | _ => .ub

/-- Reducing the number of domains; Simulation.cpp:375-379. -/
def reduceDomains (S : Sim) (coord : Nat) : Outcome Sim := do
  let d ← lowerDivs S.divs coord
  return { S with divs := d, numDomains := d.x * d.y * d.z }

/-- The loop of `performMoves`; Simulation.cpp:368-380. -/
noncomputable def movesLoop (T : Traits) : Nat → Sim → Outcome Sim
  | 0, _ => .diverge
  | fuel + 1, S => do
    let a ← S.attempt T
    match a with
    | .done S => .ok S
    | .tooNarrow c S => do
      let S ← S.reduceDomains c
      movesLoop T fuel S

/-- `performMoves`; Simulation.cpp:365-387. The fuel is shown to be enough. -/
noncomputable def performMoves (S : Sim) (T : Traits) : Outcome Sim := movesLoop T (S.divs.x + S.divs.y + S.divs.z + 1) S

/-- A scaling is kept or reverted. -/
noncomputable def decideScaling (S : Sim) (accept : Bool) : Outcome (Sim × Bool) :=
  if accept then .ok ({ S with log := S.log ++ [.acceptedScaling S.P] }, true)
  else do
    let P ← S.P.revertScaling
    return ({ S with P := P }, false)

/-- The exponent without the energy; Simulation.cpp:521, and parts of 512. -/
noncomputable def volumeTerm (S : Sim) (factor : ℝ) : Ext := .fin ((S.P.size : ℝ) * Real.log factor)

/-- The work term; Simulation.cpp:512 and 521. -/
noncomputable def workTerm (S : Sim) (deltaV : ℝ) : Ext := (Ext.fin (S.pressure * deltaV)).div S.temperature

/-- Scaling with soft interactions or with counted overlaps; Simulation.cpp:511-518. -/
noncomputable def scaleSoft (S : Sim) (I : Interaction) (b : Box) (factor deltaV u : ℝ) : Outcome (Sim × Bool) := do
  let (P, dE) ← S.P.tryScaling I b
  let exponent := ((S.volumeTerm factor).sub (dE.toExt.div S.temperature)).sub (S.workTerm deltaV)
  decideScaling { S with P := P } (exponent.exp.geNum u)

/-- Scaling with hard interactions only; Simulation.cpp:521-529. -/
noncomputable def scaleHard (S : Sim) (I : Interaction) (b : Box) (factor deltaV u : ℝ) : Outcome (Sim × Bool) :=
  let exponent := (S.volumeTerm factor).sub (S.workTerm deltaV)
  if exponent.exp.ltNum u then .ok (S, false)
  else do
    let (P, dE) ← S.P.tryScaling I b
    decideScaling { S with P := P } (!dE.positive)

/-- `tryScaling`; Simulation.cpp:493-531. -/
noncomputable def tryScaling (S : Sim) (I : Interaction) : Outcome (Sim × Bool) := do
  Outcome.require S.env.isBoxScalingEnabled "Assert(this->environment.isBoxScalingEnabled())"
  let t ← vget S.mts 0
  let scaler ← S.env.getBoxScaler
  let (b, t) ← scaler.updateBox S.P.box t
  Outcome.require (decide (b.volume ≠ 0)) "Expects(newBox.getVolume() != 0)"
  let oldV := |S.P.box.volume|
  let newV := |b.volume|
  let S := { S with mts := S.mts.set 0 (t.drop 1), log := S.log ++ [Event.triedScaling] }
  if I.hasSoft || S.overlapsCounted then S.scaleSoft I b (newV / oldV) (newV - oldV) (t 0)
  else S.scaleHard I b (newV / oldV) (newV - oldV) (t 0)

/-- Scaling in a cycle; Simulation.cpp:342-356. -/
noncomputable def cycleScaling (S : Sim) (I : Interaction) : Outcome Sim :=
  if S.env.isBoxScalingEnabled then do
    let (S, wasScaled) ← S.tryScaling I
    return { S with scalingCounter := S.scalingCounter.increment wasScaled }
  else .ok S

/-- Changing the step sizes by the acceptance rate; Simulation.cpp:577-605: the sampler and the "cancel reported" flag. -/
noncomputable def adjustSampler (s : Sampler) (rate : Option ℝ) (cancel : Bool) : Outcome (Sampler × Bool) :=
  match rate with
  | none => .ok (s, cancel)
  | some r =>
    if r > 2 / 10 then do
      let (s, b) ← s.increase
      return (s, !b)
    else if r < 1 / 10 then do
      let (s, b) ← s.decrease
      return (s, !b)
    else .ok (s, cancel)

/-- The window of a move group has ended; Simulation.cpp:574-605. -/
noncomputable def endWindow (S : Sim) (samplers : List Sampler) (g : Nat) (s : Sampler) (c : Counter) (cancel : Bool) :
    Outcome Sim := do
  let _ ← s.stepSizes
  let (s, cancel) ← adjustSampler s c.currentRate cancel
  return { S with
    counters := S.counters.set g c.resetCurrent
    cancelReported := S.cancelReported.set g cancel
    env := { S.env with samplers := samplers.set g s } }

/-- One iteration of `evaluateMoleculeMoveCounter`; Simulation.cpp:564-605. -/
noncomputable def evaluateGroup (S : Sim) (g : Nat) : Outcome Sim := do
  let samplers ← S.env.getMoveSamplers
  let s ← vget samplers g
  let c ← vget S.counters g
  let cancel ← vget S.cancelReported g
  let requested ← s.requested S.P.size
  if c.movesSince < 100 * requested then return S
  else S.endWindow samplers g s c cancel

/-- `evaluateMoleculeMoveCounter`; Simulation.cpp:561-607. -/
noncomputable def evaluateMoves (S : Sim) : Outcome Sim := do
  let samplers ← S.env.getMoveSamplers
  (List.range samplers.length).foldlM evaluateGroup S

/-- Changing the scaling step size by the acceptance rate; Simulation.cpp:546-558. -/
noncomputable def adjustScaler (s : Scaler) (rate : Option ℝ) : Scaler :=
  match rate with
  | none => s
  | some r => if r > 2 / 10 then s.increase else if r < 1 / 10 then s.decrease else s

/-- `evaluateScalingMoveCounter`; Simulation.cpp:539-559. -/
noncomputable def evaluateScaling (S : Sim) : Outcome Sim :=
  if S.scalingCounter.movesSince < 100 then .ok S
  else do
    let s ← S.env.getBoxScaler
    return { S with
      scalingCounter := S.scalingCounter.resetCurrent
      env := { S.env with scaler := .enabled (adjustScaler s S.scalingCounter.currentRate) } }

/-- `evaluateCounters`; Simulation.cpp:533-537. -/
noncomputable def evaluateCounters (S : Sim) : Outcome Sim := do
  let S ← S.evaluateMoves
  if S.env.isBoxScalingEnabled then S.evaluateScaling else return S

/-- The adjustment at the end of a cycle; Simulation.cpp:358-359. -/
noncomputable def cycleAdjust (S : Sim) : Outcome Sim := if S.shouldAdjust then S.evaluateCounters else .ok S

/-- `performCycle`; Simulation.cpp:325-363. -/
noncomputable def performCycle (S : Sim) (T : Traits) : Outcome Sim := do
  let S ← S.performMoves T
  let S ← S.cycleScaling T.I
  let S ← S.cycleAdjust
  return { S with
    performed := S.performed + 1
    total := S.total + 1
    log := S.log ++ [.cycle (S.total + 1) S.P S.env.samplers S.env.scaler] }

/-- `fixRotationMatrices`, called by the main thread; Simulation.cpp:750-769. -/
noncomputable def fixRotationMatrices (S : Sim) (I : Interaction) : Outcome Sim := do
  let (P, _) ← S.P.renormalizeOrientations I 0 S.overlapsCounted
  return { S with P := P, log := S.log ++ [.fixed P] }

/-- The parameters of runs; Simulation.h:167-182. `recorders` is the number of recorders passed. -/
structure RunParams where
  snapshotEvery : Nat
  inlineInfoEvery : Nat
  rotationMatrixFixEvery : Nat
  cycleOffset : Nat
  recorders : Nat

/-- Fixing the orientations after a cycle; Simulation.cpp:144-145, 173-174, 260-261. -/
noncomputable def fixStep (p : RunParams) (I : Interaction) (S : Sim) : Outcome Sim := do
  let due ← divisible S.total p.rotationMatrixFixEvery
  if due then S.fixRotationMatrices I else return S

/-- Snapshots after a cycle; Simulation.cpp:146-151, 175-180, 262-267. -/
def snapshotStep (p : RunParams) (S : Sim) : Outcome Sim := do
  let due ← divisible S.total p.snapshotEvery
  if due then
    return { S with log := S.log ++ .snapshot S.total S.P :: (List.range p.recorders).map fun r => .recorded r S.total S.P }
  else return S

/-- Inline info after a cycle; Simulation.cpp:152-153, 183-184, 268-269. -/
def infoStep (p : RunParams) (S : Sim) : Outcome Sim := do
  let due ← divisible S.total p.inlineInfoEvery
  if due then return S.note (.info S.total) else return S

/-- Averaging values after a cycle; Simulation.cpp:181-182. -/
def averagingStep (every : Nat) (S : Sim) : Outcome Sim := do
  let due ← divisible S.total every
  if due then return S.note (.averaged S.P) else return S

/-- One iteration of the thermalisation loop, and of the overlap relaxation loop; Simulation.cpp:141-153, 257-269. -/
noncomputable def thermalisationCycle (p : RunParams) (T : Traits) (S : Sim) : Outcome Sim := do
  let S ← S.performCycle T
  let S ← S.updateThermo
  let S ← fixStep p T.I S
  let S ← snapshotStep p S
  infoStep p S

/-- One iteration of the averaging loop; Simulation.cpp:171-184. -/
noncomputable def averagingCycle (p : RunParams) (averagingEvery : Nat) (T : Traits) (S : Sim) : Outcome Sim := do
  let S ← S.performCycle T
  let S ← fixStep p T.I S
  let S ← snapshotStep p S
  let S ← averagingStep averagingEvery S
  infoStep p S

/-- A loop over cycles which ends early after an interruption; Simulation.cpp:140-161, 170-192. -/
def cycleLoop (f : Sim → Outcome Sim) (stop : Nat → Bool) : Nat → Sim → Outcome Sim
  | 0, S => .ok S
  | n + 1, S => do
    let S ← f S
    if stop S.total then return { S with interrupted := true } else cycleLoop f stop n S

/-- What `integrate` and `relaxOverlaps` begin with: combining environments, setting up the samplers, `reset`;
Simulation.cpp:109-116, 231-238. -/
noncomputable def start (S : Sim) (env : Env) (T : Traits) : Outcome Sim := do
  let e := S.env.combine env
  Outcome.require e.isComplete "Expects(this->environment.isComplete())"
  let samplers ← e.getMoveSamplers
  let samplers ← setupSamplers T samplers
  reset { S with env := { e with samplers := samplers } }

/-- Setting the cycle numbers, thermodynamic parameters and the packing; Simulation.cpp:118-129, 240-251. -/
noncomputable def prepare (S : Sim) (T : Traits) (offset max : Nat) (counting : Bool) : Outcome Sim := do
  let S ← updateThermo { S with total := offset, max := max }
  let P ← S.P.setupForInteraction T.I
  let P ← P.toggleOverlapCounting counting T.I
  return { S with P := P, overlapsCounted := counting }

/-- `IntegrationParameters`; Simulation.h:167-175. -/
structure IntegrationParams extends RunParams where
  thermalisationCycles : Nat
  averagingCycles : Nat
  averagingEvery : Nat

/-- The conditions checked by `integrate`; Simulation.cpp:102-107. -/
def checkParams (p : IntegrationParams) : Outcome Unit := do
  Outcome.require (decide (p.thermalisationCycles > 0) || decide (p.averagingCycles > 0)) "Expects(params.thermalisationCycles > 0 || ...)"
  Outcome.require (decide (p.inlineInfoEvery > 0)) "Expects(params.inlineInfoEvery > 0)"
  Outcome.require (decide (p.rotationMatrixFixEvery > 0)) "Expects(params.rotationMatrixFixEvery > 0)"
  Outcome.require (!decide (p.averagingCycles > 0) ||
    (decide (p.averagingEvery > 0) && decide (p.averagingEvery ≤ p.averagingCycles))) "Expects(params.averagingEvery > 0 && ...)"
  Outcome.require (decide (p.snapshotEvery ≤ p.thermalisationCycles + p.averagingCycles)) "Expects(params.snapshotEvery <= ...)"

/-- The averaging phase; Simulation.cpp:164-193. -/
noncomputable def averagingPhase (p : IntegrationParams) (T : Traits) (stop : Nat → Bool) (S : Sim) : Outcome Sim :=
  cycleLoop (averagingCycle p.toRunParams p.averagingEvery T) stop p.averagingCycles
    { S with shouldAdjust := false, log := S.log ++ [.averaging] }

/-- The thermalisation phase; Simulation.cpp:134-162. -/
noncomputable def thermalisationPhase (p : IntegrationParams) (T : Traits) (stop : Nat → Bool) (S : Sim) : Outcome Sim :=
  cycleLoop (thermalisationCycle p.toRunParams T) stop p.thermalisationCycles
    { S with shouldAdjust := true, log := S.log ++ [.thermalisation] }

/-- `integrate`; Simulation.cpp:98-199. -/
noncomputable def integrate (S : Sim) (env : Env) (p : IntegrationParams) (T : Traits) (stop : Nat → Bool) : Outcome Sim := do
  checkParams p
  let S ← S.start env T
  let S ← S.prepare T p.cycleOffset (p.cycleOffset + p.thermalisationCycles + p.averagingCycles) false
  let n ← S.P.countTotalOverlaps T.I true
  Outcome.require (decide (n = 0)) "Overlaps are present at the start of integration. Perform overlap reduction beforehand."
  let S ← thermalisationPhase p T stop S
  if S.interrupted then return S else averagingPhase p T stop S

/-- The loop of `relaxOverlaps`; Simulation.cpp:256-277. -/
noncomputable def relaxLoop (p : RunParams) (T : Traits) (stop : Nat → Bool) : Nat → Sim → Outcome Sim
  | 0, _ => .diverge
  | fuel + 1, S => do
    let n ← S.P.getCachedNumberOfOverlaps
    if n > 0 then do
      let S ← thermalisationCycle p T S
      if stop S.total then return { S with interrupted := true } else relaxLoop p T stop fuel S
    else return S

/-- The conditions checked by `relaxOverlaps`; Simulation.cpp:227-229. -/
def checkRelaxParams (p : RunParams) : Outcome Unit := do
  Outcome.require (decide (p.inlineInfoEvery > 0)) "Expects(params.inlineInfoEvery > 0)"
  Outcome.require (decide (p.rotationMatrixFixEvery > 0)) "Expects(params.rotationMatrixFixEvery > 0)"
  Outcome.require (decide (p.snapshotEvery > 0)) "Expects(params.snapshotEvery > 0)"

/-- `relaxOverlaps`; Simulation.cpp:222-284. `fuel` bounds the number of cycles (the code has no bound). -/
noncomputable def relaxOverlaps (S : Sim) (env : Env) (p : RunParams) (T : Traits) (stop : Nat → Bool) (fuel : Nat) :
    Outcome Sim := do
  checkRelaxParams p
  let S ← S.start env T
  let S ← S.prepare T p.cycleOffset sizeMax true
  relaxLoop p T stop fuel { S with shouldAdjust := true, log := S.log ++ [.thermalisation] }

/-- `MoveStatistics` (names of groups are left out); Simulation.h:56-79. -/
structure Stats where
  total : Nat
  accepted : Nat
  steps : List ℝ

/-- `getMovesStatistics`, the part for molecule moves; Simulation.cpp:732-742. -/
def groupStats : List Sampler → List Counter → Outcome (List Stats)
  | s :: ss, c :: cs => do
    let steps ← s.stepSizes
    let rest ← groupStats ss cs
    return ⟨c.moves, c.accepted, steps⟩ :: rest
  | _, _ => .ok []

/-- `getScalingStatistics`; Simulation.cpp:718-726. -/
def scalingStats (S : Sim) : Outcome (List Stats) :=
  match S.env.scaler with
  | .enabled s => .ok [⟨S.scalingCounter.moves, S.scalingCounter.accepted, [s.step]⟩]
  | _ => .ok []

/-- `getMovesStatistics`; Simulation.cpp:728-748. -/
def getMovesStatistics (S : Sim) : Outcome (List Stats) := do
  let samplers ← S.env.getMoveSamplers
  Outcome.require (decide (samplers.length = S.counters.length)) "Assert(moveSamplers.size() == this->moveCounters.size())"
  let l ← groupStats samplers S.counters
  let l' ← S.scalingStats
  return l ++ l'

end Sim

end Rampack
