import Verif.Sim.Model
/-
What is said about logs of runs: tried and accepted moves, evaluation windows, samplers in force, the schedule.
-/
namespace Rampack

namespace Spec

/-- A move of the group was tried. -/
def isTried (g : Nat) : Event → Bool
  | .tried h => h == g
  | _ => false

/-- A move of the group was accepted. -/
def isAccepted (g : Nat) : Event → Bool
  | .accepted h _ => h == g
  | _ => false

/-- A scaling was tried. -/
def isTriedScaling : Event → Bool
  | .triedScaling => true
  | _ => false

/-- A scaling was accepted. -/
def isAcceptedScaling : Event → Bool
  | .acceptedScaling _ => true
  | _ => false

/-- The state of an evaluation window: whether step sizes are being adjusted, the numbers of tried and accepted moves. -/
structure Window where
  adjusting : Bool
  tried : Nat
  accepted : Nat

/-- The acceptance rate in a window. -/
noncomputable def Window.rate (w : Window) : ℝ := (w.accepted : ℝ) / w.tried

/-- What an event does to a window: in thermalisation, the window ends at the end of a cycle if it is full (as many moves were
tried as `length` says for the number of molecules). -/
def Window.step (isTry isAccept : Event → Bool) (length : Nat → Nat) (w : Window) : Event → Window
  | .thermalisation => { w with adjusting := true }
  | .averaging => { w with adjusting := false }
  | .cycle _ P _ _ => if w.adjusting = true ∧ length P.size ≤ w.tried then { w with tried := 0, accepted := 0 } else w
  | e => { w with
      tried := if isTry e then w.tried + 1 else w.tried
      accepted := if isAccept e then w.accepted + 1 else w.accepted }

/-- The window at the end of a log. -/
def window (isTry isAccept : Event → Bool) (length : Nat → Nat) (L : List Event) : Window :=
  L.foldl (Window.step isTry isAccept length) ⟨false, 0, 0⟩

/-- The length of the window of a group: a hundred times the number of moves in a cycle, which for flips is one for every so
many molecules, and for the others one for every molecule. -/
def groupLength (s : Sampler) (molecules : Nat) : Nat :=
  100 * match s with
    | .flip every _ _ _ => molecules / every
    | _ => molecules

/-- The samplers which the last cycle of a log ended with. -/
def samplersAfter (start : List Sampler) (L : List Event) : List Sampler :=
  L.foldl (fun l e => match e with | .cycle _ _ ss _ => ss | _ => l) start

/-- The scaling step which the last cycle of a log ended with. -/
def scalerAfter (start : ScalerStatus) (L : List Event) : ScalerStatus :=
  L.foldl (fun l e => match e with | .cycle _ _ _ sc => sc | _ => l) start

/-- The step sizes of `new` are what an increase of those of `old` gives. -/
def Increased (old new : Sampler) : Prop :=
  ∃ (s s' : Sampler) (b : Bool), s.stepSizes = old.stepSizes ∧ s.increase = .ok (s', b) ∧ s'.stepSizes = new.stepSizes

/-- The step sizes of `new` are what a decrease of those of `old` gives. -/
def Decreased (old new : Sampler) : Prop :=
  ∃ (s s' : Sampler) (b : Bool), s.stepSizes = old.stepSizes ∧ s.decrease = .ok (s', b) ∧ s'.stepSizes = new.stepSizes

/-- How the step sizes of a group are after a cycle, given those before it, the window before it ends and its required length. -/
def Adjusted (w : Window) (length : Nat) (old new : Sampler) : Prop :=
  if w.adjusting = true ∧ length ≤ w.tried ∧ w.rate > 1 / 5 then Increased old new
  else if w.adjusting = true ∧ length ≤ w.tried ∧ 0 < w.tried ∧ w.rate < 1 / 10 then Decreased old new
  else new.stepSizes = old.stepSizes

/-- The same for the box scaler. -/
def AdjustedScaler (w : Window) (old new : Scaler) : Prop :=
  new.kind = old.kind ∧
  if w.adjusting = true ∧ 100 ≤ w.tried ∧ w.rate > 1 / 5 then new.step = old.step * (11 / 10)
  else if w.adjusting = true ∧ 100 ≤ w.tried ∧ w.rate < 1 / 10 then new.step = old.step / (11 / 10)
  else new.step = old.step

/-- The same for the scaler with its status, which stays. -/
def AdjustedStatus (w : Window) : ScalerStatus → ScalerStatus → Prop
  | .enabled old, .enabled new => AdjustedScaler w old new
  | .disabled, .disabled => True
  | .unset, .unset => True
  | _, _ => False

/-- In a log, step sizes of all groups change as they should. -/
def WellAdjusted (start : List Sampler) (L : List Event) : Prop :=
  ∀ L₁ n P ss sc L₂, L = L₁ ++ .cycle n P ss sc :: L₂ → ss.length = (samplersAfter start L₁).length ∧
    ∀ g s old new, start[g]? = some s → (samplersAfter start L₁)[g]? = some old → ss[g]? = some new →
      Adjusted (window (isTried g) (isAccepted g) (groupLength s) L₁) (groupLength s P.size) old new

/-- In a log, the scaling step changes as it should. -/
def WellScaled (start : ScalerStatus) (L : List Event) : Prop :=
  ∀ L₁ n P ss sc L₂, L = L₁ ++ .cycle n P ss sc :: L₂ →
    AdjustedStatus (window isTriedScaling isAcceptedScaling (fun _ => 100) L₁) (scalerAfter start L₁) sc

/-- What the schedule of a run is about. -/
inductive Mark where
  | thermalisation
  | averaging
  | cycle (n : Nat)
  | fixed
  | snapshot (n : Nat)
  | recorded (r n : Nat)
  | averaged
  | info (n : Nat)

/-- The mark of an event. -/
def mark : Event → Option Mark
  | .thermalisation => some .thermalisation
  | .averaging => some .averaging
  | .cycle n _ _ _ => some (.cycle n)
  | .fixed _ => some .fixed
  | .snapshot n _ => some (.snapshot n)
  | .recorded r n _ => some (.recorded r n)
  | .averaged _ => some .averaged
  | .info n => some (.info n)
  | _ => none

/-- A cycle and what should follow it: `averagingEvery` is given in averaging. -/
def cycleMarks (p : Sim.RunParams) (averagingEvery : Option Nat) (n : Nat) : List Mark :=
  [.cycle n] ++ (if p.rotationMatrixFixEvery ∣ n then [.fixed] else []) ++
  (if p.snapshotEvery ∣ n then .snapshot n :: (List.range p.recorders).map fun r => .recorded r n else []) ++
  (match averagingEvery with
    | none => []
    | some every => if every ∣ n then [.averaged] else []) ++
  (if p.inlineInfoEvery ∣ n then [.info n] else [])

/-- `k` consecutive cycles after the one number `offset`. -/
def phaseMarks (p : Sim.RunParams) (averagingEvery : Option Nat) (offset k : Nat) : List Mark :=
  (List.range k).flatMap fun i => cycleMarks p averagingEvery (offset + i + 1)

/-- A run is interrupted in a phase of `n` cycles after the one number `offset`. -/
def stopped (stop : Nat → Bool) (offset n : Nat) : Bool := (List.range n).any fun i => stop (offset + i + 1)

/-- How many of `n` cycles after the one number `offset` are performed: up to the first one after which there is an
interruption. -/
def cyclesDone (stop : Nat → Bool) (offset n : Nat) : Nat :=
  match (List.range n).find? fun i => stop (offset + i + 1) with
  | some i => i + 1
  | none => n

/-- The marks of a whole run. -/
def schedule (p : Sim.IntegrationParams) (stop : Nat → Bool) : List Mark :=
  .thermalisation :: phaseMarks p.toRunParams none p.cycleOffset (cyclesDone stop p.cycleOffset p.thermalisationCycles) ++
  if stopped stop p.cycleOffset p.thermalisationCycles then []
  else .averaging :: phaseMarks p.toRunParams (some p.averagingEvery) (p.cycleOffset + p.thermalisationCycles)
    (cyclesDone stop (p.cycleOffset + p.thermalisationCycles) p.averagingCycles)

/-- How many cycles of a run are performed. -/
def runCycles (p : Sim.IntegrationParams) (stop : Nat → Bool) : Nat :=
  cyclesDone stop p.cycleOffset p.thermalisationCycles +
  if stopped stop p.cycleOffset p.thermalisationCycles then 0
  else cyclesDone stop (p.cycleOffset + p.thermalisationCycles) p.averagingCycles

/-- The numbers of the cycles in a log. -/
def cycleNumbers (L : List Event) : List Nat := L.filterMap fun | .cycle n _ _ _ => some n | _ => none

/-- The cycles whose snapshots are in a log. -/
def snapshotNumbers (L : List Event) : List Nat := L.filterMap fun | .snapshot n _ => some n | _ => none

/-- The cycles whose snapshots were passed to the recorder. -/
def recordedNumbers (r : Nat) (L : List Event) : List Nat := L.filterMap fun | .recorded r' n _ => if r' = r then some n else none | _ => none

/-- The number of the last cycle in a log. -/
def lastCycle (L : List Event) : Option Nat := (cycleNumbers L).getLast?

/-- How many times averages were collected. -/
def isAveraged : Event → Bool
  | .averaged _ => true
  | _ => false

/-- The packing after the last cycle or the last renormalisation of orientations in a log. -/
def packingAfter (L : List Event) : Option Packing :=
  L.foldl (fun P e => match e with | .cycle _ P _ _ => some P | .fixed P => some P | _ => P) none

/-- Snapshots and averaged values are of the packing at that moment. -/
def CurrentPackings (L : List Event) : Prop :=
  ∀ L₁ e L₂, L = L₁ ++ e :: L₂ →
    match e with
    | .snapshot _ P => packingAfter L₁ = some P
    | .recorded _ _ P => packingAfter L₁ = some P
    | .averaged P => packingAfter L₁ = some P
    | _ => True

/-- The packing which an event is about (after an accepted move, after a cycle, in a snapshot, ...) has the property. -/
def Shows (Q : Packing → Prop) : Event → Prop
  | .accepted _ P => Q P
  | .acceptedScaling P => Q P
  | .cycle _ P _ _ => Q P
  | .fixed P => Q P
  | .snapshot _ P => Q P
  | .recorded _ _ P => Q P
  | .averaged P => Q P
  | _ => True

end Spec

end Rampack
