import Verif.IO.LinesSpec
import Verif.IO.Collector
/-
Specification of the collector of observables (C56, C57).
-/
namespace Rampack.Spec

variable {ι D : Type}

/-- An observable with its types. -/
structure Entry (ι D : Type) where
  obs : Observable ι D
  snap : Bool
  avg : Bool
  inl : Bool

/-- Observables are added one after another to a new collector, then bulk observables. -/
def build (l : List (Entry ι D)) (bulk : Nat) : Outcome (Collector ι D) := do
  let C ← l.foldlM (fun C e => C.addObservable e.obs e.snap e.avg e.inl) Collector.empty
  return (List.range bulk).foldl (fun C _ => C.addBulk) C

/-- The numbers of values agree with the numbers of names. -/
def Proper (o : Observable ι D) : Prop :=
  ∀ x p, (o.interval x p).length = o.intervalHeader.length ∧ (o.nominal x p).length = o.nominalHeader.length

/-- What is done with a collector. -/
inductive CollOp (ι : Type) where
  | snapshot (x : ι) (cycle : Nat)
  | averaging (x : ι)
  | params (T p : ℝ)
  | clear

/-- One operation. -/
noncomputable def CollOp.run (print : D → Text) (C : Collector ι D) : CollOp ι → Outcome (Collector ι D)
  | .snapshot x cycle => C.addSnapshot print x cycle
  | .averaging x => C.addAveraging x
  | .params T p => C.setParams T p
  | .clear => .ok C.clear

/-- A sequence of operations. -/
noncomputable def runAll (print : D → Text) (C : Collector ι D) (ops : List (CollOp ι)) : Outcome (Collector ι D) :=
  ops.foldlM (fun C op => op.run print C) C

/-- Temperatures are positive and pressures are not negative. -/
def CollOp.Legal : CollOp ι → Prop
  | .params T p => 0 < T ∧ 0 ≤ p
  | _ => True

/-- What should be remembered: the last temperature and pressure, all snapshots ever, snapshots and averaging since the last clearing. -/
structure Seen (ι : Type) where
  params : ℝ × ℝ
  ever : List (Nat × ι × (ℝ × ℝ))
  snaps : List (Nat × ι × (ℝ × ℝ))
  avgs : List (ι × (ℝ × ℝ))

/-- What is remembered after one more operation. -/
def Seen.step (s : Seen ι) : CollOp ι → Seen ι
  | .snapshot x cycle => { s with ever := s.ever ++ [(cycle, x, s.params)], snaps := s.snaps ++ [(cycle, x, s.params)] }
  | .averaging x => { s with avgs := s.avgs ++ [(x, s.params)] }
  | .params T p => { s with params := (T, p) }
  | .clear => { s with snaps := [], avgs := [] }

/-- What is remembered after a history. -/
def Seen.after (ops : List (CollOp ι)) : Seen ι := ops.foldl Seen.step ⟨(0, 0), [], [], []⟩

/-- The values of all observables of the snapshot type. -/
def snapVals (print : D → Text) (l : List (Entry ι D)) (x : ι) (p : ℝ × ℝ) : List Text :=
  (l.filter (·.snap)).flatMap fun e => (e.obs.interval x p).map print ++ e.obs.nominal x p

/-- Their names. -/
def snapNames (l : List (Entry ι D)) : List Text := (l.filter (·.snap)).flatMap fun e => e.obs.intervalHeader ++ e.obs.nominalHeader

/-- The values of all observables of the averaging type. -/
def avgVals (l : List (Entry ι D)) (x : ι) (p : ℝ × ℝ) : List D := (l.filter (·.avg)).flatMap fun e => e.obs.interval x p

/-- Their names. -/
def avgNames (l : List (Entry ι D)) : List Text := (l.filter (·.avg)).flatMap fun e => e.obs.intervalHeader

/-- The first line of an output. -/
def obsHeader (l : List (Entry ι D)) : Text := "cycle ".toList ++ (snapNames l).flatMap (· ++ [' '])

/-- A row for a snapshot. -/
def obsRow (print : D → Text) (l : List (Entry ι D)) (s : Nat × ι × (ℝ × ℝ)) : Nat × Text :=
  (s.1, (snapVals print l s.2.1 s.2.2).flatMap (· ++ [' ']))

/-- The arithmetic mean. -/
noncomputable def meanOf (l : List ℝ) : ℝ := l.sum / l.length

/-- The square of the standard error of the mean. -/
noncomputable def error2Of (l : List ℝ) : ℝ := (l.map fun x => (x - meanOf l) ^ 2).sum / (l.length * (l.length - 1))

end Rampack.Spec
