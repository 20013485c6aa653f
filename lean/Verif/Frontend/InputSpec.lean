import Verif.Frontend.Input
import Verif.Pyon.MatcherSpec
/-
What the parts of the input file mean, after /repo/docs/input-file.md: a relation between an expression and what is made from it, apart from
the way in which matchers work.
-/
namespace Rampack.Input.Spec

open Pyon Pyon.Spec

variable {X : Type}

/-! ### Invocations -/

/-- The arguments of an invocation as in Python: `signature` has the names with the default values, if any; `args` are the values, in the order of
the signature. -/
def Arguments (ps : List (Node ℝ)) (ks : List (Text × Node ℝ)) (signature : List (String × Option (Node ℝ))) (args : List (Node ℝ)) : Prop :=
  List.length args = List.length signature ∧
  ∀ (i : Nat) (k : String) (dflt : Option (Node ℝ)) (a : Node ℝ), signature[i]? = some (k, dflt) → args[i]? = some a →
    (ps[i]? = some a ∧ NotGiven ks k.toList) ∨ (ps.length ≤ i ∧ Given ks k.toList a) ∨ (ps.length ≤ i ∧ NotGiven ks k.toList ∧ dflt = some a)

/-- The expression is an invocation of a class with these arguments and no others. -/
def Call (n : Node ℝ) (name : String) (signature : List (String × Option (Node ℝ))) (args : List (Node ℝ)) : Prop :=
  ∃ ps ks, n = .dataclass name.toList ps ks ∧ ps.length ≤ signature.length ∧ (∀ e ∈ ks, ∃ s ∈ signature, e.1 = s.1.toList) ∧
    Arguments ps ks signature args

/-- An array of expressions which mean these things. -/
def ListOf {α : Type} (R : Node ℝ → α → Prop) (n : Node ℝ) (l : List α) : Prop := ∃ ns, n = .array ns ∧ List.Forall₂ R ns l

/-- A number. -/
def IsNumber (n : Node ℝ) (x : ℝ) : Prop := n = .float x ∨ ∃ i : Int, n = .int i ∧ x = i

/-- A positive number. -/
def IsPositive (n : Node ℝ) (x : ℝ) : Prop := IsNumber n x ∧ 0 < x

/-- A positive integer. -/
def IsCount (n : Node ℝ) (k : Nat) : Prop := n = .int k ∧ 0 < k

/-- An integer, which is not negative. -/
def IsSize (n : Node ℝ) (k : Nat) : Prop := n = .int k

/-- An integer; a negative one is taken modulo 2^64. -/
def IsWrapped (n : Node ℝ) (k : Nat) : Prop := IsSize n k ∨ ∃ i : Int, n = .int i ∧ i < 0 ∧ k = (2 ^ 64 + i).toNat

/-- A text which is not empty. -/
def IsText (n : Node ℝ) (s : Text) : Prop := n = .string s ∧ s ≠ []

/-- `None`, or something. -/
def Maybe {α : Type} (R : Node ℝ → α → Prop) (n : Node ℝ) : Option α → Prop
  | none => n = .none
  | some a => R n a

/-! ### Temperature and pressure -/

/-- Parameters other than piecewise ones. -/
inductive SimpleParam : Node ℝ → Param → Prop where
  | number {n : Node ℝ} {x : ℝ} : IsNumber n x → SimpleParam n (.const x)
  | const {n a : Node ℝ} {x : ℝ} : Call n "const" [("value", none)] [a] → IsNumber a x → SimpleParam n (.const x)
  | linear {n a b : Node ℝ} {x y : ℝ} : Call n "linear" [("slope", none), ("intercept", some (.int 0))] [a, b] → IsNumber a x → IsNumber b y →
      SimpleParam n (.linear x y)
  | exp {n a b : Node ℝ} {x y : ℝ} : Call n "exp" [("a0", none), ("rate", none)] [a, b] → IsNumber a x → IsNumber b y →
      SimpleParam n (.exponential x y)

/-- A piece: the cycle from which on the parameter is in force. -/
def IsPiece (n : Node ℝ) (u : Nat × Param) : Prop :=
  ∃ a b, Call n "piece" [("start", none), ("param", none)] [a, b] ∧ IsSize a u.1 ∧ SimpleParam b u.2

/-- Pieces begin with 0 and follow one another. -/
def InOrder (l : List (Nat × Param)) : Prop := (l.map Prod.fst).head? = some 0 ∧ (l.map Prod.fst).Pairwise (· < ·)

/-- The piecewise parameter of the pieces; that its values are what they should be is the subject of C38. -/
def PiecewiseOf (l : List (Nat × Param)) (p : Param) : Prop := Param.mkPiecewise (l.map fun u => (u.1, some u.2)) = .ok p

/-- Parameters. -/
inductive IsParam : Node ℝ → Param → Prop where
  | simple {n : Node ℝ} {p : Param} : SimpleParam n p → IsParam n p
  | piecewise {ps : List (Node ℝ)} {l : List (Nat × Param)} {p : Param} : List.Forall₂ IsPiece ps l → 2 ≤ l.length → InOrder l → PiecewiseOf l p →
      IsParam (.dataclass "piecewise".toList ps []) p

/-- The value of a parameter other than a piecewise one in a cycle. -/
inductive SimpleAt : Node ℝ → Nat → ℝ → Prop where
  | number {n : Node ℝ} {x : ℝ} {cycle : Nat} : IsNumber n x → SimpleAt n cycle x
  | const {n a : Node ℝ} {x : ℝ} {cycle : Nat} : Call n "const" [("value", none)] [a] → IsNumber a x → SimpleAt n cycle x
  | linear {n slope intercept : Node ℝ} {x y : ℝ} {cycle : Nat} : Call n "linear" [("slope", none), ("intercept", some (.int 0))] [slope, intercept] →
      IsNumber slope x → IsNumber intercept y → SimpleAt n cycle (y + x * cycle)
  | exp {n a0 rate : Node ℝ} {x y : ℝ} {cycle : Nat} : Call n "exp" [("a0", none), ("rate", none)] [a0, rate] → IsNumber a0 x → IsNumber rate y →
      SimpleAt n cycle (x * Real.exp (y * cycle))

/-- The expression is a piece which begins with the cycle. -/
def PieceFrom (n : Node ℝ) (start : Nat) (param : Node ℝ) : Prop := ∃ a, Call n "piece" [("start", none), ("param", none)] [a, param] ∧ a = .int start

/-- The value of a parameter in a cycle: that of a piecewise one is the value of the last piece which does not begin after the cycle, which has its own
cycles. -/
inductive ParamAt : Node ℝ → Nat → ℝ → Prop where
  | simple {n : Node ℝ} {cycle : Nat} {x : ℝ} : SimpleAt n cycle x → ParamAt n cycle x
  | piecewise {before after : List (Node ℝ)} {n param : Node ℝ} {start cycle : Nat} {x : ℝ} : PieceFrom n start param → start ≤ cycle →
      (∀ m ∈ after, ∀ s q, PieceFrom m s q → cycle < s) → SimpleAt param (cycle - start) x →
      ParamAt (.dataclass "piecewise".toList (before ++ n :: after) []) cycle x

/-- The last piece of a parameter begins with this cycle or before it. -/
def BeginsBy (n : Node ℝ) (cycle : Nat) : Prop := ∀ ps ks, n = .dataclass "piecewise".toList ps ks → ∀ m ∈ ps, ∀ s q, PieceFrom m s q → s ≤ cycle

/-! ### Moves -/

/-- The largest step: none, which is written down as 0, or a positive number not less than the step. -/
def IsMaxStep (n : Node ℝ) (step max : ℝ) : Prop := (n = .none ∧ max = 0) ∨ (IsPositive n max ∧ step ≤ max)

/-- The step of rotations, which may be automatic. -/
def IsRotationStep (n : Node ℝ) (step : Option ℝ) : Prop := (n = .string "auto".toList ∧ step = none) ∨ ∃ x, IsPositive n x ∧ step = some x

open Classical in
/-- Move samplers. -/
inductive IsSampler : Node ℝ → Sampler → Prop where
  | rototranslation {n a b c : Node ℝ} {x m : ℝ} {r : Option ℝ} :
      Call n "rototranslation" [("trans_step", none), ("rot_step", some (.string "auto".toList)), ("max_trans_step", some .none)] [a, b, c] →
      IsPositive a x → IsRotationStep b r → IsMaxStep c x m → IsSampler n (.rototranslation x r m (decide (m = 0)))
  | translation {n a b : Node ℝ} {x m : ℝ} : Call n "translation" [("step", none), ("max_step", some .none)] [a, b] → IsPositive a x →
      IsMaxStep b x m → IsSampler n (.translation x m (decide (m = 0)))
  | rotation {n a : Node ℝ} {x : ℝ} : Call n "rotation" [("step", none)] [a] → IsPositive a x → IsSampler n (.rotation x)
  | flip {n a : Node ℝ} {k : Nat} : Call n "flip" [("every", some (.int 10))] [a] → IsCount a k → IsSampler n (.flip k 0 0 false)

/-- Directions of scaling which have names. -/
def Named : List (String × Directions) :=
  [("isotropic", [⟨true, true, true⟩]), ("anisotropic x", [⟨true, false, false⟩, ⟨false, true, true⟩]),
    ("anisotropic y", [⟨false, true, false⟩, ⟨true, false, true⟩]), ("anisotropic z", [⟨false, false, true⟩, ⟨true, true, false⟩]),
    ("anisotropic xyz", [⟨true, false, false⟩, ⟨false, true, false⟩, ⟨false, false, true⟩])]

/-- Directions of scaling: a name, or a text such as `z(xy)`, which is the subject of C52. -/
def IsDirection (n : Node ℝ) (d : Directions) : Prop :=
  ∃ s, n = .string s ∧ ((∃ k, (k, d) ∈ Named ∧ s = k.toList) ∨ Direction.parse s = .ok d)

/-- Box scalers. -/
inductive IsScaler : Node ℝ → Scaler → Prop where
  | deltaV {n a : Node ℝ} {x : ℝ} : Call n "delta_v" [("step", none)] [a] → IsPositive a x → IsScaler n ⟨.adapter .delta, x⟩
  | anisotropic {n a b c : Node ℝ} {name : String} {sampler : FactorSampler} {d : Directions} {x : ℝ} {together : Bool} :
      (name, sampler) ∈ [("linear", FactorSampler.linear), ("log", FactorSampler.log)] →
      Call n name [("spec", none), ("step", none), ("scale_together", some (.boolean true))] [a, b, c] → IsDirection a d → d ≠ [] → IsPositive b x →
      c = .boolean together → IsScaler n ⟨.adapter (.anisotropic sampler d (!together)), x⟩
  | triclinic {n a b : Node ℝ} {x : ℝ} {together : Bool} : Call n "delta_triclinic" [("step", none), ("scale_together", some (.boolean true))] [a, b] →
      IsPositive a x → b = .boolean together → IsScaler n ⟨.triclinicDelta together, x⟩

/-- What is said about scaling the box: nothing, that it is disabled, or a scaler. -/
inductive IsScaling : Node ℝ → ScalerStatus → Prop where
  | unset : IsScaling .none .unset
  | disabled {n : Node ℝ} : Call n "disabled" [] [] → IsScaling n .disabled
  | enabled {n : Node ℝ} {s : Scaler} : IsScaler n s → IsScaling n (.enabled s)

/-- An environment: the temperature, the pressure, the moves and the scaling of the box, all of which may be missing. -/
structure IsEnvironment (temperature pressure moves box : Node ℝ) (e : Env) : Prop where
  temperature : Maybe IsParam temperature e.temperature
  pressure : Maybe IsParam pressure e.pressure
  moves : (moves = .none ∧ e.samplers = []) ∨ (e.samplers ≠ [] ∧ ListOf IsSampler moves e.samplers)
  box : IsScaling box e.scaler

/-! ### Files -/

/-- Snapshot writers. Parameters of Wolfram output are all other named arguments. -/
inductive IsWriter : Node ℝ → SnapshotOut → Prop where
  | ramsnap {n a : Node ℝ} {f : Text} : Call n "ramsnap" [("filename", none)] [a] → IsText a f → IsWriter n ⟨f, .ramsnap⟩
  | xyz {n a : Node ℝ} {f : Text} : Call n "xyz" [("filename", none)] [a] → IsText a f → IsWriter n ⟨f, .xyz⟩
  | wolfram {ps : List (Node ℝ)} {ks : List (Text × Node ℝ)} {a b : Node ℝ} {f style : Text} {affine : Bool} {params : List (Text × Text)} :
      ps.length ≤ 2 → Arguments ps ks [("filename", none), ("style", some (.dataclass "standard".toList [] []))] [a, b] → IsText a f →
      b = .dataclass style [] [] → (style, affine) ∈ [("standard".toList, false), ("affine_transform".toList, true)] →
      Ordered params → (∀ k m, (Given ks k m ∧ k ≠ "filename".toList ∧ k ≠ "style".toList) ↔ ∃ s, m = .string s ∧ (k, s) ∈ params) →
      IsWriter (.dataclass "wolfram".toList ps ks) ⟨f, .wolfram affine params⟩

/-- Recorders of trajectories. -/
inductive IsRecorder : Node ℝ → RecorderOut → Prop where
  | ramtrj {n a : Node ℝ} {f : Text} : Call n "ramtrj" [("filename", none)] [a] → IsText a f → IsRecorder n ⟨f, true⟩
  | xyz {n a : Node ℝ} {f : Text} : Call n "xyz" [("filename", none)] [a] → IsText a f → IsRecorder n ⟨f, false⟩

/-- The file of the first writer in the RAMSNAP format, if there is one. -/
def FirstRamsnap (l : List SnapshotOut) (f : Option Text) : Prop :=
  (f = none ∧ ∀ w ∈ l, w.format ≠ .ramsnap) ∨
  ∃ p w s, l = p ++ w :: s ∧ w.format = .ramsnap ∧ (∀ v ∈ p, v.format ≠ .ramsnap) ∧ f = some w.filename

/-- The file of the first recorder in the RAMTRJ format, if there is one. -/
def FirstRamtrj (l : List RecorderOut) (f : Option Text) : Prop :=
  (f = none ∧ ∀ r ∈ l, r.ramtrj = false) ∨
  ∃ p r s, l = p ++ r :: s ∧ r.ramtrj = true ∧ (∀ q ∈ p, q.ramtrj = false) ∧ f = some r.filename

/-! ### Runs -/

/-- Names of runs: letters, digits and underscores, at least one. -/
def IsName (s : Text) : Prop :=
  s ≠ [] ∧ ∀ c ∈ s, ('a' ≤ c ∧ c ≤ 'z') ∨ ('A' ≤ c ∧ c ≤ 'Z') ∨ ('0' ≤ c ∧ c ≤ '9') ∨ c = '_'

/-- What the unmodelled matchers read. -/
def Reads (m : Matcher ℝ (Value X)) (n : Node ℝ) (x : X) : Prop := m.run n = .matched (.value (.object x))

/-- What the matcher of shapes reads. -/
def ReadsShape (m : Choice ℝ (Value X)) (n : Node ℝ) (x : X) : Prop := m.toMatcher.run n = .matched (.value (.shape (some x)))

/-- The requirements on a run which are about more than one argument. -/
structure Consistent (r : IntegrationRun X) : Prop where
  /-- There is something to be done. -/
  phase : r.thermalizationCycles ≠ none ∨ r.averagingCycles ≠ none
  /-- It is known how often to average. -/
  averaging : r.averagingCycles ≠ none → 0 < r.averagingEvery
  /-- Averages are only requested when there is averaging. -/
  averages : r.averagesOut ≠ none ∨ r.bulkObservables ≠ [] → r.averagingCycles ≠ none
  /-- It is known where bulk observables go. -/
  pattern : r.bulkObservables ≠ [] → r.bulkObservablesOutPattern ≠ none

/-- The signature of `integration`. -/
def integrationSignature : List (String × Option (Node ℝ)) :=
  [("run_name", none), ("thermalization_cycles", none), ("averaging_cycles", none), ("snapshot_every", none), ("temperature", some .none),
    ("pressure", some .none), ("move_types", some .none), ("box_move_type", some .none), ("averaging_every", some (.int 0)),
    ("inline_info_every", some (.int 100)), ("orientation_fix_every", some (.int 10000)), ("output_last_snapshot", some (.array [])),
    ("record_trajectory", some (.array [])), ("averages_out", some .none), ("observables", some (.array [])), ("observables_out", some .none),
    ("bulk_observables", some (.array [])), ("bulk_observables_out_pattern", some .none)]

/-- Integration runs. -/
inductive IsIntegration (P : Parts X) (n : Node ℝ) (r : IntegrationRun X) : Prop where
  | mk {name thermalization averaging every temperature pressure moves box averagingEvery info fix last trajectory averagesOut observables observablesOut
        bulk pattern : Node ℝ} :
      Call n "integration" integrationSignature [name, thermalization, averaging, every, temperature, pressure, moves, box, averagingEvery, info, fix, last,
        trajectory, averagesOut, observables, observablesOut, bulk, pattern] →
      name = .string r.runName → IsName r.runName →
      Maybe IsCount thermalization r.thermalizationCycles →
      Maybe IsCount averaging r.averagingCycles →
      IsCount every r.snapshotEvery →
      IsEnvironment temperature pressure moves box r.environment →
      IsWrapped averagingEvery r.averagingEvery →
      IsCount info r.inlineInfoEvery →
      IsCount fix r.orientationFixEvery →
      ListOf IsWriter last r.lastSnapshotWriters → FirstRamsnap r.lastSnapshotWriters r.ramsnapOut →
      ListOf IsRecorder trajectory r.simulationRecorders → FirstRamtrj r.simulationRecorders r.ramtrjOut →
      Maybe IsText averagesOut r.averagesOut →
      ListOf (Reads P.observable) observables r.observables →
      Maybe IsText observablesOut r.observablesOut →
      ListOf (Reads P.bulkObservable) bulk r.bulkObservables →
      Maybe IsText pattern r.bulkObservablesOutPattern →
      Consistent r → IsIntegration P n r

/-- The signature of `overlap_relaxation`. -/
def relaxationSignature : List (String × Option (Node ℝ)) :=
  [("run_name", none), ("snapshot_every", none), ("temperature", some .none), ("pressure", some .none), ("move_types", some .none),
    ("box_move_type", some .none), ("inline_info_every", some (.int 100)), ("orientation_fix_every", some (.int 10000)), ("helper_shape", some .none),
    ("output_last_snapshot", some (.array [])), ("record_trajectory", some (.array [])), ("observables", some (.array [])), ("observables_out", some .none)]

/-- Overlap relaxation runs. -/
inductive IsRelaxation (P : Parts X) (n : Node ℝ) (r : RelaxationRun X) : Prop where
  | mk {name every temperature pressure moves box info fix helper last trajectory observables observablesOut : Node ℝ} :
      Call n "overlap_relaxation" relaxationSignature [name, every, temperature, pressure, moves, box, info, fix, helper, last, trajectory, observables,
        observablesOut] →
      name = .string r.runName → IsName r.runName →
      IsCount every r.snapshotEvery →
      IsEnvironment temperature pressure moves box r.environment →
      IsCount info r.inlineInfoEvery →
      IsCount fix r.orientationFixEvery →
      Maybe (ReadsShape P.shape) helper r.helperShape →
      ListOf IsWriter last r.lastSnapshotWriters → FirstRamsnap r.lastSnapshotWriters r.ramsnapOut →
      ListOf IsRecorder trajectory r.simulationRecorders → FirstRamtrj r.simulationRecorders r.ramtrjOut →
      ListOf (Reads P.observable) observables r.observables →
      Maybe IsText observablesOut r.observablesOut → IsRelaxation P n r

/-- Runs. -/
inductive IsRun (P : Parts X) : Node ℝ → Run X → Prop where
  | integration {n : Node ℝ} {r : IntegrationRun X} : IsIntegration P n r → IsRun P n (.integration r)
  | relaxation {n : Node ℝ} {r : RelaxationRun X} : IsRelaxation P n r → IsRun P n (.relaxation r)

/-! ### The whole input -/

/-- Versions are compared by their parts, from the first to the last. -/
def NotAfter (a b : Version) : Prop :=
  a.major < b.major ∨ a.major = b.major ∧ (a.minor < b.minor ∨ a.minor = b.minor ∧ a.patch ≤ b.patch)

/-- The version of the input: from 0.9.0 to 1.2.0. How the text of a version is read is the subject of C48. -/
def IsVersion (n : Node ℝ) (v : Version) : Prop :=
  ∃ s, n = .string s ∧ Version.parse s = .ok v ∧ NotAfter ⟨0, 9, 0⟩ v ∧ NotAfter v ⟨1, 2, 0⟩

/-- The number of threads: `"max"`, or a positive integer. -/
def IsThreads (maxThreads : Nat) (n : Node ℝ) (k : Nat) : Prop := (n = .string "max".toList ∧ k = maxThreads) ∨ IsCount n k

/-- The signature of `rampack`. -/
def rampackSignature : List (String × Option (Node ℝ)) :=
  [("version", none), ("arrangement", none), ("shape", none), ("seed", none), ("runs", none), ("temperature", some .none), ("pressure", some .none),
    ("move_types", some .none), ("box_move_type", some .none), ("walls", some (.array [.boolean false, .boolean false, .boolean false])),
    ("box_move_threads", some (.int 1)), ("domain_divisions", some (.array [.int 1, .int 1, .int 1])), ("handle_signals", some (.boolean true))]

/-- The whole input. -/
inductive IsInput (P : Parts X) (maxThreads : Nat) (n : Node ℝ) (p : Parameters X) : Prop where
  | mk {version arrangement shape seed runs temperature pressure moves box walls threads divisions signals : Node ℝ} :
      Call n "rampack" rampackSignature [version, arrangement, shape, seed, runs, temperature, pressure, moves, box, walls, threads, divisions, signals] →
      IsVersion version p.version →
      Reads P.arrangement arrangement p.arrangement →
      ReadsShape P.shape shape p.shape →
      IsWrapped seed p.seed →
      ListOf (IsRun P) runs p.runs →
      IsEnvironment temperature pressure moves box p.environment →
      ListOf (fun n b => n = .boolean b) walls p.walls → p.walls.length = 3 →
      IsThreads maxThreads threads p.scalingThreads →
      ListOf IsCount divisions p.domainDivisions → p.domainDivisions.length = 3 →
      signals = .boolean p.saveOnSignal →
      (p.runs.map Run.name).Nodup →
      (∃ r, p.runs.head? = some r ∧ (p.environment.combine r.environment).isComplete = true) →
      IsInput P maxThreads n p

/-- What is expected from the matchers which are not modelled: they make only what they are for, options of shapes are told apart by the kind of
the expression, and `None` is not a shape. -/
structure Parts.Ok (P : Parts X) : Prop where
  arrangement : ∀ n v, P.arrangement.run n = .matched v → ∃ x, v = .value (.object x)
  observable : ∀ n v, P.observable.run n = .matched v → ∃ x, v = .value (.object x)
  bulkObservable : ∀ n v, P.bulkObservable.run n = .matched v → ∃ x, v = .value (.object x)
  shape : ∀ n v, P.shape.toMatcher.run n = .matched v → ∃ x, v = .value (.shape (some x))
  sound : Sound P.shape
  notNone : ∀ m ∈ options P.shape, ∃ r, m.run .none = .unmatched r

end Rampack.Input.Spec
