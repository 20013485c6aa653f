import Verif.Pyon.Matcher
import Verif.Sim.Model
import Verif.Sim.Direction
import Verif.Utils.Strings
/-
Model of the matchers of the input file: /repo/src/frontend/matchers/{RampackMatcher,DynamicParameterMatcher,MoveSamplerMatcher,
BoxScalerMatcher,FileSnapshotWriterMatcher,SimulationRecorderFactoryMatcher}.cpp, with the structures of
/repo/src/frontend/RampackParameters.h.

The matchers of shapes, arrangements and observables are left to `Parts`; `X` is the type of what they make.

Simplifications: `double` is ℝ, also in the conversion of integers; objects are values, so a shared pointer is `Option`, with `none` for a null
pointer; the collector of observables is the list of observables in it. An exception thrown by a constructor is the exception thrown by the
matcher; undefined behaviour in a constructor would be one with the text "undefined behaviour".
-/
namespace Rampack.Input

open Pyon

/-! ### What is made -/

/-- `SnapshotWriter` and its subclasses; src/core/io/{Ramsnap,Wolfram,XYZ}Writer.h. -/
inductive SnapshotFormat where
  | ramsnap
  | wolfram (affine : Bool) (params : List (Text × Text))
  | xyz

/-- `FileSnapshotWriter`; FileSnapshotWriter.h:14-18. -/
structure SnapshotOut where
  filename : Text
  format : SnapshotFormat

/-- `SimulationRecorderFactory` and its subclasses: the name of the file and `createsRamtrj`; SimulationRecorderFactory.h:15-60. -/
structure RecorderOut where
  filename : Text
  ramtrj : Bool

/-- `IntegrationRun`; RampackParameters.h:38-56. -/
structure IntegrationRun (X : Type) where
  runName : Text
  environment : Env
  thermalizationCycles : Option Nat
  averagingCycles : Option Nat
  snapshotEvery : Nat
  averagingEvery : Nat
  inlineInfoEvery : Nat
  orientationFixEvery : Nat
  lastSnapshotWriters : List SnapshotOut
  ramsnapOut : Option Text
  simulationRecorders : List RecorderOut
  ramtrjOut : Option Text
  observables : List X
  bulkObservables : List X
  averagesOut : Option Text
  observablesOut : Option Text
  bulkObservablesOutPattern : Option Text

/-- `OverlapRelaxationRun`; RampackParameters.h:58-71. -/
structure RelaxationRun (X : Type) where
  runName : Text
  environment : Env
  snapshotEvery : Nat
  inlineInfoEvery : Nat
  orientationFixEvery : Nat
  helperShape : Option X
  lastSnapshotWriters : List SnapshotOut
  ramsnapOut : Option Text
  simulationRecorders : List RecorderOut
  ramtrjOut : Option Text
  observables : List X
  observablesOut : Option Text

/-- `Run`; RampackParameters.h:73. -/
inductive Run (X : Type) where
  | integration (r : IntegrationRun X)
  | relaxation (r : RelaxationRun X)

/-- `runName` of either kind of a run; RampackMatcher.cpp:397-400. -/
def Run.name {X : Type} : Run X → Text
  | .integration r => r.runName
  | .relaxation r => r.runName

/-- `environment` of either kind of a run; RampackParameters.h:82-85. -/
def Run.environment {X : Type} : Run X → Env
  | .integration r => r.environment
  | .relaxation r => r.environment

/-- `RampackParameters` with `BaseParameters`; RampackParameters.h:26-36, 75-78. -/
structure Parameters (X : Type) where
  version : Version
  arrangement : X
  environment : Env
  seed : Nat
  shape : X
  walls : List Bool
  scalingThreads : Nat
  domainDivisions : List Nat
  saveOnSignal : Bool
  runs : List (Run X)

/-- What the conversions of matchers make. -/
inductive Value (X : Type) where
  | text (s : Text)
  | flag (b : Bool)
  | real (x : ℝ)
  | size (n : Nat)
  | optSize (n : Option Nat)
  | optText (s : Option Text)
  | optReal (x : Option ℝ)
  | version (v : Version)
  | param (p : Option Param)
  | piece (start : Nat) (p : Option Param)
  | sampler (s : Sampler)
  | samplers (l : List Sampler)
  | direction (d : Directions)
  | scaler (s : Option Scaler)
  | scalingDisabled
  | style (affine : Bool)
  | writer (w : SnapshotOut)
  | writers (l : List SnapshotOut)
  | recorder (r : RecorderOut)
  | recorders (l : List RecorderOut)
  | object (x : X)
  | objects (l : List X)
  | shape (s : Option X)
  | flags (l : List Bool)
  | sizes (l : List Nat)
  | run (r : Run X)
  | runs (l : List (Run X))
  | parameters (p : Parameters X)

/-- The matchers which are not modelled: `ArrangementMatcher::create`, `ShapeMatcher::create`, `ObservablesMatcher::createObservablesMatcher`,
`ObservablesMatcher::createBulkObservablesMatcher`. -/
structure Parts (X : Type) where
  arrangement : Matcher ℝ (Value X)
  shape : Choice ℝ (Value X)
  observable : Matcher ℝ (Value X)
  bulkObservable : Matcher ℝ (Value X)

variable {X : Type}

/-! ### Reading values: `as<T>`, `asStdVector<T>`; Any.h:48-55, MatcherArray.h:51-58 -/

/-- The exception of `as`. -/
def badCast {α : Type} : Except String α := .error "pyon::Any::as"

/-- `as<std::string>()`. -/
def asText : Any ℝ (Value X) → Except String Text
  | .value (.text s) => .ok s
  | _ => badCast

/-- `as<bool>()`. -/
def asFlag : Any ℝ (Value X) → Except String Bool
  | .value (.flag b) => .ok b
  | _ => badCast

/-- `as<double>()`. -/
def asReal : Any ℝ (Value X) → Except String ℝ
  | .value (.real x) => .ok x
  | _ => badCast

/-- `as<std::size_t>()`. -/
def asSize : Any ℝ (Value X) → Except String Nat
  | .value (.size n) => .ok n
  | _ => badCast

/-- `as<std::optional<std::size_t>>()`. -/
def asOptSize : Any ℝ (Value X) → Except String (Option Nat)
  | .value (.optSize n) => .ok n
  | _ => badCast

/-- `as<std::optional<std::string>>()`. -/
def asOptText : Any ℝ (Value X) → Except String (Option Text)
  | .value (.optText s) => .ok s
  | _ => badCast

/-- `as<std::optional<double>>()`. -/
def asOptReal : Any ℝ (Value X) → Except String (Option ℝ)
  | .value (.optReal x) => .ok x
  | _ => badCast

/-- `as<Version>()`. -/
def asVersion : Any ℝ (Value X) → Except String Version
  | .value (.version v) => .ok v
  | _ => badCast

/-- `as<std::shared_ptr<DynamicParameter>>()`. -/
def asParam : Any ℝ (Value X) → Except String (Option Param)
  | .value (.param p) => .ok p
  | _ => badCast

/-- `as<CycleParam>()`. -/
def asPiece : Any ℝ (Value X) → Except String (Nat × Option Param)
  | .value (.piece start p) => .ok (start, p)
  | _ => badCast

/-- `as<std::shared_ptr<MoveSampler>>()`. -/
def asSampler : Any ℝ (Value X) → Except String Sampler
  | .value (.sampler s) => .ok s
  | _ => badCast

/-- `as<std::vector<std::shared_ptr<MoveSampler>>>()`. -/
def asSamplers : Any ℝ (Value X) → Except String (List Sampler)
  | .value (.samplers l) => .ok l
  | _ => badCast

/-- `as<AnisotropicVolumeScaler::ScalingDirection>()`. -/
def asDirection : Any ℝ (Value X) → Except String Directions
  | .value (.direction d) => .ok d
  | _ => badCast

/-- `as<WolframWriter::WolframStyle>()`. -/
def asStyle : Any ℝ (Value X) → Except String Bool
  | .value (.style b) => .ok b
  | _ => badCast

/-- `as<FileSnapshotWriter>()`. -/
def asWriter : Any ℝ (Value X) → Except String SnapshotOut
  | .value (.writer w) => .ok w
  | _ => badCast

/-- `as<std::vector<FileSnapshotWriter>>()`. -/
def asWriters : Any ℝ (Value X) → Except String (List SnapshotOut)
  | .value (.writers l) => .ok l
  | _ => badCast

/-- `as<std::shared_ptr<SimulationRecorderFactory>>()`. -/
def asRecorder : Any ℝ (Value X) → Except String RecorderOut
  | .value (.recorder r) => .ok r
  | _ => badCast

/-- `as<std::vector<std::shared_ptr<SimulationRecorderFactory>>>()`. -/
def asRecorders : Any ℝ (Value X) → Except String (List RecorderOut)
  | .value (.recorders l) => .ok l
  | _ => badCast

/-- `as<ObservableData>()`, `as<std::shared_ptr<BulkObservable>>()`, `as<std::shared_ptr<PackingFactory>>()`. -/
def asObject : Any ℝ (Value X) → Except String X
  | .value (.object x) => .ok x
  | _ => badCast

/-- `as<std::vector<ObservableData>>()`, `as<std::vector<std::shared_ptr<BulkObservable>>>()`. -/
def asObjects : Any ℝ (Value X) → Except String (List X)
  | .value (.objects l) => .ok l
  | _ => badCast

/-- `as<std::shared_ptr<ShapeTraits>>()`. -/
def asShape : Any ℝ (Value X) → Except String (Option X)
  | .value (.shape s) => .ok s
  | _ => badCast

/-- `as<std::array<bool, 3>>()`. -/
def asFlags : Any ℝ (Value X) → Except String (List Bool)
  | .value (.flags l) => .ok l
  | _ => badCast

/-- `as<std::array<std::size_t, 3>>()`. -/
def asSizes : Any ℝ (Value X) → Except String (List Nat)
  | .value (.sizes l) => .ok l
  | _ => badCast

/-- `as<Run>()`. -/
def asRun : Any ℝ (Value X) → Except String (Run X)
  | .value (.run r) => .ok r
  | _ => badCast

/-- `as<std::vector<Run>>()`. -/
def asRuns : Any ℝ (Value X) → Except String (List (Run X))
  | .value (.runs l) => .ok l
  | _ => badCast

/-- A constructor called by a conversion. -/
def construct {α : Type} : Outcome α → Except String α
  | .ok a => .ok a
  | .throw m => .error m
  | .ub => .error "undefined behaviour"
  | .diverge => .error "undefined behaviour"

/-- `data[name]`. -/
def get (d : ClassData ℝ (Value X)) (name : String) : Except String (Any ℝ (Value X)) := construct (d.atName name.toList)

/-- `static_cast<std::size_t>` of a `long`, that is of an integer from -2^63 to 2^63 - 1. -/
def toSize (i : Int) : Nat := if 0 ≤ i then i.toNat else (2 ^ 64 + i).toNat

/-! ### Common matchers -/

/-- An argument without a default value. -/
def required (name : String) (m : Matcher ℝ (Value X)) : Argument ℝ (Value X) := ⟨name.toList, some m, none⟩

/-- An argument with a default value. -/
def optional (conv : ℚ → Option ℝ) (name : String) (m : Matcher ℝ (Value X)) (text : String) : Outcome (Argument ℝ (Value X)) :=
  Argument.withDefault conv name.toList m text.toList

/-- `MatcherFloat{}`. -/
def float : Matcher ℝ (Value X) := matcherFloat (fun i => (i : ℝ)) [] (fun x => .ok (.value (.real x)))

/-- `positive()` of floats; MatcherNumeral.h:122-126. -/
noncomputable def isPositive (x : ℝ) : Except String Bool := .ok (decide (x > 0))

/-- `MatcherFloat{}.positive()`. -/
noncomputable def positiveFloat : Matcher ℝ (Value X) := matcherFloat (fun i => (i : ℝ)) [isPositive] (fun x => .ok (.value (.real x)))

/-- `positive()` of integers; MatcherNumeral.h:122-126. -/
def intPositive (i : Int) : Except String Bool := .ok (decide (i > 0))

/-- `nonNegative()` of integers; MatcherNumeral.h:140-144. -/
def intNonNegative (i : Int) : Except String Bool := .ok (decide (i ≥ 0))

/-- `MatcherInt{}.mapTo<std::size_t>()` with filters. -/
def size (filters : List (Int → Except String Bool)) : Matcher ℝ (Value X) := matcherInt filters (fun i => .ok (.value (.size (toSize i))))

/-- `MatcherString{}.nonEmpty()`; MatcherString.cpp:123-127. -/
def textNonEmpty (s : Text) : Except String Bool := .ok (!s.isEmpty)

/-- `MatcherBoolean{}`. -/
def boolean : Matcher ℝ (Value X) := matcherBoolean none (fun b => .ok (.value (.flag b)))

/-- `mapTo` of a class. -/
def ClassMatcher.mapTo (c : ClassMatcher ℝ (Value X)) (f : ClassData ℝ (Value X) → Except String (Value X)) : ClassMatcher ℝ (Value X) :=
  { c with mapping := fun d => (f d).map .value }

/-- `elementsMatch` with `mapToStdVector`. -/
def vector {α : Type} (m : Matcher ℝ (Value X)) (filters : List (List (Any ℝ (Value X)) → Except String Bool))
    (as : Any ℝ (Value X) → Except String α) (wrap : List α → Value X) : Matcher ℝ (Value X) :=
  ArrayMatcher.toMatcher ⟨some m, filters, fun l => (l.mapM as).map fun r => .value (wrap r)⟩

/-- `nonEmpty()` of arrays; MatcherArray.cpp:190-194. -/
def arrayNonEmpty (l : List (Any ℝ (Value X))) : Except String Bool := .ok (!l.isEmpty)

/-- `size(...)` of arrays; MatcherArray.cpp:62-64. -/
def arraySize (n : Nat) (l : List (Any ℝ (Value X))) : Except String Bool := .ok (decide (l.length = n))

/-- `sizeAtLeast(...)` of arrays. -/
def arraySizeAtLeast (n : Nat) (l : List (Any ℝ (Value X))) : Except String Bool := .ok (decide (l.length ≥ n))

/-! ### Dynamic parameters; DynamicParameterMatcher.cpp -/

/-- `constFloat`; DynamicParameterMatcher.cpp:28-30. -/
def constFloat : Matcher ℝ (Value X) := matcherFloat (fun i => (i : ℝ)) [] (fun x => .ok (.value (.param (some (.const x)))))

/-- `constDataclass`; DynamicParameterMatcher.cpp:32-37. -/
def createConst : Outcome (ClassMatcher ℝ (Value X)) := do
  let c ← createClass "const".toList [required "value" float]
  return ClassMatcher.mapTo c fun d => do
    let value ← get d "value" >>= asReal
    return .param (some (.const value))

/-- `create_linear`; DynamicParameterMatcher.cpp:42-51. -/
def createLinear (conv : ℚ → Option ℝ) : Outcome (ClassMatcher ℝ (Value X)) := do
  let intercept ← optional conv "intercept" float "0"
  let c ← createClass "linear".toList [required "slope" float, intercept]
  return ClassMatcher.mapTo c fun d => do
    let slope ← get d "slope" >>= asReal
    let intercept ← get d "intercept" >>= asReal
    return .param (some (.linear slope intercept))

/-- `create_exp`; DynamicParameterMatcher.cpp:53-62. -/
def createExp : Outcome (ClassMatcher ℝ (Value X)) := do
  let c ← createClass "exp".toList [required "a0" float, required "rate" float]
  return ClassMatcher.mapTo c fun d => do
    let a0 ← get d "a0" >>= asReal
    let rate ← get d "rate" >>= asReal
    return .param (some (.exponential a0 rate))

/-- `create_specific`; DynamicParameterMatcher.cpp:23-25, 39. -/
def createSpecific (conv : ℚ → Option ℝ) : Outcome (Choice ℝ (Value X)) := do
  let const ← createConst
  let linear ← createLinear conv
  let exp ← createExp
  return .join (.join (.join (.other constFloat) (.dataclass const)) (.dataclass linear)) (.dataclass exp)

/-- `piece`; DynamicParameterMatcher.cpp:67-74. -/
def createPiece (conv : ℚ → Option ℝ) : Outcome (ClassMatcher ℝ (Value X)) := do
  let specific ← createSpecific conv
  let c ← createClass "piece".toList [required "start" (size [intNonNegative]), required "param" specific.toMatcher]
  return ClassMatcher.mapTo c fun d => do
    let start ← get d "start" >>= asSize
    let param ← get d "param" >>= asParam
    return .piece start param

/-- `getVariadicArguments().asStdVector<CycleParam>()`; DynamicParameterMatcher.cpp:84, 96. -/
def piecesOf (d : ClassData ℝ (Value X)) : Except String (List (Nat × Option Param)) := d.variadic.mapM asPiece

/-- The loop of the filter; DynamicParameterMatcher.cpp:88-90. -/
def ascending : List (Nat × Option Param) → Bool
  | [] => true
  | [_] => true
  | a :: b :: l => if a.1 ≥ b.1 then false else ascending (b :: l)

/-- The filter of pieces; DynamicParameterMatcher.cpp:83-93. `front()` of an empty vector is undefined behaviour. -/
def piecesInOrder (d : ClassData ℝ (Value X)) : Except String Bool := do
  let pieces ← piecesOf d
  match pieces with
  | [] => .error "undefined behaviour"
  | a :: l => if a.1 ≠ 0 then return false else return ascending (a :: l)

/-- `create_piecewise`; DynamicParameterMatcher.cpp:64-99. -/
def createPiecewise (conv : ℚ → Option ℝ) : Outcome (ClassMatcher ℝ (Value X)) := do
  let piece ← createPiece conv
  let c ← createClass "piecewise".toList []
  return ClassMatcher.mapTo
    { c with
      variadic := some ⟨some piece.toMatcher, [arraySizeAtLeast 2], fun l => .ok (.array l)⟩
      filters := [piecesInOrder] } fun d => do
    let pieces ← piecesOf d
    let p ← construct (Param.mkPiecewise pieces)
    return .param (some p)

/-- `DynamicParameterMatcher::create`; DynamicParameterMatcher.cpp:103-105. -/
def createDynamic (conv : ℚ → Option ℝ) : Outcome (Choice ℝ (Value X)) := do
  let specific ← createSpecific conv
  let piecewise ← createPiecewise conv
  return .join specific (.dataclass piecewise)

/-- `dynamicParameter`; RampackMatcher.cpp:62-63. -/
def dynamicParameter (conv : ℚ → Option ℝ) : Outcome (Choice ℝ (Value X)) := do
  let dynamic ← createDynamic conv
  return .join (.other (matcherNone (.ok (.value (.param none))))) dynamic

/-! ### Move samplers; MoveSamplerMatcher.cpp -/

/-- `rotStep`; MoveSamplerMatcher.cpp:24-27. -/
noncomputable def rotStep : Choice ℝ (Value X) :=
  .join (.other (matcherFloat (fun i => (i : ℝ)) [isPositive] (fun x => .ok (.value (.optReal (some x))))))
    (.other (matcherString [fun s => .ok (decide (s = "auto".toList))] (fun _ => .ok (.value (.optReal none)))))

/-- `maxTransStep`; MoveSamplerMatcher.cpp:29-31, 53-55. -/
noncomputable def maxTransStep : Choice ℝ (Value X) := .join (.other positiveFloat) (.other (matcherNone (.ok (.value (.real 0)))))

/-- The filter of steps; MoveSamplerMatcher.cpp:37-43, 60-66. -/
noncomputable def stepBelowMax (step max : String) (d : ClassData ℝ (Value X)) : Except String Bool := do
  let transStep ← get d step >>= asReal
  let maxTransStep ← get d max >>= asReal
  if maxTransStep = 0 then return true else return decide (transStep ≤ maxTransStep)

/-- `create_rototranslation`; MoveSamplerMatcher.cpp:23-51. -/
noncomputable def createRototranslation (conv : ℚ → Option ℝ) : Outcome (ClassMatcher ℝ (Value X)) := do
  let rot ← optional conv "rot_step" rotStep.toMatcher "\"auto\""
  let max ← optional conv "max_trans_step" maxTransStep.toMatcher "None"
  let c ← createClass "rototranslation".toList [required "trans_step" positiveFloat, rot, max]
  return ClassMatcher.mapTo { c with filters := [stepBelowMax "trans_step" "max_trans_step"] } fun d => do
    let transStep ← get d "trans_step" >>= asReal
    let rotStep ← get d "rot_step" >>= asOptReal
    let maxTransStep ← get d "max_trans_step" >>= asReal
    let s ← construct (Sampler.mkRototranslation transStep rotStep maxTransStep)
    return .sampler s

/-- `create_translation`; MoveSamplerMatcher.cpp:53-74. -/
noncomputable def createTranslation (conv : ℚ → Option ℝ) : Outcome (ClassMatcher ℝ (Value X)) := do
  let max ← optional conv "max_step" maxTransStep.toMatcher "None"
  let c ← createClass "translation".toList [required "step" positiveFloat, max]
  return ClassMatcher.mapTo { c with filters := [stepBelowMax "step" "max_step"] } fun d => do
    let transStep ← get d "step" >>= asReal
    let maxTransStep ← get d "max_step" >>= asReal
    let s ← construct (Sampler.mkTranslation transStep maxTransStep)
    return .sampler s

/-- `create_rotation`; MoveSamplerMatcher.cpp:76-83. -/
noncomputable def createRotation : Outcome (ClassMatcher ℝ (Value X)) := do
  let c ← createClass "rotation".toList [required "step" positiveFloat]
  return ClassMatcher.mapTo c fun d => do
    let step ← get d "step" >>= asReal
    let s ← construct (Sampler.mkRotation step)
    return .sampler s

/-- `create_flip`; MoveSamplerMatcher.cpp:85-92. -/
noncomputable def createFlip (conv : ℚ → Option ℝ) : Outcome (ClassMatcher ℝ (Value X)) := do
  let every ← optional conv "every" (size [intPositive]) "10"
  let c ← createClass "flip".toList [every]
  return ClassMatcher.mapTo c fun d => do
    let every ← get d "every" >>= asSize
    let s ← construct (Sampler.mkFlip every)
    return .sampler s

/-- `MoveSamplerMatcher::create`; MoveSamplerMatcher.cpp:96-98. -/
noncomputable def createSampler (conv : ℚ → Option ℝ) : Outcome (Choice ℝ (Value X)) := do
  let rototranslation ← createRototranslation conv
  let translation ← createTranslation conv
  let rotation ← createRotation
  let flip ← createFlip conv
  return .join (.join (.join (.dataclass rototranslation) (.dataclass translation)) (.dataclass rotation)) (.dataclass flip)

/-- `create_move_types`; RampackMatcher.cpp:296-306. -/
noncomputable def createMoveTypes (conv : ℚ → Option ℝ) : Outcome (Choice ℝ (Value X)) := do
  let sampler ← createSampler conv
  return .join (.other (vector sampler.toMatcher [arrayNonEmpty] asSampler .samplers)) (.other (matcherNone (.ok (.value (.samplers [])))))

/-! ### Box scalers; BoxScalerMatcher.cpp -/

/-- A predefined direction; e.g. BoxScalerMatcher.cpp:41. -/
def predefined (name : String) (d : Outcome Directions) : Matcher ℝ (Value X) :=
  matcherString [fun s => .ok (decide (s = name.toList))] (fun _ => (construct d).map fun d => .value (.direction d))

/-- `predefinedDirection`; BoxScalerMatcher.cpp:41-46. -/
def predefinedDirection : Choice ℝ (Value X) :=
  .join (.join (.join (.join
    (.other (predefined "isotropic" (do let xy ← Directions.X.and Directions.Y; xy.and Directions.Z)))
    (.other (predefined "anisotropic x" (do let yz ← Directions.Y.and Directions.Z; return Directions.X.or yz))))
    (.other (predefined "anisotropic y" (do let zx ← Directions.Z.and Directions.X; return Directions.Y.or zx))))
    (.other (predefined "anisotropic z" (do let xy ← Directions.X.and Directions.Y; return Directions.Z.or xy))))
    (.other (predefined "anisotropic xyz" (.ok ((Directions.X.or Directions.Y).or Directions.Z))))

/-- `manualDirection`; BoxScalerMatcher.cpp:49-58. -/
def manualDirection : Matcher ℝ (Value X) :=
  matcherString
    [fun s => .ok (s.all fun c => "xyz()[]".toList.contains c),
      fun s => .ok (s.count 'x' == 1 && s.count 'y' == 1 && s.count 'z' == 1)]
    (fun s => (construct (Direction.parse s)).map fun d => .value (.direction d))

/-- `scalingDirection`; BoxScalerMatcher.cpp:60. -/
def scalingDirection : Choice ℝ (Value X) := .join predefinedDirection (.other manualDirection)

/-- `create_delta_v`; BoxScalerMatcher.cpp:63-71. -/
noncomputable def createDeltaV : Outcome (ClassMatcher ℝ (Value X)) := do
  let c ← createClass "delta_v".toList [required "step" positiveFloat]
  return ClassMatcher.mapTo c fun d => do
    let step ← get d "step" >>= asReal
    let s ← construct (Scaler.make (.adapter .delta) step)
    return .scaler (some s)

/-- `create_anisotropic`; BoxScalerMatcher.cpp:73-90. -/
noncomputable def createAnisotropic (conv : ℚ → Option ℝ) (name : String) (sampler : FactorSampler) : Outcome (ClassMatcher ℝ (Value X)) := do
  let together ← optional conv "scale_together" boolean "True"
  let c ← createClass name.toList [required "spec" scalingDirection.toMatcher, required "step" positiveFloat, together]
  return ClassMatcher.mapTo c fun d => do
    let direction ← get d "spec" >>= asDirection
    let step ← get d "step" >>= asReal
    let together ← get d "scale_together" >>= asFlag
    let v ← construct (VolumeScaler.mkAnisotropic sampler direction (!together))
    let s ← construct (Scaler.make (.adapter v) step)
    return .scaler (some s)

/-- `create_delta_triclinic`; BoxScalerMatcher.cpp:100-109. -/
noncomputable def createDeltaTriclinic (conv : ℚ → Option ℝ) : Outcome (ClassMatcher ℝ (Value X)) := do
  let together ← optional conv "scale_together" boolean "True"
  let c ← createClass "delta_triclinic".toList [required "step" positiveFloat, together]
  return ClassMatcher.mapTo c fun d => do
    let step ← get d "step" >>= asReal
    let together ← get d "scale_together" >>= asFlag
    let s ← construct (Scaler.make (.triclinicDelta together) step)
    return .scaler (some s)

/-- `BoxScalerMatcher::create`; BoxScalerMatcher.cpp:92-98, 113-115. -/
noncomputable def createScaler (conv : ℚ → Option ℝ) : Outcome (Choice ℝ (Value X)) := do
  let deltaV ← createDeltaV
  let linear ← createAnisotropic conv "linear" .linear
  let log ← createAnisotropic conv "log" .log
  let triclinic ← createDeltaTriclinic conv
  return .join (.join (.join (.dataclass deltaV) (.dataclass linear)) (.dataclass log)) (.dataclass triclinic)

/-- `disabledScaling`; RampackMatcher.cpp:310-311. -/
def createDisabled : Outcome (ClassMatcher ℝ (Value X)) := do
  let c ← createClass "disabled".toList []
  return ClassMatcher.mapTo c fun _ => .ok .scalingDisabled

/-- `create_box_scaler`; RampackMatcher.cpp:308-316. -/
noncomputable def createBoxScaler (conv : ℚ → Option ℝ) : Outcome (Choice ℝ (Value X)) := do
  let scaler ← createScaler conv
  let disabled ← createDisabled
  return .join (.join scaler (.dataclass disabled)) (.other (matcherNone (.ok (.value (.scaler none)))))

/-! ### Snapshot writers and recorders -/

/-- `filename`; FileSnapshotWriterMatcher.cpp:15, SimulationRecorderFactoryMatcher.cpp:12. -/
def filename : Matcher ℝ (Value X) := matcherString [textNonEmpty] (fun s => .ok (.value (.text s)))

/-- `create_ramsnap`; FileSnapshotWriterMatcher.cpp:18-27. -/
def createRamsnap : Outcome (ClassMatcher ℝ (Value X)) := do
  let c ← createClass "ramsnap".toList [required "filename" filename]
  return ClassMatcher.mapTo c fun d => do
    let filename ← get d "filename" >>= asText
    return .writer ⟨filename, .ramsnap⟩

/-- `standard` and `affineTransform`; FileSnapshotWriterMatcher.cpp:30-33. -/
def createStyle (name : String) (affine : Bool) : Outcome (ClassMatcher ℝ (Value X)) := do
  let c ← createClass name.toList []
  return ClassMatcher.mapTo c fun _ => .ok (.style affine)

/-- An entry of `asStdMap<std::string>`. -/
def entryText (e : Text × Any ℝ (Value X)) : Except String (Text × Text) := do
  let s ← asText e.2
  return (e.1, s)

/-- `create_wolfram`; FileSnapshotWriterMatcher.cpp:29-48. -/
def createWolfram (conv : ℚ → Option ℝ) : Outcome (ClassMatcher ℝ (Value X)) := do
  let standard ← createStyle "standard" false
  let affine ← createStyle "affine_transform" true
  let style ← optional conv "style" (Choice.join (.dataclass standard) (.dataclass affine)).toMatcher "standard"
  let c ← createClass "wolfram".toList [required "filename" filename, style]
  return ClassMatcher.mapTo
    { c with keyword := some ⟨[], some (matcherString [] (fun s => .ok (.value (.text s)))), [], fun es => .ok (.dictionary es)⟩ } fun d => do
    let filename ← get d "filename" >>= asText
    let style ← get d "style" >>= asStyle
    let params ← d.keyword.mapM entryText
    return .writer ⟨filename, .wolfram style params⟩

/-- `create_xyz`; FileSnapshotWriterMatcher.cpp:50-59. -/
def createXyz : Outcome (ClassMatcher ℝ (Value X)) := do
  let c ← createClass "xyz".toList [required "filename" filename]
  return ClassMatcher.mapTo c fun d => do
    let filename ← get d "filename" >>= asText
    return .writer ⟨filename, .xyz⟩

/-- `FileSnapshotWriterMatcher::create`; FileSnapshotWriterMatcher.cpp:63-65. -/
def createWriter (conv : ℚ → Option ℝ) : Outcome (Choice ℝ (Value X)) := do
  let ramsnap ← createRamsnap
  let wolfram ← createWolfram conv
  let xyz ← createXyz
  return .join (.join (.dataclass ramsnap) (.dataclass wolfram)) (.dataclass xyz)

/-- `create_ramtrj` and `create_xyz`; SimulationRecorderFactoryMatcher.cpp:15-31. -/
def createRecorderClass (name : String) (ramtrj : Bool) : Outcome (ClassMatcher ℝ (Value X)) := do
  let c ← createClass name.toList [required "filename" filename]
  return ClassMatcher.mapTo c fun d => do
    let filename ← get d "filename" >>= asText
    return .recorder ⟨filename, ramtrj⟩

/-- `SimulationRecorderFactoryMatcher::create`; SimulationRecorderFactoryMatcher.cpp:35-37. -/
def createRecorder : Outcome (Choice ℝ (Value X)) := do
  let ramtrj ← createRecorderClass "ramtrj" true
  let xyz ← createRecorderClass "xyz" false
  return .join (.dataclass ramtrj) (.dataclass xyz)

/-! ### The input file; RampackMatcher.cpp -/

/-- `std::isalnum(c) || c == '_'` in the "C" locale; RampackMatcher.cpp:59. -/
def isNameChar (c : Char) : Bool :=
  (decide ('a' ≤ c) && decide (c ≤ 'z')) || (decide ('A' ≤ c) && decide (c ≤ 'Z')) || (decide ('0' ≤ c) && decide (c ≤ '9')) || c == '_'

/-- `runName`; RampackMatcher.cpp:57-60. -/
def runName : Matcher ℝ (Value X) := matcherString [textNonEmpty, fun s => .ok (s.all isNameChar)] (fun s => .ok (.value (.text s)))

/-- `cycles`; RampackMatcher.cpp:65-69. -/
def cycles : Choice ℝ (Value X) :=
  .join (.other (matcherInt [intPositive] (fun i => .ok (.value (.optSize (some (toSize i)))))))
    (.other (matcherNone (.ok (.value (.optSize none)))))

/-- `nullableEvery`; RampackMatcher.cpp:71. -/
def nullableEvery : Matcher ℝ (Value X) := size []

/-- `notNullEvery`; RampackMatcher.cpp:73. -/
def notNullEvery : Matcher ℝ (Value X) := size [intPositive]

/-- `out_`; RampackMatcher.cpp:75-79. -/
def out : Choice ℝ (Value X) :=
  .join (.other (matcherString [textNonEmpty] (fun s => .ok (.value (.optText (some s)))))) (.other (matcherNone (.ok (.value (.optText none)))))

/-- `INPUT_REVAMP_VERSION`; Version.h:105. -/
def inputRevampVersion : Version := ⟨0, 9, 0⟩

/-- `CURRENT_VERSION`; Version.h:100, CMakeLists.txt:2. -/
def currentVersion : Version := ⟨1, 2, 0⟩

/-- The first filter of versions; RampackMatcher.cpp:84-91. Only `PreconditionException` is caught, and other exceptions come from `std::stoul`. -/
def isVersion (s : Text) : Except String Bool :=
  match Version.parse s with
  | .ok _ => .ok true
  | .throw m => if m = "std::out_of_range" ∨ m = "std::invalid_argument" then .error m else .ok false
  | .ub => .error "undefined behaviour"
  | .diverge => .error "undefined behaviour"

/-- The second filter of versions; RampackMatcher.cpp:93-96. -/
def isSupported (s : Text) : Except String Bool := do
  let v ← construct (Version.parse s)
  return v.ge inputRevampVersion && v.le currentVersion

/-- `create_version`; RampackMatcher.cpp:82-101. -/
def version : Matcher ℝ (Value X) := matcherString [isVersion, isSupported] (fun s => (construct (Version.parse s)).map fun v => .value (.version v))

/-- `create_output_last_snapshot`; RampackMatcher.cpp:103-107. -/
def createLastSnapshot (conv : ℚ → Option ℝ) : Outcome (Matcher ℝ (Value X)) := do
  let writer ← createWriter conv
  return vector writer.toMatcher [] asWriter .writers

/-- `create_record_trajectory`; RampackMatcher.cpp:109-113. -/
def createRecordTrajectory : Outcome (Matcher ℝ (Value X)) := do
  let recorder ← createRecorder
  return vector recorder.toMatcher [] asRecorder .recorders

/-- `fetch_ramsnap_out`; RampackMatcher.cpp:115-122. -/
def fetchRamsnap : List SnapshotOut → Option Text
  | [] => none
  | w :: l => match w.format with
    | .ramsnap => some w.filename
    | _ => fetchRamsnap l

/-- `fetch_ramtrj_out`; RampackMatcher.cpp:124-132. -/
def fetchRamtrj : List RecorderOut → Option Text
  | [] => none
  | r :: l => if r.ramtrj then some r.filename else fetchRamtrj l

/-- `create_observables_matcher`, `create_bulk_observables_matcher`; RampackMatcher.cpp:147-157. -/
def observables (m : Matcher ℝ (Value X)) : Matcher ℝ (Value X) := vector m [] asObject .objects

/-- The part of `create_environment` about the box scaler; RampackMatcher.cpp:350-356. -/
def setScaler (env : Env) : Any ℝ (Value X) → Except String Env
  | .value .scalingDisabled => .ok env.disableBoxScaling
  | .value (.scaler none) => .ok env
  | .value (.scaler (some s)) => construct (env.setBoxScaler (some s))
  | _ => badCast

/-- `if (temperature != nullptr) ...`; RampackMatcher.cpp:343-348. -/
def setParameters (temperature pressure : Option Param) (samplers : List Sampler) : Outcome Env := do
  let env ← (if temperature.isSome then Env.empty.setTemperature temperature else .ok Env.empty)
  let env ← (if pressure.isSome then env.setPressure pressure else .ok env)
  if samplers ≠ [] then env.setMoveSamplers (samplers.map some) else .ok env

/-- `create_environment`; RampackMatcher.cpp:335-359. -/
def createEnvironment (d : ClassData ℝ (Value X)) : Except String Env := do
  let temperature ← get d "temperature" >>= asParam
  let pressure ← get d "pressure" >>= asParam
  let samplers ← get d "move_types" >>= asSamplers
  let boxScaler ← get d "box_move_type"
  let env ← construct (setParameters temperature pressure samplers)
  setScaler env boxScaler

/-- The arguments of all environments; e.g. RampackMatcher.cpp:167-170. -/
noncomputable def environmentArguments (conv : ℚ → Option ℝ) : Outcome (List (Argument ℝ (Value X))) := do
  let dynamic ← dynamicParameter conv
  let moveTypes ← createMoveTypes conv
  let boxScaler ← createBoxScaler conv
  let temperature ← optional conv "temperature" dynamic.toMatcher "None"
  let pressure ← optional conv "pressure" dynamic.toMatcher "None"
  let moves ← optional conv "move_types" moveTypes.toMatcher "None"
  let box ← optional conv "box_move_type" boxScaler.toMatcher "None"
  return [temperature, pressure, moves, box]

/-- The first filter of `integration`; RampackMatcher.cpp:181-185. -/
def hasPhase (d : ClassData ℝ (Value X)) : Except String Bool := do
  let thermalizationCycles ← get d "thermalization_cycles" >>= asOptSize
  let averagingCycles ← get d "averaging_cycles" >>= asOptSize
  return thermalizationCycles.isSome || averagingCycles.isSome

/-- The second filter of `integration`; RampackMatcher.cpp:187-193. -/
def hasAveragingEvery (d : ClassData ℝ (Value X)) : Except String Bool := do
  let averagingCycles ← get d "averaging_cycles" >>= asOptSize
  let averagingEvery ← get d "averaging_every" >>= asSize
  if averagingCycles.isNone then return true else return decide (averagingEvery > 0)

/-- The third filter of `integration`; RampackMatcher.cpp:195-203. -/
def averagesNeedAveraging (d : ClassData ℝ (Value X)) : Except String Bool := do
  let averagingCycles ← get d "averaging_cycles" >>= asOptSize
  let averagesOut ← get d "averages_out" >>= asOptText
  let bulkObservables ← get d "bulk_observables" >>= asObjects
  if averagingCycles.isSome then return true else return averagesOut.isNone && bulkObservables.isEmpty

/-- The fourth filter of `integration`; RampackMatcher.cpp:205-212. -/
def bulkNeedsPattern (d : ClassData ℝ (Value X)) : Except String Bool := do
  let bulkObservables ← get d "bulk_observables" >>= asObjects
  let pattern ← get d "bulk_observables_out_pattern" >>= asOptText
  if bulkObservables.isEmpty then return true else return pattern.isSome

/-- The conversion of `integration`; RampackMatcher.cpp:214-243. -/
def makeIntegration (d : ClassData ℝ (Value X)) : Except String (Value X) := do
  let runName ← get d "run_name" >>= asText
  let environment ← createEnvironment d
  let thermalizationCycles ← get d "thermalization_cycles" >>= asOptSize
  let averagingCycles ← get d "averaging_cycles" >>= asOptSize
  let snapshotEvery ← get d "snapshot_every" >>= asSize
  let averagingEvery ← get d "averaging_every" >>= asSize
  let inlineInfoEvery ← get d "inline_info_every" >>= asSize
  let orientationFixEvery ← get d "orientation_fix_every" >>= asSize
  let lastSnapshotWriters ← get d "output_last_snapshot" >>= asWriters
  let simulationRecorders ← get d "record_trajectory" >>= asRecorders
  let observables ← get d "observables" >>= asObjects
  let bulkObservables ← get d "bulk_observables" >>= asObjects
  let averagesOut ← get d "averages_out" >>= asOptText
  let observablesOut ← get d "observables_out" >>= asOptText
  let bulkObservablesOutPattern ← get d "bulk_observables_out_pattern" >>= asOptText
  return .run (.integration {
    runName, environment, thermalizationCycles, averagingCycles, snapshotEvery, averagingEvery, inlineInfoEvery, orientationFixEvery,
    lastSnapshotWriters, ramsnapOut := fetchRamsnap lastSnapshotWriters, simulationRecorders, ramtrjOut := fetchRamtrj simulationRecorders,
    observables, bulkObservables, averagesOut, observablesOut, bulkObservablesOutPattern })

/-- `create_integration`; RampackMatcher.cpp:159-244. -/
noncomputable def createIntegration (conv : ℚ → Option ℝ) (P : Parts X) : Outcome (ClassMatcher ℝ (Value X)) := do
  let environment ← environmentArguments conv
  let lastSnapshot ← createLastSnapshot conv
  let recordTrajectory ← createRecordTrajectory
  let averagingEvery ← optional conv "averaging_every" nullableEvery "0"
  let inlineInfoEvery ← optional conv "inline_info_every" notNullEvery "100"
  let orientationFixEvery ← optional conv "orientation_fix_every" notNullEvery "10000"
  let lastSnapshot ← optional conv "output_last_snapshot" lastSnapshot "[]"
  let recordTrajectory ← optional conv "record_trajectory" recordTrajectory "[]"
  let averagesOut ← optional conv "averages_out" out.toMatcher "None"
  let observablesArg ← optional conv "observables" (observables P.observable) "[]"
  let observablesOut ← optional conv "observables_out" out.toMatcher "None"
  let bulk ← optional conv "bulk_observables" (observables P.bulkObservable) "[]"
  let pattern ← optional conv "bulk_observables_out_pattern" out.toMatcher "None"
  let c ← createClass "integration".toList
    ([required "run_name" runName, required "thermalization_cycles" cycles.toMatcher, required "averaging_cycles" cycles.toMatcher,
      required "snapshot_every" notNullEvery] ++ environment ++
      [averagingEvery, inlineInfoEvery, orientationFixEvery, lastSnapshot, recordTrajectory, averagesOut, observablesArg, observablesOut, bulk, pattern])
  return ClassMatcher.mapTo { c with filters := [hasPhase, hasAveragingEvery, averagesNeedAveraging, bulkNeedsPattern] } makeIntegration

/-- The conversion of `overlap_relaxation`; RampackMatcher.cpp:268-289. -/
def makeRelaxation (d : ClassData ℝ (Value X)) : Except String (Value X) := do
  let runName ← get d "run_name" >>= asText
  let environment ← createEnvironment d
  let snapshotEvery ← get d "snapshot_every" >>= asSize
  let inlineInfoEvery ← get d "inline_info_every" >>= asSize
  let orientationFixEvery ← get d "orientation_fix_every" >>= asSize
  let helperShape ← get d "helper_shape" >>= asShape
  let lastSnapshotWriters ← get d "output_last_snapshot" >>= asWriters
  let simulationRecorders ← get d "record_trajectory" >>= asRecorders
  let observables ← get d "observables" >>= asObjects
  let observablesOut ← get d "observables_out" >>= asOptText
  return .run (.relaxation {
    runName, environment, snapshotEvery, inlineInfoEvery, orientationFixEvery, helperShape, lastSnapshotWriters,
    ramsnapOut := fetchRamsnap lastSnapshotWriters, simulationRecorders, ramtrjOut := fetchRamtrj simulationRecorders, observables, observablesOut })

/-- `create_overlap_relaxation`; RampackMatcher.cpp:246-290. -/
noncomputable def createRelaxation (conv : ℚ → Option ℝ) (P : Parts X) : Outcome (ClassMatcher ℝ (Value X)) := do
  let environment ← environmentArguments conv
  let lastSnapshot ← createLastSnapshot conv
  let recordTrajectory ← createRecordTrajectory
  let inlineInfoEvery ← optional conv "inline_info_every" notNullEvery "100"
  let orientationFixEvery ← optional conv "orientation_fix_every" notNullEvery "10000"
  let helperShape ← optional conv "helper_shape" (Choice.join P.shape (.other (matcherNone (.ok (.value (.shape none)))))).toMatcher "None"
  let lastSnapshot ← optional conv "output_last_snapshot" lastSnapshot "[]"
  let recordTrajectory ← optional conv "record_trajectory" recordTrajectory "[]"
  let observablesArg ← optional conv "observables" (observables P.observable) "[]"
  let observablesOut ← optional conv "observables_out" out.toMatcher "None"
  let c ← createClass "overlap_relaxation".toList
    ([required "run_name" runName, required "snapshot_every" notNullEvery] ++ environment ++
      [inlineInfoEvery, orientationFixEvery, helperShape, lastSnapshot, recordTrajectory, observablesArg, observablesOut])
  return ClassMatcher.mapTo c makeRelaxation

/-- `create_run` and `create_runs`; RampackMatcher.cpp:285-294. -/
noncomputable def createRuns (conv : ℚ → Option ℝ) (P : Parts X) : Outcome (Matcher ℝ (Value X)) := do
  let integration ← createIntegration conv P
  let relaxation ← createRelaxation conv P
  return vector (Choice.join (.dataclass integration) (.dataclass relaxation)).toMatcher [arrayNonEmpty] asRun .runs

/-- `OMP_MAXTHREADS`, the value of `"max"`; src/utils/OMPMacros.h. -/
def boxMoveThreads (maxThreads : Nat) : Choice ℝ (Value X) :=
  .join (.other (matcherString [fun s => .ok (decide (s = "max".toList))] (fun _ => .ok (.value (.size maxThreads))))) (.other (size [intPositive]))

/-- `create_domain_divisions`; RampackMatcher.cpp:330-333. -/
def domainDivisions : Matcher ℝ (Value X) := vector (size [intPositive]) [arraySize 3] asSize .sizes

/-- `walls`; RampackMatcher.cpp:379. -/
def walls : Matcher ℝ (Value X) := vector boolean [arraySize 3] asFlag .flags

/-- `std::sort` and `std::unique`: no two names are equal; RampackMatcher.cpp:395-406. -/
def uniqueNames (d : ClassData ℝ (Value X)) : Except String Bool := do
  let runs ← get d "runs" >>= asRuns
  return decide ((runs.map Run.name).Nodup)

/-- The second filter of `rampack`; RampackMatcher.cpp:408-415. `front()` of an empty vector is undefined behaviour. -/
def firstComplete (d : ClassData ℝ (Value X)) : Except String Bool := do
  let env ← createEnvironment d
  let runs ← get d "runs" >>= asRuns
  match runs with
  | [] => .error "undefined behaviour"
  | first :: _ => return (env.combine first.environment).isComplete

/-- `shapeTraits` and `packingFactory` are never null. -/
def notNull {α : Type} : Option α → Except String α
  | some a => .ok a
  | none => .error "null pointer"

/-- The conversion of `rampack` with `create_base_parameters`; RampackMatcher.cpp:361-375, 417-422. -/
def makeParameters (d : ClassData ℝ (Value X)) : Except String (Value X) := do
  let version ← get d "version" >>= asVersion
  let arrangement ← get d "arrangement" >>= asObject
  let shape ← get d "shape" >>= asShape >>= notNull
  let seed ← get d "seed" >>= asSize
  let environment ← createEnvironment d
  let walls ← get d "walls" >>= asFlags
  let scalingThreads ← get d "box_move_threads" >>= asSize
  let domainDivisions ← get d "domain_divisions" >>= asSizes
  let saveOnSignal ← get d "handle_signals" >>= asFlag
  let runs ← get d "runs" >>= asRuns
  return .parameters { version, arrangement, environment, seed, shape, walls, scalingThreads, domainDivisions, saveOnSignal, runs }

/-- `RampackMatcher::create`; RampackMatcher.cpp:377-423. -/
noncomputable def createRampack (conv : ℚ → Option ℝ) (maxThreads : Nat) (P : Parts X) : Outcome (ClassMatcher ℝ (Value X)) := do
  let runs ← createRuns conv P
  let environment ← environmentArguments conv
  let walls ← optional conv "walls" walls "[False, False, False]"
  let threads ← optional conv "box_move_threads" (boxMoveThreads maxThreads).toMatcher "1"
  let divisions ← optional conv "domain_divisions" domainDivisions "[1, 1, 1]"
  let signals ← optional conv "handle_signals" boolean "True"
  let c ← createClass "rampack".toList
    ([required "version" version, required "arrangement" P.arrangement, required "shape" P.shape.toMatcher, required "seed" (size []),
      required "runs" runs] ++ environment ++ [walls, threads, divisions, signals])
  return ClassMatcher.mapTo { c with filters := [uniqueNames, firstComplete] } makeParameters

/-- `as<RampackParameters>()`. -/
def asParameters : Any ℝ (Value X) → Outcome (Parameters X)
  | .value (.parameters p) => .ok p
  | _ => .throw "pyon::Any::as"

/-- `RampackMatcher::match`; RampackMatcher.cpp:425-434. -/
noncomputable def matchInput (conv : ℚ → Option ℝ) (maxThreads : Nat) (P : Parts X) (expression : Text) : Outcome (Parameters X) := do
  let c ← createRampack conv maxThreads P
  let n ← parse conv expression
  match c.run n with
  | .matched a => asParameters a
  | .unmatched _ => .throw "ValidationException"
  | .thrown m => .throw m

end Rampack.Input
