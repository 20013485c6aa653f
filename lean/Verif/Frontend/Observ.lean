import Verif.Frontend.Input
/-
Model of the matchers of observables and bulk observables: /repo/src/frontend/matchers/ObservablesMatcher.cpp, with the constructors of
observables in /repo/src/core/observables.

Simplifications: as in Verif.Frontend.Input; an observable is what it was made from; numbers of threads, which are given to constructors of bulk
observables, are left out, and so is the memory which histograms need.
-/
namespace Rampack.Observ

open Pyon Rampack.Input

/-! ### What is made -/

/-- `ShapeGeometry::Axis`; src/core/shapes/ShapeGeometry.h. -/
inductive ShapeAxis where
  | primary
  | secondary
  | auxiliary

/-- `ShapeFunction` and its subclasses: `ConstantShapeFunction`, `ShapeAxisCoordinate`, `ShapeAxis`, `ShapeQTensor`; src/core/observables/shape_functions. -/
inductive ShapeFn where
  | const (value : ℝ)
  | coordinate (axis : ShapeAxis) (coord : Nat)
  | axis (axis : ShapeAxis)
  | qTensor (axis : ShapeAxis)

/-- The size of `getNames`; ConstantShapeFunction.h:24, ShapeAxisCoordinate.h:35, ShapeAxis.h:35, ShapeQTensor.h:42. -/
def ShapeFn.values : ShapeFn → Nat
  | .const _ => 1
  | .coordinate _ _ => 1
  | .axis _ => 3
  | .qTensor _ => 6

/-- `CorrelationFunction` and its subclasses; src/core/observables/correlation_functions. -/
inductive PairFn where
  | s110 (axis : ShapeAxis)
  | s220 (axis : ShapeAxis)
  | s221 (axis : ShapeAxis)
  | axesAngle (axis : ShapeAxis)

/-- `GoldstoneTracker` and its subclasses; src/core/observables/trackers. -/
inductive Tracker where
  | dummy
  | fourier (wavenumbers : List Nat) (function : ShapeFn)

/-- `PairEnumerator` and its subclasses; src/core/observables/correlation. -/
inductive Binning where
  | radial (focalPoint : Text)
  | layerwise (hkl : List Int) (focalPoint : Text)
  | linear (axis : Nat) (focalPoint : Text)

/-- `Normalization` of `DensityHistogram` and `ProbabilityEvolution`. -/
inductive Norm where
  | avgCount
  | pdf
  | unit

/-- `Observable` and its subclasses; src/core/observables. -/
inductive Observable where
  | numberDensity
  | boxDimensions
  | packingFraction
  | compressibilityFactor
  | energyPerParticle
  | energyFluctuationsPerParticle
  | nematicOrder (dumpQTensor : Bool)
  | smecticOrder (hklRange : List Int) (dumpTauVector : Bool) (focalPoint : Text) (function : ShapeFn)
  | bondOrder (ranks : List Nat) (hkl : List Int) (layeringPoint focalPoint : Text) (isLocal : Bool)
  | rotationMatrixDrift
  | temperature
  | pressure
  | fourier (wavenumbers : List Nat) (function : ShapeFn)

/-- `BulkObservable` and its subclasses; src/core/observables. -/
inductive Bulk where
  | pairDensity (binning : Binning) (maxR : ℝ) (bins : Nat) (printCount : Bool)
  | pairAveraged (binning : Binning) (function : PairFn) (maxR : ℝ) (bins : Nat) (printCount : Bool)
  | density (bins : List Nat) (tracker : Tracker) (norm : Norm) (printCount : Bool)
  | evolution (maxR : ℝ) (binsR : Nat) (binning : Binning) (low high : ℝ) (binsFun : Nat) (function : PairFn) (norm : Norm) (printCount : Bool)
  | binAveraged (bins : List Nat) (function : ShapeFn) (tracker : Tracker) (printCount : Bool)

/-- `ObservableData`; ObservablesMatcher.h. -/
structure Scoped where
  scope : Nat
  observable : Observable

/-- What the conversions of these matchers make, besides values of common types. -/
inductive Object where
  | axis (a : ShapeAxis)
  | function (f : ShapeFn)
  | pairFn (f : PairFn)
  | tracker (t : Tracker)
  | binning (b : Binning)
  | norm (n : Norm)
  | wavenumbers (l : List Nat)
  | ranks (l : List Nat)
  | int (i : Int)
  | hkl (l : List Int)
  | direction (k : Nat)
  | range (low high : ℝ)
  | observable (o : Scoped)
  | bulk (b : Bulk)

/-- What matchers make. -/
abbrev V := Value Object

/-! ### Reading values: `as<T>`; Any.h:48-55 -/

/-- `as<ShapeGeometry::Axis>()`. -/
def asAxis : Any ℝ V → Except String ShapeAxis
  | .value (.object (.axis a)) => .ok a
  | _ => badCast

/-- `as<std::shared_ptr<ShapeFunction>>()`. -/
def asFunction : Any ℝ V → Except String ShapeFn
  | .value (.object (.function a)) => .ok a
  | _ => badCast

/-- `as<std::shared_ptr<CorrelationFunction>>()`. -/
def asPairFn : Any ℝ V → Except String PairFn
  | .value (.object (.pairFn a)) => .ok a
  | _ => badCast

/-- `as<std::shared_ptr<GoldstoneTracker>>()`. -/
def asTracker : Any ℝ V → Except String Tracker
  | .value (.object (.tracker a)) => .ok a
  | _ => badCast

/-- `as<std::shared_ptr<PairEnumerator>>()`. -/
def asBinning : Any ℝ V → Except String Binning
  | .value (.object (.binning a)) => .ok a
  | _ => badCast

/-- `as<Normalization>()`. -/
def asNorm : Any ℝ V → Except String Norm
  | .value (.object (.norm a)) => .ok a
  | _ => badCast

/-- `as<std::array<std::size_t, 3>>()`. -/
def asWavenumbers : Any ℝ V → Except String (List Nat)
  | .value (.object (.wavenumbers l)) => .ok l
  | _ => badCast

/-- `as<std::vector<std::size_t>>()`. -/
def asRanks : Any ℝ V → Except String (List Nat)
  | .value (.object (.ranks l)) => .ok l
  | _ => badCast

/-- `as<int>()`. -/
def asInt : Any ℝ V → Except String Int
  | .value (.object (.int i)) => .ok i
  | _ => badCast

/-- `as<std::array<int, 3>>()`. -/
def asHkl : Any ℝ V → Except String (List Int)
  | .value (.object (.hkl l)) => .ok l
  | _ => badCast

/-- `as<LinearEnumerator::Axis>()`. -/
def asAxisIndex : Any ℝ V → Except String Nat
  | .value (.object (.direction k)) => .ok k
  | _ => badCast

/-- `as<std::pair<double, double>>()`. -/
def asRange : Any ℝ V → Except String (ℝ × ℝ)
  | .value (.object (.range a b)) => .ok (a, b)
  | _ => badCast

/-- `as<ObservableData>()`. -/
def asScoped : Any ℝ V → Except String Scoped
  | .value (.object (.observable o)) => .ok o
  | _ => badCast

/-! ### Constructors -/

/-- The conversion of an integer to `int`, which is of 32 bits. -/
def toInt (i : Int) : Int := Int.bmod i (2 ^ 32)

/-- `SmecticOrder::SmecticOrder`; SmecticOrder.cpp:72-82. The elements are converted to `int` by the lambdas and by the copying. -/
def mkSmectic (hklRange : List Nat) (dump : Bool) (focalPoint : Text) (function : ShapeFn) : Outcome Observable := do
  Outcome.require (hklRange.any fun i => toInt i != 0) "Precondition"
  Outcome.require (hklRange.all fun i => decide (toInt i ≥ 0)) "Precondition"
  Outcome.require (function.values == 1) "Precondition"
  return .smecticOrder (hklRange.map fun i : Nat => toInt i) dump focalPoint function

/-- `BondOrder::BondOrder`; BondOrder.cpp:13-28. -/
def mkBond (ranks : List Nat) (hkl : List Int) (layeringPoint focalPoint : Text) (isLocal : Bool) : Outcome Observable := do
  Outcome.require (!ranks.isEmpty) "Precondition"
  Outcome.require (ranks.all fun r => decide (r ≥ 2)) "Precondition"
  Outcome.require (hkl.any fun i => i != 0) "Precondition"
  return .bondOrder (ranks.mergeSort (fun a b => decide (a ≤ b))) hkl layeringPoint focalPoint isLocal

/-- `FourierTracker::FourierTracker`; FourierTracker.cpp:143-156. -/
def checkFourier (wavenumbers : List Nat) (function : ShapeFn) : Outcome Unit := do
  Outcome.require (wavenumbers.any fun w => decide (w > 0)) "Precondition"
  Outcome.require (function.values == 1) "Precondition"

/-- `LayerwiseRadialEnumerator::LayerwiseRadialEnumerator`; LayerwiseRadialEnumerator.cpp:62-68. -/
def mkLayerwise (hkl : List Int) (focalPoint : Text) : Outcome Binning := do
  Outcome.require (hkl.any fun i => i != 0) "Precondition"
  return .layerwise hkl focalPoint

open Classical in
/-- The checks of a histogram on an interval; HistogramBuilder.tpp:77-95. -/
noncomputable def checkHistogram (low high : ℝ) (bins : Nat) : Outcome Unit := do
  Outcome.require (decide (high > low)) "Precondition"
  Outcome.require (decide (bins ≥ 1)) "Precondition"

/-- `ShapeAxisCoordinate::ShapeAxisCoordinate`; ShapeAxisCoordinate.cpp:9-12. -/
def mkCoordinate (axis : ShapeAxis) (coord : Nat) : Outcome ShapeFn := do
  Outcome.require (decide (coord ≤ 2)) "Precondition"
  return .coordinate axis coord

/-- `DensityHistogram::DensityHistogram`; DensityHistogram.cpp:64-74. -/
def mkDensity (bins : List Nat) (tracker : Tracker) (norm : Norm) (printCount : Bool) : Outcome Bulk := do
  Outcome.require (bins.any fun n => decide (n > 1)) "Precondition"
  return .density bins tracker norm printCount

/-- `BinAveragedFunction::BinAveragedFunction`; BinAveragedFunction.cpp:57-70. -/
def mkBinAveraged (bins : List Nat) (function : ShapeFn) (tracker : Tracker) (printCount : Bool) : Outcome Bulk := do
  Outcome.require (bins.any fun n => decide (n > 1)) "Precondition"
  return .binAveraged bins function tracker printCount

/-- `PairDensityCorrelation::PairDensityCorrelation`; PairDensityCorrelation.h:37-41. -/
noncomputable def mkPairDensity (binning : Binning) (maxR : ℝ) (bins : Nat) (printCount : Bool) : Outcome Bulk := do
  checkHistogram 0 maxR bins
  return .pairDensity binning maxR bins printCount

/-- `PairAveragedCorrelation::PairAveragedCorrelation`; PairAveragedCorrelation.h:43-49. -/
noncomputable def mkPairAveraged (binning : Binning) (function : PairFn) (maxR : ℝ) (bins : Nat) (printCount : Bool) : Outcome Bulk := do
  checkHistogram 0 maxR bins
  return .pairAveraged binning function maxR bins printCount

open Classical in
/-- `ProbabilityEvolution::ProbabilityEvolution`; ProbabilityEvolution.cpp:8-20. -/
noncomputable def mkEvolution (maxR : ℝ) (binsR : Nat) (binning : Binning) (low high : ℝ) (binsFun : Nat) (function : PairFn) (norm : Norm)
    (printCount : Bool) : Outcome Bulk := do
  checkHistogram 0 maxR binsR
  checkHistogram low high binsFun
  Outcome.require (decide (maxR > 0)) "Precondition"
  return .evolution maxR binsR binning low high binsFun function norm printCount

/-! ### Common matchers -/

/-- The filter of `positiveWavenumbers`; ObservablesMatcher.cpp:98-102. -/
def anyPositive (l : List (Any ℝ V)) : Except String Bool := (l.mapM asSize).map fun r => r.any fun k => decide (k > 0)

/-- `positiveWavenumbers`; ObservablesMatcher.cpp:95-104. -/
def positiveWavenumbers : Matcher ℝ V := vector (size [intNonNegative]) [arraySize 3, anyPositive] asSize (fun l => .object (.wavenumbers l))

/-- The filter of `nonzeroWavenumbers`; ObservablesMatcher.cpp:109-113. -/
def anyNonzero (l : List (Any ℝ V)) : Except String Bool := (l.mapM asInt).map fun r => r.any fun k => k != 0

/-- `nonzeroWavenumbers`; ObservablesMatcher.cpp:106-115. -/
def nonzeroWavenumbers : Matcher ℝ V :=
  vector (matcherInt [] (fun i => .ok (.value (.object (.int (toInt i)))))) [arraySize 3, anyNonzero] asInt (fun l => .object (.hkl l))

/-- `MatcherString(name)` with a conversion to a constant; e.g. ObservablesMatcher.cpp:117-119. -/
def keyword (name : String) (x : Object) : Matcher ℝ V :=
  matcherString [fun s => .ok (decide (s = name.toList))] (fun _ => .ok (.value (.object x)))

/-- `shapeAxis`; ObservablesMatcher.cpp:117-126. -/
def shapeAxis : Choice ℝ V :=
  .join (.join (.other (keyword "primary" (.axis .primary))) (.other (keyword "secondary" (.axis .secondary))))
    (.other (keyword "auxiliary" (.axis .auxiliary)))

/-- `MatcherString{}.nonEmpty()`; ObservablesMatcher.cpp:244, 275, 507, 517, 536. -/
def namedPoint : Matcher ℝ V := matcherString [textNonEmpty] (fun s => .ok (.value (.text s)))

/-- `greaterEquals(k)` of integers; MatcherNumeral.h. -/
def intAtLeast (k : Int) (i : Int) : Except String Bool := .ok (decide (i ≥ k))

/-- `nBins`: at least two; ObservablesMatcher.cpp:356, 372, 429. -/
def bins : Matcher ℝ V := size [intAtLeast 2]

/-- `nBins`, which may be missing; ObservablesMatcher.cpp:390-392, 472-474. -/
def maybeBins : Choice ℝ V := .join (.other bins) (.other (matcherNone (.ok (.value (.size 1)))))

/-! ### Shape functions and correlation functions -/

/-- `constFunction`; ObservablesMatcher.cpp:554-559. -/
def createConst (conv : ℚ → Option ℝ) : Outcome (ClassMatcher ℝ V) := do
  let value ← optional conv "value" float "1"
  let c ← createClass "const".toList [value]
  return ClassMatcher.mapTo c fun d => do
    let value ← get d "value" >>= asReal
    return .object (.function (.const value))

/-- `axisComp`; ObservablesMatcher.cpp:561. -/
def axisComp : Matcher ℝ V :=
  matcherString [fun s => .ok (["x", "y", "z", "xyz"].any fun t => decide (s = t.toList))] (fun s => .ok (.value (.text s)))

/-- The choice by `axisComp`; ObservablesMatcher.cpp:568-577. -/
def makeAxis (a : ShapeAxis) (comp : Text) : Except String ShapeFn :=
  if comp = "x".toList then construct (mkCoordinate a 0)
  else if comp = "y".toList then construct (mkCoordinate a 1)
  else if comp = "z".toList then construct (mkCoordinate a 2)
  else if comp = "xyz".toList then .ok (.axis a)
  else .error "unreachable"

/-- `axisFunction`; ObservablesMatcher.cpp:562-578. -/
def createAxis (conv : ℚ → Option ℝ) : Outcome (ClassMatcher ℝ V) := do
  let comp ← optional conv "comp" axisComp "\"xyz\""
  let c ← createClass "axis".toList [required "which" shapeAxis.toMatcher, comp]
  return ClassMatcher.mapTo c fun d => do
    let which ← get d "which" >>= asAxis
    let comp ← get d "comp" >>= asText
    let f ← makeAxis which comp
    return .object (.function f)

/-- `qTensorFunction`; ObservablesMatcher.cpp:580-585. -/
def createQTensor : Outcome (ClassMatcher ℝ V) := do
  let c ← createClass "q_tensor".toList [required "axis" shapeAxis.toMatcher]
  return ClassMatcher.mapTo c fun d => do
    let axis ← get d "axis" >>= asAxis
    return .object (.function (.qTensor axis))

/-- `create_shape_function`; ObservablesMatcher.cpp:553-588. -/
def createShapeFunction (conv : ℚ → Option ℝ) : Outcome (Choice ℝ V) := do
  let const ← createConst conv
  let axis ← createAxis conv
  let qTensor ← createQTensor
  return .join (.join (.dataclass const) (.dataclass axis)) (.dataclass qTensor)

/-- A correlation function of an axis; e.g. ObservablesMatcher.cpp:591-596. -/
def createPairFn (name : String) (make : ShapeAxis → PairFn) : Outcome (ClassMatcher ℝ V) := do
  let c ← createClass name.toList [required "axis" shapeAxis.toMatcher]
  return ClassMatcher.mapTo c fun d => do
    let axis ← get d "axis" >>= asAxis
    return .object (.pairFn (make axis))

/-- `create_correlation_function`; ObservablesMatcher.cpp:590-620. -/
def createCorrelationFunction : Outcome (Choice ℝ V) := do
  let s110 ← createPairFn "s110" .s110
  let s220 ← createPairFn "s220" .s220
  let s221 ← createPairFn "s221" .s221
  let axesAngle ← createPairFn "axes_angle" .axesAngle
  return .join (.join (.join (.dataclass s110) (.dataclass s220)) (.dataclass s221)) (.dataclass axesAngle)

/-! ### Binning -/

/-- `create_radial`; ObservablesMatcher.cpp:505-512. -/
def createRadial (conv : ℚ → Option ℝ) : Outcome (ClassMatcher ℝ V) := do
  let focalPoint ← optional conv "focal_point" namedPoint "\"o\""
  let c ← createClass "radial".toList [focalPoint]
  return ClassMatcher.mapTo c fun d => do
    let focalPoint ← get d "focal_point" >>= asText
    return .object (.binning (.radial focalPoint))

/-- `create_layerwise_radial`; ObservablesMatcher.cpp:514-523. -/
def createLayerwise (conv : ℚ → Option ℝ) : Outcome (ClassMatcher ℝ V) := do
  let focalPoint ← optional conv "focal_point" namedPoint "\"o\""
  let c ← createClass "layerwise_radial".toList [required "hkl" nonzeroWavenumbers, focalPoint]
  return ClassMatcher.mapTo c fun d => do
    let hkl ← get d "hkl" >>= asHkl
    let focalPoint ← get d "focal_point" >>= asText
    let b ← construct (mkLayerwise hkl focalPoint)
    return .object (.binning b)

/-- The conversion of `axis`: the place of the letter after `x`; ObservablesMatcher.cpp:528-531. -/
def letterIndex (s : Text) : Except String (Any ℝ V) :=
  match s with
  | [c] => if 'x' ≤ c ∧ c ≤ 'z' then .ok (.value (.object (.direction (c.toNat - 'x'.toNat)))) else .error "Assert"
  | _ => .error "Assert"

/-- `axis` of `linear`; ObservablesMatcher.cpp:526-531. -/
def linearAxis : Matcher ℝ V := matcherString [fun s => .ok (["x", "y", "z"].any fun t => decide (s = t.toList))] letterIndex

/-- `create_linear`; ObservablesMatcher.cpp:525-543. -/
def createLinear (conv : ℚ → Option ℝ) : Outcome (ClassMatcher ℝ V) := do
  let focalPoint ← optional conv "focal_point" namedPoint "\"o\""
  let c ← createClass "linear".toList [required "axis" linearAxis, focalPoint]
  return ClassMatcher.mapTo c fun d => do
    let axis ← get d "axis" >>= asAxisIndex
    let focalPoint ← get d "focal_point" >>= asText
    return .object (.binning (.linear axis focalPoint))

/-- `binning`; ObservablesMatcher.cpp:128. -/
def createBinning (conv : ℚ → Option ℝ) : Outcome (Choice ℝ V) := do
  let radial ← createRadial conv
  let layerwise ← createLayerwise conv
  let linear ← createLinear conv
  return .join (.join (.dataclass radial) (.dataclass layerwise)) (.dataclass linear)

/-! ### Trackers -/

/-- The filter for functions of one value; ObservablesMatcher.cpp:246-249, 318-321. -/
def singleValue (d : ClassData ℝ V) : Except String Bool := do
  let f ← get d "function" >>= asFunction
  return f.values == 1

/-- `create_raw_fourier_tracker`; ObservablesMatcher.cpp:313-323. -/
def createRawFourier (conv : ℚ → Option ℝ) : Outcome (ClassMatcher ℝ V) := do
  let function ← createShapeFunction conv
  let c ← createClass "fourier_tracker".toList [required "wavenumbers" positiveWavenumbers, required "function" function.toMatcher]
  return { c with filters := [singleValue] }

/-- `do_create_fourier_tracker`; ObservablesMatcher.cpp:325-329. -/
def makeFourier (d : ClassData ℝ V) : Except String (List Nat × ShapeFn) := do
  let wavenumbers ← get d "wavenumbers" >>= asWavenumbers
  let function ← get d "function" >>= asFunction
  construct (checkFourier wavenumbers function)
  return (wavenumbers, function)

/-- `create_fourier_tracker`; ObservablesMatcher.cpp:331-336. -/
def createFourierTracker (conv : ℚ → Option ℝ) : Outcome (ClassMatcher ℝ V) := do
  let c ← createRawFourier conv
  return ClassMatcher.mapTo c fun d => do
    let p ← makeFourier d
    return .object (.tracker (.fourier p.1 p.2))

/-- `FULL_SCOPE`: all of the three bits; ObservablesMatcher.cpp:54, ObservablesCollector.h:75-83. -/
def fullScope : Nat := 7

/-- `create_fourier_tracker_observable`; ObservablesMatcher.cpp:338-343. -/
def createFourierObservable (conv : ℚ → Option ℝ) : Outcome (ClassMatcher ℝ V) := do
  let c ← createRawFourier conv
  return ClassMatcher.mapTo c fun d => do
    let p ← makeFourier d
    return .object (.observable ⟨fullScope, .fourier p.1 p.2⟩)

/-- `create_tracker`; ObservablesMatcher.cpp:545-551. -/
def createTracker (conv : ℚ → Option ℝ) : Outcome (Choice ℝ V) := do
  let fourier ← createFourierTracker conv
  return .join (.other (matcherNone (.ok (.value (.object (.tracker .dummy)))))) (.dataclass fourier)

/-! ### Observables -/

/-- An observable without arguments; e.g. ObservablesMatcher.cpp:185-189. -/
def createPlain (name : String) (o : Observable) : Outcome (ClassMatcher ℝ V) := do
  let c ← createClass name.toList []
  return ClassMatcher.mapTo c fun _ => .ok (.object (.observable ⟨fullScope, o⟩))

/-- `create_nematic_order`; ObservablesMatcher.cpp:221-228. -/
def createNematic (conv : ℚ → Option ℝ) : Outcome (ClassMatcher ℝ V) := do
  let dump ← optional conv "dump_qtensor" boolean "False"
  let c ← createClass "nematic_order".toList [dump]
  return ClassMatcher.mapTo c fun d => do
    let dump ← get d "dump_qtensor" >>= asFlag
    return .object (.observable ⟨fullScope, .nematicOrder dump⟩)

/-- `maxHkl`; ObservablesMatcher.cpp:232-239. -/
def maxHkl : Choice ℝ V :=
  .join (.other (matcherInt [intPositive] (fun i => .ok (.value (.object (.wavenumbers [toSize i, toSize i, toSize i]))))))
    (.other positiveWavenumbers)

/-- `create_smectic_order`; ObservablesMatcher.cpp:231-259. -/
def createSmectic (conv : ℚ → Option ℝ) : Outcome (ClassMatcher ℝ V) := do
  let shapeFunction ← createShapeFunction conv
  let dump ← optional conv "dump_tau_vector" boolean "False"
  let focalPoint ← optional conv "focal_point" namedPoint "\"o\""
  let function ← optional conv "function" shapeFunction.toMatcher "const"
  let c ← createClass "smectic_order".toList [required "max_hkl" maxHkl.toMatcher, dump, focalPoint, function]
  return ClassMatcher.mapTo { c with filters := [singleValue] } fun d => do
    let maxHkl ← get d "max_hkl" >>= asWavenumbers
    let dump ← get d "dump_tau_vector" >>= asFlag
    let focalPoint ← get d "focal_point" >>= asText
    let function ← get d "function" >>= asFunction
    let o ← construct (mkSmectic maxHkl dump focalPoint function)
    return .object (.observable ⟨fullScope, o⟩)

/-- `ranks`; ObservablesMatcher.cpp:264-273. -/
def ranks : Choice ℝ V :=
  .join (.other (matcherInt [intAtLeast 3] (fun i => .ok (.value (.object (.ranks [toSize i]))))))
    (.other (vector (size [intAtLeast 3]) [arrayNonEmpty] asSize (fun l => .object (.ranks l))))

/-- `create_bond_order`; ObservablesMatcher.cpp:261-292. -/
def createBond (conv : ℚ → Option ℝ) : Outcome (ClassMatcher ℝ V) := do
  let layeringPoint ← optional conv "layering_point" namedPoint "\"o\""
  let focalPoint ← optional conv "focal_point" namedPoint "\"o\""
  let isLocal ← optional conv "local" boolean "True"
  let c ← createClass "bond_order".toList [required "hkl" nonzeroWavenumbers, required "ranks" ranks.toMatcher, layeringPoint, focalPoint, isLocal]
  return ClassMatcher.mapTo c fun d => do
    let hkl ← get d "hkl" >>= asHkl
    let ranks ← get d "ranks" >>= asRanks
    let layeringPoint ← get d "layering_point" >>= asText
    let focalPoint ← get d "focal_point" >>= asText
    let isLocal ← get d "local" >>= asFlag
    let o ← construct (mkBond ranks hkl layeringPoint focalPoint isLocal)
    return .object (.observable ⟨fullScope, o⟩)

/-- `create_observable_matcher`; ObservablesMatcher.cpp:135-149. -/
def createObservable (conv : ℚ → Option ℝ) : Outcome (Choice ℝ V) := do
  let c1 ← createPlain "number_density" .numberDensity
  let c2 ← createPlain "box_dimensions" .boxDimensions
  let c3 ← createPlain "packing_fraction" .packingFraction
  let c4 ← createPlain "compressibility_factor" .compressibilityFactor
  let c5 ← createPlain "energy_per_particle" .energyPerParticle
  let c6 ← createPlain "energy_fluctuations_per_particle" .energyFluctuationsPerParticle
  let c7 ← createNematic conv
  let c8 ← createSmectic conv
  let c9 ← createBond conv
  let c10 ← createPlain "rotation_matrix_drift" .rotationMatrixDrift
  let c11 ← createPlain "temperature" .temperature
  let c12 ← createPlain "pressure" .pressure
  let c13 ← createFourierObservable conv
  return .join (.join (.join (.join (.join (.join (.join (.join (.join (.join (.join (.join (.dataclass c1) (.dataclass c2)) (.dataclass c3)) (.dataclass c4))
    (.dataclass c5)) (.dataclass c6)) (.dataclass c7)) (.dataclass c8)) (.dataclass c9)) (.dataclass c10)) (.dataclass c11)) (.dataclass c12)) (.dataclass c13)

/-- A boolean which stands for a bit of the scope; ObservablesMatcher.cpp:153-161. -/
def scopeBit (bit : Nat) : Matcher ℝ V := matcherBoolean none (fun b => .ok (.value (.size (if b then bit else 0))))

/-- The filter of `scoped`; ObservablesMatcher.cpp:168-172. -/
def someScope (d : ClassData ℝ V) : Except String Bool := do
  let s ← get d "snapshot" >>= asSize
  let a ← get d "averaging" >>= asSize
  let i ← get d "inline" >>= asSize
  return s != 0 || a != 0 || i != 0

/-- `scoped`; ObservablesMatcher.cpp:163-180. `SNAPSHOT`, `AVERAGING` and `INLINE` are 1, 2 and 4; ObservablesCollector.h:75-83. -/
def createScoped (conv : ℚ → Option ℝ) (observable : Choice ℝ V) : Outcome (ClassMatcher ℝ V) := do
  let snapshot ← optional conv "snapshot" (scopeBit 1) "False"
  let averaging ← optional conv "averaging" (scopeBit 2) "False"
  let inline ← optional conv "inline" (scopeBit 4) "False"
  let c ← createClass "scoped".toList [required "obs" observable.toMatcher, snapshot, averaging, inline]
  return ClassMatcher.mapTo { c with filters := [someScope] } fun d => do
    let s ← get d "snapshot" >>= asSize
    let a ← get d "averaging" >>= asSize
    let i ← get d "inline" >>= asSize
    let o ← get d "obs" >>= asScoped
    return .object (.observable ⟨s ||| a ||| i, o.observable⟩)

/-- `createObservablesMatcher`; ObservablesMatcher.cpp:151-183, 624-629. -/
def createObservables (conv : ℚ → Option ℝ) : Outcome (Choice ℝ V) := do
  let observable ← createObservable conv
  let withScope ← createScoped conv observable
  return .join observable (.dataclass withScope)

/-! ### Bulk observables -/

/-- `create_pair_density_correlation`; ObservablesMatcher.cpp:353-367. -/
noncomputable def createPairDensity (conv : ℚ → Option ℝ) : Outcome (ClassMatcher ℝ V) := do
  let binning ← createBinning conv
  let printCount ← optional conv "print_count" boolean "False"
  let c ← createClass "pair_density_correlation".toList
    [required "max_r" positiveFloat, required "n_bins" bins, required "binning" binning.toMatcher, printCount]
  return ClassMatcher.mapTo c fun d => do
    let maxR ← get d "max_r" >>= asReal
    let nBins ← get d "n_bins" >>= asSize
    let binning ← get d "binning" >>= asBinning
    let printCount ← get d "print_count" >>= asFlag
    let b ← construct (mkPairDensity binning maxR nBins printCount)
    return .object (.bulk b)

/-- `create_pair_averaged_correlation`; ObservablesMatcher.cpp:369-387. -/
noncomputable def createPairAveraged (conv : ℚ → Option ℝ) : Outcome (ClassMatcher ℝ V) := do
  let binning ← createBinning conv
  let function ← createCorrelationFunction
  let printCount ← optional conv "print_count" boolean "False"
  let c ← createClass "pair_averaged_correlation".toList
    [required "max_r" positiveFloat, required "n_bins" bins, required "binning" binning.toMatcher, required "function" function.toMatcher, printCount]
  return ClassMatcher.mapTo c fun d => do
    let maxR ← get d "max_r" >>= asReal
    let nBins ← get d "n_bins" >>= asSize
    let binning ← get d "binning" >>= asBinning
    let function ← get d "function" >>= asPairFn
    let printCount ← get d "print_count" >>= asFlag
    let b ← construct (mkPairAveraged binning function maxR nBins printCount)
    return .object (.bulk b)

/-- The filter for bins in some direction; ObservablesMatcher.cpp:408-412, 486-490. -/
def someBins (d : ClassData ℝ V) : Except String Bool := do
  let x ← get d "n_bins_x" >>= asSize
  let y ← get d "n_bins_y" >>= asSize
  let z ← get d "n_bins_z" >>= asSize
  return x != 1 || y != 1 || z != 1

/-- `normalization` of `density_histogram`; ObservablesMatcher.cpp:397-399. -/
def densityNorm : Choice ℝ V := .join (.other (keyword "avg_count" (.norm .avgCount))) (.other (keyword "unit" (.norm .unit)))

/-- `create_density_histogram`; ObservablesMatcher.cpp:389-426. -/
def createDensity (conv : ℚ → Option ℝ) : Outcome (ClassMatcher ℝ V) := do
  let trackers ← createTracker conv
  let x ← optional conv "n_bins_x" maybeBins.toMatcher "None"
  let y ← optional conv "n_bins_y" maybeBins.toMatcher "None"
  let z ← optional conv "n_bins_z" maybeBins.toMatcher "None"
  let tracker ← optional conv "tracker" trackers.toMatcher "None"
  let norm ← optional conv "normalization" densityNorm.toMatcher "\"unit\""
  let printCount ← optional conv "print_count" boolean "False"
  let c ← createClass "density_histogram".toList [x, y, z, tracker, norm, printCount]
  return ClassMatcher.mapTo { c with filters := [someBins] } fun d => do
    let x ← get d "n_bins_x" >>= asSize
    let y ← get d "n_bins_y" >>= asSize
    let z ← get d "n_bins_z" >>= asSize
    let tracker ← get d "tracker" >>= asTracker
    let norm ← get d "normalization" >>= asNorm
    let printCount ← get d "print_count" >>= asFlag
    let b ← construct (mkDensity [x, y, z] tracker norm printCount)
    return .object (.bulk b)

open Classical in
/-- The filter of `functionRange`; ObservablesMatcher.cpp:431-433. Arrays have two elements by then. -/
noncomputable def increasing (l : List (Any ℝ V)) : Except String Bool :=
  match l with
  | [a, b] => do
    let x ← asReal a
    let y ← asReal b
    return decide (x < y)
  | _ => badCast

/-- The conversion of `functionRange`; ObservablesMatcher.cpp:435-437. -/
def makeRange (l : List (Any ℝ V)) : Except String (Any ℝ V) :=
  match l with
  | [a, b] => do
    let x ← asReal a
    let y ← asReal b
    return .value (.object (.range x y))
  | _ => badCast

/-- `functionRange`; ObservablesMatcher.cpp:430-437. -/
noncomputable def functionRange : Matcher ℝ V := ArrayMatcher.toMatcher ⟨some float, [arraySize 2, increasing], makeRange⟩

/-- `normalization` of `probability_evolution`; ObservablesMatcher.cpp:440-444. -/
def evolutionNorm : Choice ℝ V :=
  .join (.join (.join (.other (matcherNone (.ok (.value (.object (.norm .avgCount)))))) (.other (keyword "avg_count" (.norm .avgCount))))
    (.other (keyword "pdf" (.norm .pdf)))) (.other (keyword "unit" (.norm .unit)))

/-- `create_probability_evolution`; ObservablesMatcher.cpp:428-469. -/
noncomputable def createEvolution (conv : ℚ → Option ℝ) : Outcome (ClassMatcher ℝ V) := do
  let binning ← createBinning conv
  let function ← createCorrelationFunction
  let norm ← optional conv "normalization" evolutionNorm.toMatcher "\"avg_count\""
  let printCount ← optional conv "print_count" boolean "False"
  let c ← createClass "probability_evolution".toList
    [required "max_r" positiveFloat, required "n_bins_r" bins, required "binning" binning.toMatcher, required "fun_range" functionRange,
      required "n_bins_fun" bins, required "function" function.toMatcher, norm, printCount]
  return ClassMatcher.mapTo c fun d => do
    let maxR ← get d "max_r" >>= asReal
    let binsR ← get d "n_bins_r" >>= asSize
    let binning ← get d "binning" >>= asBinning
    let range ← get d "fun_range" >>= asRange
    let binsFun ← get d "n_bins_fun" >>= asSize
    let function ← get d "function" >>= asPairFn
    let norm ← get d "normalization" >>= asNorm
    let printCount ← get d "print_count" >>= asFlag
    let b ← construct (mkEvolution maxR binsR binning range.1 range.2 binsFun function norm printCount)
    return .object (.bulk b)

/-- `create_bin_averaged_function`; ObservablesMatcher.cpp:471-503. -/
def createBinAveraged (conv : ℚ → Option ℝ) : Outcome (ClassMatcher ℝ V) := do
  let trackers ← createTracker conv
  let function ← createShapeFunction conv
  let x ← optional conv "n_bins_x" maybeBins.toMatcher "None"
  let y ← optional conv "n_bins_y" maybeBins.toMatcher "None"
  let z ← optional conv "n_bins_z" maybeBins.toMatcher "None"
  let tracker ← optional conv "tracker" trackers.toMatcher "None"
  let printCount ← optional conv "print_count" boolean "False"
  let c ← createClass "bin_averaged_function".toList [required "function" function.toMatcher, x, y, z, tracker, printCount]
  return ClassMatcher.mapTo { c with filters := [someBins] } fun d => do
    let x ← get d "n_bins_x" >>= asSize
    let y ← get d "n_bins_y" >>= asSize
    let z ← get d "n_bins_z" >>= asSize
    let tracker ← get d "tracker" >>= asTracker
    let function ← get d "function" >>= asFunction
    let printCount ← get d "print_count" >>= asFlag
    let b ← construct (mkBinAveraged [x, y, z] function tracker printCount)
    return .object (.bulk b)

/-- `createBulkObservablesMatcher`; ObservablesMatcher.cpp:345-351, 631-636. -/
noncomputable def createBulk (conv : ℚ → Option ℝ) : Outcome (Choice ℝ V) := do
  let c1 ← createPairDensity conv
  let c2 ← createPairAveraged conv
  let c3 ← createDensity conv
  let c4 ← createEvolution conv
  let c5 ← createBinAveraged conv
  return .join (.join (.join (.join (.dataclass c1) (.dataclass c2)) (.dataclass c3)) (.dataclass c4)) (.dataclass c5)

/-! ### Matching -/

/-- `matchObservable`; ObservablesMatcher.cpp:651-662. -/
def matchObservable (conv : ℚ → Option ℝ) (expression : Text) : Outcome Scoped := do
  let c ← createObservables conv
  let n ← parse conv expression
  match c.toMatcher.run n with
  | .matched (.value (.object (.observable o))) => .ok o
  | .matched _ => .throw "pyon::Any::as"
  | .unmatched _ => .throw "ValidationException"
  | .thrown m => .throw m

/-- `matchBulkObservable`; ObservablesMatcher.cpp:638-649. -/
noncomputable def matchBulkObservable (conv : ℚ → Option ℝ) (expression : Text) : Outcome Bulk := do
  let c ← createBulk conv
  let n ← parse conv expression
  match c.toMatcher.run n with
  | .matched (.value (.object (.bulk b))) => .ok b
  | .matched _ => .throw "pyon::Any::as"
  | .unmatched _ => .throw "ValidationException"
  | .thrown m => .throw m

end Rampack.Observ
