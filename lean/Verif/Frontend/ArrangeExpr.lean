import Verif.Frontend.Input
import Verif.Lattice.Arrange
import Verif.Lattice.Transform
/-
Model of the matchers of arrangements: /repo/src/frontend/matchers/{LatticeMatcher,ArrangementMatcher}.cpp.

What is made from an expression is the kind of the arrangement and its parameters; what packing is made of them is modelled in Verif/Lattice. The lattice which is
built by the conversion is built here as well, because it may fail. Transformations are classes with arguments of their constructors, where axes are numbers 0, 1, 2.

Simplifications: as in Input.lean. `fuel` is the number of iterations after which we give up, see Arrange.lean; then the conversion is taken to throw.
-/
namespace Rampack.ArrangeExpr

open Pyon Rampack.Input Rampack.Arrange

/-! ### What is made -/

/-- `LatticeTransformer`: the class and the arguments of its constructor; LatticeMatcher.cpp:404-497. -/
inductive Transformation where
  | optimizeCell (spacing : ℝ) (axes : List Char)
  | optimizeLayers (spacing : ℝ) (axis : Fin 3)
  | columnar (axis : Fin 3) (seed : Nat)
  | randomizeFlip (seed : Nat)
  | layerRotate (layerAxis rotAxis : Fin 3) (angle : ℝ) (alternating : Bool)
  | randomizeRotation (seed : Nat) (axis : Randomizing.Axis)

/-- `PopulatorData`; LatticeMatcher.cpp:51-54, 377-402, 506-511. -/
inductive Filling where
  | full
  | auto (n : Nat)
  | serial (n : Nat) (axes : List Char)
  | random (n seed : Nat)

/-- `PackingFactory`; LatticeMatcher.cpp:170-259, ArrangementMatcher.cpp:37-44. -/
inductive Arrangement where
  | presimulated (file : Text)
  | manual (cell : CellType) (cellDim : DimArg) (nCells : Vec3 Nat) (ts : List Transformation) (fill : Filling)
  | automatic (cell : CellType) (boxDim : DimArg) (nShapes : Nat) (ts : List Transformation)
  | inBox (cell : CellType) (boxDim : DimArg) (nCells : Vec3 Nat) (ts : List Transformation) (fill : Filling)

/-- What the matchers make besides values of the input file. -/
inductive Object where
  | axis (a : Fin 3)
  | cells (n : Vec3 Nat)
  | row (v : Vec3 ℝ)
  | rotation (m : Mat3)
  | shape (s : Shape)
  | shapes (l : List Shape)
  | cell (c : CellType)
  | dim (d : DimArg)
  | around (a : Randomizing.Axis)
  | transformation (t : Transformation)
  | transformations (l : List Transformation)
  | filling (f : Filling)
  | arrangement (a : Arrangement)

/-- Values made by the matchers. -/
abbrev V := Value Object

/-- `as<LatticeTraits::Axis>()`. -/
def asAxis : Any ℝ V → Except String (Fin 3)
  | .value (.object (.axis a)) => .ok a
  | _ => badCast

/-- `as<std::array<std::size_t, 3>>()`. -/
def asCells : Any ℝ V → Except String (Vec3 Nat)
  | .value (.object (.cells n)) => .ok n
  | _ => badCast

/-- `as<Vector<3>>()`, `as<std::array<double, 3>>()`. -/
def asRow : Any ℝ V → Except String (Vec3 ℝ)
  | .value (.object (.row v)) => .ok v
  | _ => badCast

/-- `as<Matrix<3, 3>>()`. -/
def asRotation : Any ℝ V → Except String Mat3
  | .value (.object (.rotation m)) => .ok m
  | _ => badCast

/-- `as<Shape>()`. -/
def asMolecule : Any ℝ V → Except String Shape
  | .value (.object (.shape s)) => .ok s
  | _ => badCast

/-- `as<std::vector<Shape>>()`. -/
def asMolecules : Any ℝ V → Except String (List Shape)
  | .value (.object (.shapes l)) => .ok l
  | _ => badCast

/-- `as<CellCreator>()`. -/
def asCell : Any ℝ V → Except String CellType
  | .value (.object (.cell c)) => .ok c
  | _ => badCast

/-- `as<CellDimensions>()`. -/
def asDim : Any ℝ V → Except String DimArg
  | .value (.object (.dim d)) => .ok d
  | _ => badCast

/-- `as<RotationRandomizingTransformer::Axis>()`. -/
def asAround : Any ℝ V → Except String Randomizing.Axis
  | .value (.object (.around a)) => .ok a
  | _ => badCast

/-- `as<std::shared_ptr<LatticeTransformer>>()`. -/
def asTransformation : Any ℝ V → Except String Transformation
  | .value (.object (.transformation t)) => .ok t
  | _ => badCast

/-- `as<std::vector<std::shared_ptr<LatticeTransformer>>>()`. -/
def asTransformations : Any ℝ V → Except String (List Transformation)
  | .value (.object (.transformations l)) => .ok l
  | _ => badCast

/-- `as<PopulatorData>()`. -/
def asFilling : Any ℝ V → Except String Filling
  | .value (.object (.filling f)) => .ok f
  | _ => badCast

/-- Three elements of an array: `asStdArray<..., 3>()`, `asVector<3>()`; MatcherArray.h:60-90. -/
def asThree {α : Type} (as : Any ℝ V → Except String α) (l : List (Any ℝ V)) : Except String (Vec3 α) :=
  match l with
  | [a, b, c] => do
    let x ← as a
    let y ← as b
    let z ← as c
    return ⟨x, y, z⟩
  | _ => badCast

/-! ### Numbers and letters -/

/-- `nCells`; LatticeMatcher.cpp:141-151. -/
def nCells : Choice ℝ V :=
  .join (.other (matcherInt [intPositive] (fun i => .ok (.value (.object (.cells ⟨Input.toSize i, Input.toSize i, Input.toSize i⟩))))))
    (.other (ArrayMatcher.toMatcher ⟨some (size [intPositive]), [arraySize 3], fun l => (asThree asSize l).map fun n => .value (.object (.cells n))⟩))

/-- `anyOf({...})`; MatcherString.cpp:78-92. -/
def anyOf (l : List String) (s : Text) : Except String Bool := .ok (l.any fun t => s = t.toList)

/-- `axis`; LatticeMatcher.cpp:153-162. `AssertThrow` throws. -/
def axis : Matcher ℝ V := matcherString [anyOf ["x", "y", "z"]] fun s =>
  if s.head? = some 'x' then .ok (.value (.object (.axis 0)))
  else if s.head? = some 'y' then .ok (.value (.object (.axis 1)))
  else if s.head? = some 'z' then .ok (.value (.object (.axis 2)))
  else .error "AssertThrow"

/-- `containsOnlyCharacters("xyz")`; MatcherString.cpp:133-147. -/
def onlyAxes (s : Text) : Except String Bool := .ok (s.all fun c => "xyz".toList.contains c)

/-- `uniqueCharacters()`; MatcherString.cpp:149-158. -/
def uniqueCharacters (s : Text) : Except String Bool := .ok (decide s.Nodup)

/-- `length(...)`; MatcherString.cpp:115-119. -/
def textLength (n : Nat) (s : Text) : Except String Bool := .ok (decide (s.length = n))

/-- `axisOrder`; LatticeMatcher.cpp:164-167. -/
def axisOrder : Matcher ℝ V := matcherString [onlyAxes, uniqueCharacters, textLength 3] (fun s => .ok (.value (.text s)))

/-! ### Unit cells -/

/-- `create_sc`, `create_bcc`, `create_fcc`; LatticeMatcher.cpp:265-284. -/
def createCubic (name : String) (cell : CellType) : Outcome (ClassMatcher ℝ V) := do
  let c ← createClass name.toList []
  return ClassMatcher.mapTo c fun _ => .ok (.object (.cell cell))

/-- `create_hcp`, `create_hexagonal`; LatticeMatcher.cpp:286-302. -/
def createLayered (name : String) (cell : Fin 3 → CellType) : Outcome (ClassMatcher ℝ V) := do
  let c ← createClass name.toList [required "axis" axis]
  return ClassMatcher.mapTo c fun d => do
    let axis ← get d "axis" >>= asAxis
    return .object (.cell (cell axis))

/-- `pos`; LatticeMatcher.cpp:305. -/
def pos : Matcher ℝ V := ArrayMatcher.toMatcher ⟨some float, [arraySize 3], fun l => (asThree asReal l).map fun v => .value (.object (.row v))⟩

/-- The orientation given by angles in degrees; LatticeMatcher.cpp:308-310. -/
noncomputable def rotationOf (angles : Vec3 ℝ) : Mat3 := Mat3.rotation (Real.pi / 180 * angles.x) (Real.pi / 180 * angles.y) (Real.pi / 180 * angles.z)

/-- `rot`; LatticeMatcher.cpp:306-311. -/
noncomputable def rot : Matcher ℝ V :=
  ArrayMatcher.toMatcher ⟨some float, [arraySize 3], fun l => (asThree asReal l).map fun v => .value (.object (.rotation (rotationOf v)))⟩

/-- `shape`; LatticeMatcher.cpp:313-320. -/
noncomputable def createMolecule (conv : ℚ → Option ℝ) : Outcome (ClassMatcher ℝ V) := do
  let rot ← optional conv "rot" rot "[0, 0, 0]"
  let c ← createClass "shape".toList [required "pos" pos, rot]
  return ClassMatcher.mapTo c fun d => do
    let pos ← get d "pos" >>= asRow
    let rot ← get d "rot" >>= asRotation
    return .object (.shape ⟨pos, rot⟩)

/-- `create_custom`; LatticeMatcher.cpp:304-333. -/
noncomputable def createCustom (conv : ℚ → Option ℝ) : Outcome (ClassMatcher ℝ V) := do
  let shape ← createMolecule conv
  let shapes := vector shape.toMatcher [arrayNonEmpty] asMolecule fun l => .object (.shapes l)
  let c ← createClass "custom".toList [required "shapes" shapes]
  return ClassMatcher.mapTo c fun d => do
    let shapes ← get d "shapes" >>= asMolecules
    return .object (.cell (.custom shapes))

/-- `create_cell`; LatticeMatcher.cpp:261-263. -/
noncomputable def createCell (conv : ℚ → Option ℝ) : Outcome (Choice ℝ V) := do
  let sc ← createCubic "sc" .sc
  let bcc ← createCubic "bcc" .bcc
  let fcc ← createCubic "fcc" .fcc
  let hcp ← createLayered "hcp" .hcp
  let hexagonal ← createLayered "hexagonal" .hexagonal
  let custom ← createCustom conv
  return .join (.join (.join (.join (.join (.dataclass sc) (.dataclass bcc)) (.dataclass fcc)) (.dataclass hcp)) (.dataclass hexagonal)) (.dataclass custom)

/-! ### Dimensions -/

/-- `cellDimFloat`; LatticeMatcher.cpp:336-340. -/
noncomputable def dimNumber : Matcher ℝ V := matcherFloat (fun i => (i : ℝ)) [isPositive] (fun x => .ok (.value (.object (.dim (.number x)))))

/-- `cellDimArray`; LatticeMatcher.cpp:341-346. -/
noncomputable def dimLengths : Matcher ℝ V :=
  ArrayMatcher.toMatcher ⟨some positiveFloat, [arraySize 3], fun l => (asThree asReal l).map fun v => .value (.object (.dim (.lengths v)))⟩

/-- `asMatrix<3, 3>()` of arrays of arrays, whose rows are the inner arrays; MatcherArray.h:60-90. -/
def asMatrix (l : List (Any ℝ V)) : Except String Mat3 := (asThree asRow l).map fun r => ⟨r.x, r.y, r.z⟩

open Classical in
/-- The filter of the volume; LatticeMatcher.cpp:350-352. -/
noncomputable def hasVolume (l : List (Any ℝ V)) : Except String Bool := (asMatrix l).map fun m => decide (1 / 10 ^ 8 < |m.det|)

/-- `cellDimBox`; LatticeMatcher.cpp:347-356. The box itself is made later, see `DimArg.box`; the matrix is the one which is not transposed yet. The inner arrays are
those of `pos`. -/
noncomputable def dimVectors : Matcher ℝ V :=
  ArrayMatcher.toMatcher ⟨some pos, [arraySize 3, hasVolume], fun l => (asMatrix l).map fun m => .value (.object (.dim (.vectors m)))⟩

/-- `create_cell_dim`; LatticeMatcher.cpp:335-358. -/
noncomputable def cellDim : Choice ℝ V := .join (.join (.other dimNumber) (.other dimLengths)) (.other dimVectors)

/-! ### Transformations -/

/-- `create_optimize_cell`; LatticeMatcher.cpp:404-413; the check of the order is in CellOptimizationTransformer.cpp:53-54. -/
noncomputable def createOptimizeCell (conv : ℚ → Option ℝ) : Outcome (ClassMatcher ℝ V) := do
  let order ← optional conv "axis_order" axisOrder "\"xyz\""
  let c ← createClass "optimize_cell".toList [required "spacing" positiveFloat, order]
  return ClassMatcher.mapTo c fun d => do
    let spacing ← get d "spacing" >>= asReal
    let order ← get d "axis_order" >>= asText
    let _ ← construct (parseAxisOrder order)
    return .object (.transformation (.optimizeCell spacing order))

/-- `create_optimize_layers`; LatticeMatcher.cpp:415-424. -/
noncomputable def createOptimizeLayers : Outcome (ClassMatcher ℝ V) := do
  let c ← createClass "optimize_layers".toList [required "spacing" positiveFloat, required "axis" axis]
  return ClassMatcher.mapTo c fun d => do
    let spacing ← get d "spacing" >>= asReal
    let axis ← get d "axis" >>= asAxis
    return .object (.transformation (.optimizeLayers spacing axis))

/-- `create_columnar`; LatticeMatcher.cpp:426-435. -/
def createColumnar : Outcome (ClassMatcher ℝ V) := do
  let c ← createClass "columnar".toList [required "axis" axis, required "seed" (size [])]
  return ClassMatcher.mapTo c fun d => do
    let axis ← get d "axis" >>= asAxis
    let seed ← get d "seed" >>= asSize
    return .object (.transformation (.columnar axis seed))

/-- `create_randomize_flip`; LatticeMatcher.cpp:437-444. -/
def createRandomizeFlip : Outcome (ClassMatcher ℝ V) := do
  let c ← createClass "randomize_flip".toList [required "seed" (size [])]
  return ClassMatcher.mapTo c fun d => do
    let seed ← get d "seed" >>= asSize
    return .object (.transformation (.randomizeFlip seed))

/-- `create_layer_rotate`; LatticeMatcher.cpp:446-459. -/
noncomputable def createLayerRotate : Outcome (ClassMatcher ℝ V) := do
  let c ← createClass "layer_rotate".toList [required "layer_axis" axis, required "rot_axis" axis, required "rot_angle" float, required "alternating" boolean]
  return ClassMatcher.mapTo c fun d => do
    let layerAxis ← get d "layer_axis" >>= asAxis
    let rotAxis ← get d "rot_axis" >>= asAxis
    let angle ← get d "rot_angle" >>= asReal
    let alternating ← get d "alternating" >>= asFlag
    return .object (.transformation (.layerRotate layerAxis rotAxis (Real.pi * angle / 180) alternating))

open Classical in
/-- The filter of the axis of rotation; LatticeMatcher.cpp:465-467. -/
noncomputable def hasNorm (l : List (Any ℝ V)) : Except String Bool := (asThree asReal l).map fun v => decide (v.norm2 > 1 / 10 ^ 20)

/-- `axisArray`; LatticeMatcher.cpp:464-471. -/
noncomputable def aroundArray : Matcher ℝ V :=
  ArrayMatcher.toMatcher ⟨some float, [arraySize 3, hasNorm], fun l => (asThree asReal l).map fun v => .value (.object (.around (.vector v)))⟩

/-- `axisString`; LatticeMatcher.cpp:472-482. -/
def aroundString : Matcher ℝ V := matcherString [anyOf ["x", "y", "z", "primary", "secondary", "auxiliary"]] fun s =>
  if s = "x".toList then .ok (.value (.object (.around (.vector ⟨1, 0, 0⟩))))
  else if s = "y".toList then .ok (.value (.object (.around (.vector ⟨0, 1, 0⟩))))
  else if s = "z".toList then .ok (.value (.object (.around (.vector ⟨0, 0, 1⟩))))
  else if s = "primary".toList then .ok (.value (.object (.around .primary)))
  else if s = "secondary".toList then .ok (.value (.object (.around .secondary)))
  else if s = "auxiliary".toList then .ok (.value (.object (.around .auxiliary)))
  else .error "AssertThrow"

/-- `axisRandom`; LatticeMatcher.cpp:483-486. -/
def aroundRandom : Matcher ℝ V := matcherString [anyOf ["random"]] (fun _ => .ok (.value (.object (.around .random))))

/-- `rotAxis`; LatticeMatcher.cpp:487. -/
noncomputable def around : Choice ℝ V := .join (.join (.other aroundArray) (.other aroundString)) (.other aroundRandom)

/-- `create_randomize_rotations`; LatticeMatcher.cpp:461-497; the constructor makes the axis a unit vector, RotationRandomizingTransformer.cpp:9-19. -/
noncomputable def createRandomizeRotation (conv : ℚ → Option ℝ) : Outcome (ClassMatcher ℝ V) := do
  let axis ← optional conv "axis" around.toMatcher "\"random\""
  let c ← createClass "randomize_rotation".toList [required "seed" (size []), axis]
  return ClassMatcher.mapTo c fun d => do
    let seed ← get d "seed" >>= asSize
    let axis ← get d "axis" >>= asAround
    let axis ← construct (Randomizing.mkAxis axis)
    return .object (.transformation (.randomizeRotation seed axis))

/-- `create_transformations`; LatticeMatcher.cpp:360-371. -/
noncomputable def createTransformations (conv : ℚ → Option ℝ) : Outcome (Matcher ℝ V) := do
  let cell ← createOptimizeCell conv
  let layers ← createOptimizeLayers
  let columnar ← createColumnar
  let flip ← createRandomizeFlip
  let layer ← createLayerRotate
  let rotation ← createRandomizeRotation conv
  let transformation := Choice.join (.join (.join (.join (.join (.dataclass cell) (.dataclass layers)) (.dataclass columnar)) (.dataclass flip)) (.dataclass layer))
    (.dataclass rotation)
  return vector transformation.toMatcher [] asTransformation fun l => .object (.transformations l)

/-! ### Partial filling -/

/-- `axisOrderAuto`; LatticeMatcher.cpp:378. -/
def axisOrderAuto : Matcher ℝ V := matcherString [anyOf ["auto"]] (fun s => .ok (.value (.text s)))

/-- `create_serial`; LatticeMatcher.cpp:377-391; the order is checked again in SerialPopulator.h:24-26. -/
def createSerial (conv : ℚ → Option ℝ) : Outcome (ClassMatcher ℝ V) := do
  let order ← optional conv "axis_order" (Choice.join (.other axisOrderAuto) (.other axisOrder)).toMatcher "\"auto\""
  let c ← createClass "serial".toList [required "n_shapes" (size [intPositive]), order]
  return ClassMatcher.mapTo c fun d => do
    let nShapes ← get d "n_shapes" >>= asSize
    let order ← get d "axis_order" >>= asText
    if order = "auto".toList then return .object (.filling (.auto nShapes))
    else
      let _ ← construct (parseAxisOrder order)
      return .object (.filling (.serial nShapes order))

/-- `create_random`; LatticeMatcher.cpp:393-402. -/
def createRandom : Outcome (ClassMatcher ℝ V) := do
  let c ← createClass "random".toList [required "n_shapes" (size [intPositive]), required "seed" (size [])]
  return ClassMatcher.mapTo c fun d => do
    let nShapes ← get d "n_shapes" >>= asSize
    let seed ← get d "seed" >>= asSize
    return .object (.filling (.random nShapes seed))

/-- `create_fill_partially`; LatticeMatcher.cpp:373-375. -/
def createFillPartially (conv : ℚ → Option ℝ) : Outcome (Choice ℝ V) := do
  let serial ← createSerial conv
  let random ← createRandom
  return .join (.dataclass serial) (.dataclass random)

/-! ### Lattices -/

/-- `valueAtKeyMatches`, in the order of declaration; MatcherDictionary.cpp:37-44. -/
def valuesAt (l : List (String × Matcher ℝ V)) : List ((Text → Bool) × Matcher ℝ V) := l.map fun p => (fun k => decide (k = p.1.toList), p.2)

/-- `hasOnlyKeys`; MatcherDictionary.cpp:272-283. -/
def hasOnlyKeys (keys : List String) (d : List (Text × Any ℝ V)) : Except String Bool := .ok (d.all fun e => keys.any fun k => e.1 = k.toList)

/-- `hasKeys`; MatcherDictionary.cpp:252-260. -/
def hasKeys (keys : List String) (d : List (Text × Any ℝ V)) : Except String Bool := .ok (keys.all fun k => (find k.toList d).isSome)

/-- A dictionary of keyword arguments: matchers of values, allowed keys and mandatory keys. -/
def keywords (l : List (String × Matcher ℝ V)) (only mandatory : List String) : DictionaryMatcher ℝ V :=
  ⟨valuesAt l, none, [hasOnlyKeys only, hasKeys mandatory], fun es => .ok (.dictionary es)⟩

/-- `kwargs[name]`; MatcherDictionary.cpp:14-20. -/
def kwarg (d : ClassData ℝ V) (name : String) : Except String (Any ℝ V) :=
  match find name.toList d.keyword with
  | some a => .ok a
  | none => .error "there is no key"

/-- `do_create_transformations`; LatticeMatcher.cpp:499-504. -/
def doTransformations (d : ClassData ℝ V) : Except String (List Transformation) :=
  if (find "transformations".toList d.keyword).isSome then kwarg d "transformations" >>= asTransformations else .ok []

/-- `do_create_populator`; LatticeMatcher.cpp:506-511. -/
def doFilling (d : ClassData ℝ V) : Except String Filling :=
  if (find "fill_partially".toList d.keyword).isSome then kwarg d "fill_partially" >>= asFilling else .ok .full

/-- The lattice of a manual arrangement; LatticeMatcher.cpp:188-189. -/
noncomputable def manualLattice (c : CellType) (dim : DimArg) (n : Vec3 Nat) : Outcome Lattice := do
  let cell ← c.make dim
  Lattice.create cell n

/-- The lattice of a given number of shapes in a box; LatticeMatcher.cpp:214-222. -/
noncomputable def automaticLattice (fuel : Nat) (c : CellType) (dim : DimArg) (n : Nat) : Outcome Lattice := do
  let box ← dim.box
  let one ← c.withNumber 1
  let d ← LatticeDimensions.optimize fuel n one.molecules.length box
  let cell ← divide c box d
  Lattice.create cell d

/-- The lattice of a given number of cells in a box; LatticeMatcher.cpp:248-253. -/
noncomputable def inBoxLattice (c : CellType) (dim : DimArg) (n : Vec3 Nat) : Outcome Lattice := do
  let box ← dim.box
  let cell ← divide c box n
  Lattice.create cell n

/-- What is made of a manual lattice; LatticeMatcher.cpp:182-194. -/
noncomputable def manualFrom (d : ClassData ℝ V) : Except String V := do
  let cell ← get d "cell" >>= asCell
  let cellDim ← kwarg d "cell_dim" >>= asDim
  let nCells ← kwarg d "n_cells" >>= asCells
  let _ ← construct (manualLattice cell cellDim nCells)
  let ts ← doTransformations d
  let f ← doFilling d
  return .object (.arrangement (.manual cell cellDim nCells ts f))

/-- `create_manual_lattice`; LatticeMatcher.cpp:170-195. -/
noncomputable def createManual (conv : ℚ → Option ℝ) : Outcome (ClassMatcher ℝ V) := do
  let cell ← createCell conv
  let transformations ← createTransformations conv
  let fill ← createFillPartially conv
  let kwargs := keywords [("cell_dim", cellDim.toMatcher), ("n_cells", nCells.toMatcher), ("transformations", transformations), ("fill_partially", fill.toMatcher)]
    ["cell_dim", "n_cells", "transformations", "fill_partially"] ["cell_dim", "n_cells"]
  let c ← createClass "lattice".toList [required "cell" cell.toMatcher]
  return ClassMatcher.mapTo { c with keyword := some kwargs } manualFrom

/-- What is made of a lattice with a given number of shapes; LatticeMatcher.cpp:208-227. -/
noncomputable def automaticFrom (fuel : Nat) (d : ClassData ℝ V) : Except String V := do
  let cell ← get d "cell" >>= asCell
  let boxDim ← kwarg d "box_dim" >>= asDim
  let nShapes ← kwarg d "n_shapes" >>= asSize
  let _ ← construct (automaticLattice fuel cell boxDim nShapes)
  let ts ← doTransformations d
  return .object (.arrangement (.automatic cell boxDim nShapes ts))

/-- `create_automatic_lattice`; LatticeMatcher.cpp:197-228. -/
noncomputable def createAutomatic (conv : ℚ → Option ℝ) (fuel : Nat) : Outcome (ClassMatcher ℝ V) := do
  let cell ← createCell conv
  let transformations ← createTransformations conv
  let kwargs := keywords [("box_dim", cellDim.toMatcher), ("n_shapes", size [intPositive]), ("transformations", transformations)]
    ["box_dim", "n_shapes", "transformations"] ["box_dim", "n_shapes"]
  let c ← createClass "lattice".toList [required "cell" cell.toMatcher]
  return ClassMatcher.mapTo { c with keyword := some kwargs } (automaticFrom fuel)

/-- What is made of a lattice with a given number of cells in a box; LatticeMatcher.cpp:242-258. -/
noncomputable def inBoxFrom (d : ClassData ℝ V) : Except String V := do
  let cell ← get d "cell" >>= asCell
  let nCells ← kwarg d "n_cells" >>= asCells
  let boxDim ← kwarg d "box_dim" >>= asDim
  let _ ← construct (inBoxLattice cell boxDim nCells)
  let ts ← doTransformations d
  let f ← doFilling d
  return .object (.arrangement (.inBox cell boxDim nCells ts f))

/-- `create_automatic_cell_dim_lattice`; LatticeMatcher.cpp:230-259. -/
noncomputable def createInBox (conv : ℚ → Option ℝ) : Outcome (ClassMatcher ℝ V) := do
  let cell ← createCell conv
  let transformations ← createTransformations conv
  let fill ← createFillPartially conv
  let kwargs := keywords [("n_cells", nCells.toMatcher), ("box_dim", cellDim.toMatcher), ("transformations", transformations), ("fill_partially", fill.toMatcher)]
    ["n_cells", "box_dim", "transformations", "fill_partially"] ["n_cells", "box_dim"]
  let c ← createClass "lattice".toList [required "cell" cell.toMatcher]
  return ClassMatcher.mapTo { c with keyword := some kwargs } inBoxFrom

/-- `create_presimulated`; ArrangementMatcher.cpp:37-44. -/
def createPresimulated : Outcome (ClassMatcher ℝ V) := do
  let c ← createClass "presimulated".toList [required "file" filename]
  return ClassMatcher.mapTo c fun d => do
    let file ← get d "file" >>= asText
    return .object (.arrangement (.presimulated file))

/-- `ArrangementMatcher::create` with `LatticeMatcher::create`; ArrangementMatcher.cpp:47-49, LatticeMatcher.cpp:515-517. -/
noncomputable def createArrangement (conv : ℚ → Option ℝ) (fuel : Nat) : Outcome (Choice ℝ V) := do
  let presimulated ← createPresimulated
  let manual ← createManual conv
  let automatic ← createAutomatic conv fuel
  let inBox ← createInBox conv
  return .join (.dataclass presimulated) (.join (.join (.dataclass manual) (.dataclass automatic)) (.dataclass inBox))

/-- Reading of an arrangement from a text; ArrangementMatcher.cpp:47-49, Parser.cpp:60-79. In the program the expression is the argument `arrangement` of the input file. -/
noncomputable def matchArrangement (conv : ℚ → Option ℝ) (fuel : Nat) (expression : Text) : Outcome Arrangement := do
  let n ← parse conv expression
  let c ← createArrangement conv fuel
  match c.toMatcher.run n with
  | .matched (.value (.object (.arrangement a))) => .ok a
  | .matched _ => .throw "pyon::Any::as"
  | .unmatched _ => .throw "ValidationException"
  | .thrown m => .throw m

/-- What molecules are left, given how they are shuffled for each seed; LatticeMatcher.cpp:377-402. -/
def Filling.fill (shuffle : Nat → List Nat → List Nat) : Filling → Fill
  | .full => .full
  | .auto n => .auto n
  | .serial n axes => .serial n axes
  | .random n seed => .random n (shuffle seed)

end Rampack.ArrangeExpr
