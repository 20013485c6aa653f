# Formal model of PKua007/rampack in Lean 4 — design

## 1. What is modelled and how

Everything lives in `lean/Verif/`. For each area there are three kinds of files:

* `<Area>/Model.lean` — definitions only, function by function; every definition cites the file and lines of
  `/repo` it models and names its simplifications;
* `<Area>/Lemmas*.lean` — helper lemmas;
* `<Area>/Props.lean` — a small specification (independent of the model's helpers) and the property theorems, each with
  an `example` exhibiting a concrete non-trivial instance satisfying its hypotheses.

General modelling decisions:

* C++ outcomes. `Verif/Outcome.lean` has `Outcome α = ok a | throw e | ub | diverge`. Contract macros (`Expects`, `Assert`,
  `Validate…`) become `throw`; out-of-range `operator[]`, division/modulo by zero, dereferencing an empty optional and
  similar become `ub`. Loops whose termination depends on data get fuel, and running out of fuel is a separate
  `diverge` outcome that theorems exclude.
* `std::size_t` is `Nat` where the property is not about wrap-around; where the code relies on wrap-around (neighbour
  cell offsets) arithmetic is modulo `2^64`.
* `double` is an exact number: real numbers (or an arbitrary ordered field) — rounding, NaN and overflow are *not*
  modelled; `±inf` energies are modelled by an explicit extended type where the code produces them on purpose.
* Random numbers are universally quantified inputs. Threads are modelled as arbitrary schedules of atomic steps.
* Virtual interfaces (`Interaction`, `BoundaryConditions`, `Observable`, …) are parameters; the contract the rest of the
  code assumes about them is an explicit hypothesis in the theorems.
* Text streams are lists of characters / bytes.

### Modules, what they model and what they leave out

| modules | code in `/repo/src` | left out or simplified |
|---------|--------------------|------------------------|
| `Box.*`, `Vec3` | `core/TriclinicBox`, `core/PeriodicBoundaryConditions` | rounding |
| `Grid.*` | `core/NeighbourGrid` (cells, lists, neighbour and positive-neighbour enumeration, translations) | iterator classes are lists |
| `Packing.*` | `core/Packing` (set-up, reset, trial moves, acceptance, scaling, counting, energies, walls, renormalisation, cached overlaps), `core/Interaction` as a parameter | parallel loops are arbitrary schedules (`Sched`); timers; `store`/`restore` wrappers are in `IO` |
| `Domain.*` | `core/DomainDecomposition` | |
| `Param.*` | `core/dynamic_parameters/*` | |
| `Sim.*` | `core/Simulation` (sweeps, relaxation, integration, counters, step adaptation, domain division), `core/move_samplers/*`, `core/volume_scalers/*` (`Scaler`), `core/Environment` handling, parallel sweeps (`Par*`) | console and file logging; time measurements; random numbers are inputs |
| `IO.*` | `core/io/RamtrjRecorder`, `RamtrjPlayer`, `TruncatedPlayer`, `RamsnapWriter`, `RamsnapReader`, `XYZRecorder`, Wolfram snapshots, `utils/GetlineBackwards`, `core/ObservablesCollector` and recovery of the last cycle | doubles in RAMTRJ are 64-bit words; the decimal conversion in text files is a hypothesis (`Printable`); disk errors |
| `Frontend.*` | `frontend/PackingLoader`, the resume logic of `frontend/modes/CasinoMode`, `frontend/OnTheFlyOutput`, matchers of input files (`RampackMatcher`, `MoveSamplerMatcher`, `BoxScalerMatcher`, `DynamicParameterMatcher`, `ObservablesMatcher`, `ShapeMatcher`, `GenericConvexGeometryMatcher`), environments of runs and step sizes in snapshots (`CasinoMode`, `FileSnapshotWriter`) | parsing of the command line, console output; in C81 matchers of shapes, arrangements and observables are parameters, and the models of those matchers are put in their place in `WholeInput` |
| `Lattice.*` | `core/lattice/Lattice`, populators, `core/lattice/DistanceOptimizer` and packing shrinking, rotation of layers, columnar, flip and rotation randomizing transformers, `UnitCellFactory`, `OrthorhombicArrangingModel`, sizes of orthorhombic arrangements in `frontend/legacy/ArrangementFactory` | rounding; texts of legacy arrangements |
| `Observables.*` | `core/observables/Histogram`, `HistogramBuilder`, `utils/Quantity`, `NematicOrder`, `RotationMatrixDrift`, `SmecticOrder`, `BondOrder`, pair enumerators, `PairAveragedCorrelation`, `PairDensityCorrelation`, `ProbabilityEvolution`, `DensityHistogram`, `BinAveragedFunction`, `FourierTracker`, observables of single numbers, `CellOptimizationTransformer`, `LayerWiseCellOptimizationTransformer`, families of polyspheres and their volumes, wedges, volumes of convex shapes, densest packings, molecules on an arc, lattices in the input, the trajectory mode, meshes, expressions of observables, of shapes, of initial arrangements and of convex bodies, correlation functions, shape functions | other observables |
| `Utils.*` | `utils/Utils`, `utils/Fold`, `utils/Version`, `utils/Config` | |
| `Geometry.Segment*` | `geometry/SegmentDistanceCalculator` | rounding |
| `Geometry.Rotation*` | `geometry/EulerAngles`, `geometry/Quaternion`-like conversions of `core/Shape` | |
| `Geometry.Xeno*` | `geometry/xenocollide/*` (collision search, bodies, builder) | rounding |
| `Shapes.*` | `core/shapes/*` hard and soft polyspheres, spherocylinders, generic convex shapes, axes and named points (`core/ShapeGeometry`), wedges, meshes | rounding; see comments of definitions for volumes |
| `Pyon.*` | `pyon/Parser`, `pyon/Matcher*` | texts of error messages; rounding of decimal literals is a parameter |

Function-level line references are in the comments of the definitions.

Not modelled at all: `main` and the modes `preview`, `shape-preview` (apart from its output formats), `help` and `version` of
`frontend/modes`; `utils/Logger`; the reading of legacy INI files (`frontend/legacy/*`, apart from sizes of orthorhombic
arrangements).

## 2. Trusted base

* Lean 4.33.0 kernel; the axioms `propext`, `Classical.choice`, `Quot.sound` (no others; checked with
  `#print axioms`, see section 5).
* The reading of the C++ code that produced the models (no code is executed or extracted).
* The abstractions listed above.

## 3. Plan per property

| id | model | proof |
|----|-------|-------|
| C01 | `NeighbourGrid`: heads/successors arrays with `LIST_END`, add/remove/clear/resize with UB on bad index | refinement to "cell ↦ list of ids", induction over histories |
| C02 | position→cell, reflected cells, translations, box heights over ℝ | completeness by cell geometry: relative separation × height ≤ distance |
| C03 | offsets and positive offsets mod 2^64 | involution on directions; exactly one of ±n is positive |
| C04 | mixed radix coordinate maps | arithmetic |
| C05 | `PeriodicBoundaryConditions::getCorrection` over relative coordinates | floor arithmetic |
| C06 | `getTranslation` | case analysis, heights lemma |
| C07 | `getDistance2` | counterexample in a sheared box; proved for rectangular boxes (partial) |
| C08 | `Packing` counting functions on top of the grid model | C01+C02 |
| C09 | total counting | double counting via C03 |
| C10 | `Packing` state machine | invariant by induction over operations |
| C11 | same | frame lemma |
| C12 | same | state equality |
| C13 | parallel loop with relaxed flag as nondeterministic observation | induction over schedule |
| C14 | energies on the same enumeration | as C09 |
| C15 | Metropolis rule with extended energies | invariant; counterexample for u = 0 |
| C16 | positions through translate/scale | C05, relative coordinates preserved |
| C17 | centres through operations | invariant |
| C18 | `isBoxUpscaled` and hard spheres/convex bodies | geometry |
| C19 | wall checks | case analysis; counterexample for thin boxes |
| C20 | Newton iteration for orthogonalisation | algebra; counterexample for allowOverlaps |
| C21–C22 | domain regions in relative coordinates | interval arithmetic |
| C23 | interleaving semantics of try/accept | commutation, invariant |
| C24 | retry loop | measure |
| C25 | integrate/relaxOverlaps as loops emitting events | induction on cycles |
| C26–C28 | counters and samplers | invariants over event lists |
| C29 | environments as records of options | fold lemma |
| C30–C33 | byte-level RAMTRJ | byte-list lemmas, induction over snapshots |
| C34 | RAMSNAP at token/line level | round trip; counterexamples |
| C35 | stream with position, GetlineBackwards | induction over lines |
| C36–C37 | PackingLoader, on-the-fly outputs | decision logic, divisibility |
| C38–C39 | dynamic parameters | sorted list search |
| C40–C42 | lattices | list/index arithmetic, permutations |
| C43–C44 | histograms | floor arithmetic, fold permutation invariance |
| C45–C46 | PYON parser and matcher | print/parse induction; decision logic |
| C47–C50 | utils | list-of-char inductions |
| C51–C54 | geometry over ℝ | matrix algebra, convexity |
| C55 | bisection | loop invariant |
| C56–C57 | Quantity, collector | algebra, history fold |
| C58 | all public operations of `Packing`, histories as lists of operations | observations are functions of the denotation of the state |
| C59–C61 | the same histories with re-setups and wall switches | invariant where it holds; concrete histories where it does not |
| C62–C63 | `Simulation` loops with fuel | totality of each step; measure on the remaining cycles |
| C64–C65 | trial/accept steps with universally quantified random numbers | case analysis; mirroring of random numbers |
| C66 | RAMSNAP texts cut at any character | the reader on prefixes of its own output |
| C67 | move choice in sweeps | counting |
| C68–C72 | polyspheres and polyspherocylinders over ℝ | convexity, distance of segments (C53); counterexamples for rods |
| C73–C74 | soft interactions, joined interactions over ℝ | algebra, monotonicity |
| C75–C77 | support functions, XenoCollide as a transition system, body builder | separating directions; portal invariant; induction over expressions; counterexamples |
| C78–C79 | matcher combinators as data (recursive matchers as functions) | structural induction, refinement of reports |
| C80 | `PackingLoader` with a name and `--continue` (the model of C36) | case analysis over where the run is, for all lists of runs |
| C81 | matchers of runs, moves, scalings, parameters and of the whole file, over those of C46, C78, C79 | one reading lemma per matcher against a separate grammar of expressions |
| C82 | parameters of input files (grammar of C81) with the values of C38 | induction over pieces |
| C83 | `Simulation` runs with their logs; environments and the loop over runs of `CasinoMode` | invariant: the last temperature and pressure told are those in force; induction over cycles and runs |
| C84 | metadata of snapshots as sorted maps of texts | keys are different for different moves; case analysis over kinds |
| C85 | axes, geometric origin and named points of shapes, as in `ShapeGeometry` and its classes | components of rotated vectors; the vector product with the reference direction is not zero |
| C86 | `LayerWiseTransformer`, `LayerRotationTransformer`, `getLayerAssociation` | bins are a partition of indices; folds over replicas of the cell; layers are numbered through the whole lattice |
| C87 | `ColumnarTransformer`, `getColumnAssociation`, with displacements as parameters | each molecule of each cell is changed once; moving a column permutes its cells, up to side vectors of the box |
| C88 | `FlipRandomizingTransformer`, `RotationRandomizingTransformer`, with random numbers as parameters | cells are changed one after another; properties of half-turns of C85; normalisation of C41 |
| C89 | `UnitCellFactory` | squares of distances as quadratic forms of integers |
| C90 | `NematicOrder` over ℝ, with the trigonometric formula for roots | the three numbers are roots of the characteristic polynomial; for symmetric matrices all of its roots are eigenvalues; means of Legendre polynomials bound them |
| C91 | `RotationMatrixDrift` over ℝ | fold over particles; the norms of `RRᵀ - 1` and `RᵀR - 1` are equal |
| C92 | `SmecticOrder`, shape functions over ℝ and ℂ | fold over indices keeps the largest value; opposite wave vectors have conjugate values |
| C93 | `BondOrder` over ℝ and ℂ, distances with infinity | insertion keeps the nearest ones, invariant over all pairs; orthonormal frames of a plane differ by a rotation or reflection; triangle inequality |
| C94 | pair enumerators, `PairAveragedCorrelation` and correlation functions over ℝ; calls of threads as lists in any order | pairs of loops are without duplicates; `C06_translation` for vectors; Lagrange identity for ranges; reduction to the theorem on `HistogramBuilder` (C44) |
| C95 | `PairDensityCorrelation` with expected numbers of particles | telescoping differences of volumes; reduction to C44 |
| C96 | `ProbabilityEvolution` over ℝ with loops of `renormalizeHistogram` | invariants over rows and bins; each value is in exactly one bin; reduction to C44 |
| C97 | `DensityHistogram` over ℝ; the origin found by the tracker is an argument; the schedule is a list of particles with threads | reduction to C44; correction of positions by C05; counting particles by bins |
| C98 | `BinAveragedFunction` with separate steps for `calculate` and `getValues` of the shared shape function | reduction to C44 for schedules without interleaving; a schedule which gives a wrong result |
| C99 | `FourierTracker` over ℝ; `atan2` is the argument of a complex number; the external solver of polynomials is an argument | the expansion is rewritten as a sum of two travelling waves with explicit phases; equivalent maxima are found by shifts with even numbers of halves of periods; induction over snapshots; in 3D the derivative of the amplitude vanishes in a maximum, which gives the polynomial |
| C100 | observables of `NumberDensity.h`, ..., `Pressure.h` and `getParticleEnergyFluctuations`, on the model of packings | energies of single particles are known from the invariant of packings (C14); an identity for the sum of squares; heights by vector products |
| C101 | `CellOptimizationTransformer`, on the models of lattices, packings and `shrinkPacking` | the packing of a normalised lattice is reachable, so that C55 applies; the transformation of the cell is a product of matrices which reduces to factors of columns; heights of a stretched box are multiplied by the factors |
| C102 | `LayerWiseCellOptimizationTransformer`, on the models of lattices, layers and packings | the check of overlaps does not depend on the test packing which is reused; induction on the measure of each bisection and on the layers; the final cell as coordinates along one axis. The violation: three balls, whose overlaps are decided by distances along a line |
| C103 | generators of geometries of `KMerTraits`, `PolysphereWedgeTraits`, `PolysphereLollipopTraits`, `VolumeCalculator` | volumes are Lebesgue measures in Mathlib: sections of a body of revolution are discs, so the measure is an integral over heights (Fubini), the common part of two balls is an integral of two polynomials, and a row of balls is an induction in which each new ball meets the previous ones only inside of its neighbour; the violation: an open set of points of the tip beyond the last sphere of the stick is not counted |
| C104 | `SmoothWedgeTraits`, `PolyhedralWedgeTraits`, volumes of `SphereTraits` and `SpherocylinderTraits` | the hull of two balls is the union of balls of interpolated radii; the furthest of two furthest points; sections are discs whose squared radius has three formulas (cap, cone, cap), integrated; sections of the polyhedral wedge are rectangles; parts fill the wedge by induction over the positions; an orthogonal map keeps the unit ball, so its determinant is one or minus one and it keeps volumes |
| C105 | `countTotalOverlaps` together with the packing fraction observable | bodies moved by all lattice vectors do not meet; every body is cut by the cells of the lattice and its pieces are moved into one cell, where they are disjoint, so the sum of volumes is at most the volume of the box (measure theory of Mathlib) |
| C106 | `PolysphereBananaTraits`, `PolyspherocylinderBananaTraits` and the checks of their matchers | positions by induction over loops; a point is in an interval of neighbouring parts, by reflections in planes between them, so the volume is the sum of volumes of parts without common parts of neighbours; these are computed by integrals over slices and polar coordinates |
| C107 | `LatticeDimensionsOptimizer`, the three forms of `lattice` in LatticeMatcher.cpp with populators and the packing factory | the loop by induction on its iterations: the first of the largest numbers stays the one; rounded numbers are at most twice the quotients, which bounds the product; lattices through C40 and C42; division of the box by numbers of cells is undone by the lattice |
| C108 | `TrajectoryMode::main` from truncating on | replaying is a fold over the snapshots from the current one on, by induction on the loop, for every player which presents them (C30 - C33); cycle numbers make recorded files those of C30; independence of parameters of the number of cycles by induction on their structure |
| C109 | `XCPrinter`, `Polyhedron`, `XCObjShapePrinter`, `XCWolframShapePrinter`, `createPrinter` in XenoCollideTraits.h; QuickHull is a parameter | induction on subdivisions and triangles: corners of triangles are unit vectors at most a right angle apart, so that midpoints never vanish; furthest points through support functions; offsets of indices by induction on parts of the molecule |
| C110 | `ObservablesMatcher` with constructors of observables, of trackers and of binnings; expressions through the model of the language (C45) and of matchers (C46, C78, C79) | each matcher interprets a relation between expressions and values; sums of matchers by different names of classes; the whole by composition |
| C111 | `GenericConvexGeometryMatcher`; the recursive matcher is unrolled as many times as the size of the expression | the matcher unrolled k times interprets bodies with k levels; levels are bounded by the size of the expression; `C77_accepted` for the builder |
| C112 | `ShapeMatcher`, all classes; what constructors make is discarded here, see C77, C85, C101, C103, C104, C106 | each class interprets its relation, conditions of constructors from the theorems on them; alternatives are told apart by names |
| C113 | `LatticeMatcher`, `ArrangementMatcher`; transformations are the class and the arguments of the constructor, what they do is in C86, C87, C88, C101, C102; what packing is made is in C107 | each class interprets its relation; the class matcher with keyword arguments reads cell and dictionary apart; an expression of one form makes filters of keys fail for the other two |
| C114 | the matcher of C81 with the matchers of C110, C112 and C113 in it; the types of values of those, which differ in the model, are joined by wrapping and unwrapping what is made | a class or an alternative whose values are wrapped makes the wrapped results of the original (induction over arguments, entries, elements and options); then C81 for these parts |
| C115 | both styles of the writer and the printers of spheres, polyspheres, spherocylinders and polyspherocylinders, with texts as lists of characters and the way of writing numbers as an argument | the text without white characters is the documented expression (induction over molecules and over parts of a molecule); balls and capsules at the written ends are the bodies used for overlaps; orthogonal matrices move balls to balls and capsules to capsules |
| C116 | the matcher of formats of shape previews with the beginning of `getPrinter`, which is the same for all shapes | arguments and keyword arguments as in C81; `std::stoul` by cases of the sign |
| C117 | both `arrange` functions of orthorhombic arrangements with their preconditions | the triple loop with the early return is a prefix of the list of indices; division with remainder for the index; rotation matrices by components |
| C118 | `arrangePacking` of legacy input files for orthorhombic arrangements with the default format, with numbers of cells, with dimensions of cells and with `spacing`, after numbers have been read and minimal distances found | by cases of the format on top of C117 |

The status reached is in `MANIFEST.json`: a claim is *partial* exactly when the code violates a part of it (then the
violation is itself a theorem, named `Cxx_…_violated`) or when a part of the statement is not proved; the note says which.

## 4. Where the code and the properties disagree

Each item is a theorem about the model (the name in brackets), with a concrete witness. Positions refer to the pinned
commit.

| # | what happens | theorem |
|---|--------------|---------|
| 1 | `Packing::renormalizeOrientations` with overlaps allowed copies the shapes before fixing them: nothing changes | `C20_allow_overlaps_no_effect`, `C20_allow_overlaps_violated` |
| 2 | squared periodic distance is not minimal in sheared boxes | `C07_sheared_counterexample`, `C70_sheared_violated` |
| 3 | a random number equal to zero accepts moves of infinite energy | `C15_zero_violated` |
| 4 | a snapshot period of zero is accepted and divides | `C25_zero_period_violated` |
| 5 | a domain division without a neighbour grid dereferences an empty optional | `C24_no_grid_violated` |
| 6 | flip sampling in a domain may throw inside the parallel region | `C24_flip_violated` |
| 7 | re-setup with more molecules indexes the neighbour grid out of bounds (`resize` leaves `successors`) | `C59_growing_reset_violated` |
| 8 | switching walls leaves a stale number of overlaps | `C60_walls_violated` |
| 9 | a re-setup without hard part keeps old overlap differences | `C61_stale_difference_violated` |
| 10 | skipping the check when the box grows is wrong in sheared boxes and for rods | `C18_*_violated` |
| 11 | walls: thin boxes, left-handed boxes | `C19_*_violated` |
| 12 | RAMSNAP: empty map, empty last value, leading white space, torn last number | `C34_*_violated`, `C66_torn_violated` |
| 13 | the backward reader misses an empty first line; torn XYZ snapshots are taken | `C35_first_empty_violated`, `C35_xyz_torn_violated` |
| 14 | resuming: interrupted relaxation counts as done; near the end of a run it throws; averaging is repeated and may be skipped | `C36_relaxation_violated`, `C36_near_end_violated`, `C36_averaging_violated` |
| 15 | continuing an XYZ file overwrites the last snapshot | `C37_xyz_append_violated` |
| 16 | lattices with 2^31 or more cells lose the count | `C40_many_violated` |
| 17 | a non-zero initial value of a histogram is added per thread and snapshot | `C44_initial_violated` |
| 18 | `0b 1`, `0b-1` are integers; float literals with a long integer part are refused | `C45_binary_violated`, `C45_long_float_violated` |
| 19 | repeated names of declared class arguments are noticed only when matching | `C46_same_names_violated` |
| 20 | sub-configurations of sections which have only subsections | `C47_root_violated` |
| 21 | version components with a minus sign are accepted | `C48_negative_violated` |
| 22 | margins and blank lines of folded text | `C49_margin_violated` |
| 23 | replacing an empty text does not end | `C50_empty_violated` |
| 24 | step sizes above their limits | `C27_violation_*` |
| 25 | the delta-volume scaler outside rectangular boxes, and negative volumes | `C52_delta_*_violated` |
| 26 | segment distance of nearly parallel or short segments | `C53_*_violated`, `C68_rods_violated`, `C68_order_violated`, `C70_rods_violated` |
| 27 | Euler angles at gimbal lock; reflections are accepted | `C54_gimbal_violated`, `C54_reflection_violated` |
| 28 | volume of spherocylinders: squared distance compared with a length | `C71_overlapping_rods_violated`, `C71_disjoint_rods_violated` |
| 29 | Lennard-Jones is not cut at its range | `C73_range_violated` |
| 30 | convex bodies: radii of points, sums and hulls; tiny directions; degenerate footballs and saucers | `C75_*_violated` |
| 31 | XenoCollide reports separated cuboids as overlapping when the search meets a tie | `C76_hit_violated` |
| 32 | a convex expression of a single block loses its position and orientation | `C77_alone_violated` |
| 33 | an alternative never tries a recursive matcher for class invocations | `C79_recursive_violated` |
| 34 | `--continue N` goes up to N cycles in total; the help and the documentation say N more cycles | `C80_more_violated` |
| 35 | `--start-from .start` and `.end`, which the documentation gives, are refused; the code knows `.first` and `.last` | `C80_special_violated` |
| 36 | starting after a run without RAMSNAP output, or continuing one, dereferences an empty `std::optional` | `C80_no_output_violated` |
| 37 | environments of runs after the first one are not checked when the input is read | `Input.C81_later_violated` |
| 38 | `snapshot_every` and `averaging_every` longer than the run are accepted and refused only by the simulation; `-1` is read as 2^64 − 1 | `Input.C81_periods_violated` |
| 39 | a piecewise parameter with a piece beginning after the end of the run has no value in any cycle | `Input.C82_short_violated` |
| 40 | restarting with `rototranslation` of automatic rotation step (the default) dereferences an empty `std::optional` | `C84_auto_violated` |
| 41 | two moves of the same kind share an entry of the metadata; after a restart both have the step size of the last one | `C84_twice_violated` |
| 42 | a polyspherocylinder with the primary axis only: `getSecondaryAxis` checks the primary axis and dereferences the secondary one (`std::bad_optional_access`), so `hasSecondaryAxis` and `findFlipAxis` throw | `C85_secondary_violated` |
| 43 | `validate_axes` compares the scalar product without its magnitude, so axes at an obtuse angle are accepted, and then flips do not reverse the primary axis | `C85_obtuse_violated` |
| 44 | the nematic order parameter of a system whose mean Q-tensor is zero throws `AssertionException` instead of being 0 | `C90_isotropic_violated` |
| 45 | `smectic_order` divides by the volume, the documentation by the number of particles | `C92_normalisation_violated` |
| 46 | `smectic_order` with all values zero prints the wave vector of an earlier snapshot | `C92_stale_violated` |
| 47 | `bond_order` of a single particle is 1: missing neighbours are replaced with the first particle | `C93_few_violated` |
| 48 | `bond_order` with indices such as (0, 0, -1) is accepted and gives NaN | `C93_negative_violated` |
| 49 | `bond_order` with indices (0, 0, 1) does not put all particles on one plane | `C93_plane_violated` |
| 50 | `pair_averaged_correlation` with `s221` gives NaN in the first bin for every packing: a particle is paired with itself and the zero vector is normalised | `C94_s221_violated` |
| 51 | `pair_averaged_correlation` averages also over pairs of a particle with itself, which spoils the first bin | `C94_self_violated` |
| 52 | `pair_density_correlation` with `linear` binning is twice too large: only one of two slabs is counted in the expected number | `C95_linear_violated` |
| 53 | `density_histogram`: the displacement of the origin is that of absolute positions, so that the density gets smeared when the box is scaled | `C97_scaled_violated` |
| 54 | `bin_averaged_function`: threads share the shape function, so that values of another particle are read | `C98_race_violated` |
| 55 | `fourier_tracker` with three wavenumbers: maxima in quarters of the period along z (infinite tangent) are missed | `C99_space_violated` |
| 56 | `energy_per_particle` and `energy_fluctuations_per_particle`: E is a half of the documented average, varE is neither variance but a half of the standard deviation | `C100_documented_violated` |
| 57 | `compressibility_factor`: documented as at least 1, which does not hold | `C100_factor_violated` |
| 58 | `optimize_cell`: documented to require a regular lattice, it refuses regular ones which are not normalised | `C101_regular_violated` |
| 59 | `optimize_layers`: layers are documented to be compressed until they are tangent, but a layer is never moved below the initial place of the previous one, which has been moved away; so the third layer may stay far from the second one | `C102_tangent_violated` |
| 60 | `PolysphereLollipopTraits`: the volume ignores the common part of the tip and of spheres of the stick other than the last one; it is too large when the tip reaches through the last sphere | `C103_lollipop_violated` |
| 61 | `SmoothWedgeTraits`: l = \|bottom_r - top_r\|, which is documented and accepted by the matcher, throws a precondition exception if `subdivisions` is more than one | `C104_divided_violated` |
| 62 | `PolyhedralWedgeTraits`: the check of the constructor lets negative sizes in; the volume can be negative (the matcher of the input refuses them) | `C104_negative_violated` |
| 63 | `countTotalOverlaps`: a ball of radius 1 in the unit box overlaps with its own images, but no overlap is counted; the packing fraction is 4/3 pi | `C105_small_violated` |
| 64 | the same when the neighbour grid is used, for a molecule longer than the box: 300 balls of diameter 1/5 in a row in the unit box have no overlaps, but the packing fraction is more than one | `C105_long_violated` |
| 65 | `PolysphereBananaTraits`: the point cm, documented for spheres which do not overlap, is given also if they do (the distance is compared with the radius, not with the diameter) | `C106_centre_violated` |
| 66 | the matcher of polysphere_banana lets in the angle 0 and spheres larger than the arc, for which the constructor throws a precondition error | `C106_input_violated` |
| 67 | `PolyspherocylinderBananaTraits::calculateVolume`: for two segments the check that the centre of the arc is outside of the shape is skipped, and then the volume is wrong, even less than the volume of one ball inside | `C106_two_violated` |
| 68 | `LatticeDimensionsOptimizer::optimize`: for a flat box a number of cells is rounded to 0, the product of numbers stays 0 and the loop never ends, e.g. 10 molecules in the box 100 x 100 x 1 | `C107_hangs_violated` |
| 69 | `lattice(cell, box_dim, n_shapes)`: all places of the lattice are filled, so that there may be more molecules than `n_shapes`, e.g. 125 instead of 100 in a cubic box | `C107_number_violated` |
| 70 | `TrajectoryMode`: the number of cycles of the trajectory is passed to dynamic parameters, and a piecewise one demands that it reaches the start of the last piece, so that observables of an interrupted or truncated simulation cannot be replayed | `C108_piecewise_violated` |
| 71 | `TrajectoryMode`: averaging from the last recorded cycle is refused as larger than the number of cycles | `C108_last_cycle_violated` |
| 72 | `Polyhedron::transformed`: the centre is moved but not rotated, so that `getVolume` of a rotated mesh may be wrong | `C109_volume_violated` |
| 73 | `density_histogram`: the documentation says that 1 bin turns a direction off, but 1 bin is refused | `Observ.C110_one_bin_violated` |
| 74 | `bond_order`: Miller indices are cut to 32 bits without a check, 4294967297 is taken as 1 | `Observ.C110_wrapped_violated` |
| 75 | `smectic_order`: `max_hkl` of 2^31 passes the matcher, and then the constructor throws | `Observ.C110_large_violated` |
| 76 | The secondary axis of a polysphere may be opposite to the primary one | `ShapeExpr.C112_axes_violated` |
| 77 | A point with the name which a polysphere gives to its own point is refused, although names are said to be custom | `ShapeExpr.C112_names_violated` |
| 78 | The class of hexagonal cells is named `hex` in the documentation, but only `hexagonal` is accepted | `ArrangeExpr.C113_hex_violated` |
| 79 | The expression for 10 shapes in the box 100 × 100 × 1 is never read: the matcher itself hangs | `ArrangeExpr.C113_flat_violated` |
| 80 | The Wolfram printer of spheres does not set `std::fixed`: a radius or a coordinate of 0.00001 is written `1e-05`, which Mathematica reads as a product and a difference | `Wolfram.C115_small_violated` |
| 81 | `mesh_divisions` of shape previews may be followed by anything: `2.5 or so` means 2 | `PreviewFile.C116_rest_violated` |
| 82 | A negative `mesh_divisions` is accepted as a very large number | `PreviewFile.C116_negative_violated` |

Noticed while reading, not stated as theorems: the help of the casino mode names `.start/.end` where the code takes
`.first/.last`; `averaging_every = -1` passes as 2^64 − 1; a version number out of range escapes as `std::out_of_range`;
the report of `MatcherBoolean` has the two values swapped; `mts` is indexed by threads but sized by domains;
sampler step limits are written by all threads (the same value); `PolysphereBananaTraits` compares squared distances with
r² instead of (2r)².

## 5. Axioms

`#print axioms` of every theorem named in `MANIFEST.json` lists at most `propext`, `Classical.choice` and `Quot.sound`.
There is no `axiom`, `sorry`, `admit`, `native_decide`, `bv_decide`, `unsafe`, `implemented_by` or `extern` in `lean/Verif`.
