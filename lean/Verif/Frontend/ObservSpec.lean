import Verif.Frontend.Observ
import Verif.Frontend.InputSpec
/-
What expressions of observables mean, after /repo/docs/observables.md: a relation between an expression and what is made from it, apart from
the way in which matchers work.
-/
namespace Rampack.Observ.Spec

open Pyon Rampack.Input.Spec

/-! ### Parts -/

/-- An axis of a shape. -/
inductive IsShapeAxis : Node ℝ → ShapeAxis → Prop where
  | primary : IsShapeAxis (.string "primary".toList) .primary
  | secondary : IsShapeAxis (.string "secondary".toList) .secondary
  | auxiliary : IsShapeAxis (.string "auxiliary".toList) .auxiliary

/-- Which components of an axis: one of them, or all. -/
inductive IsComponent (a : ShapeAxis) : Node ℝ → ShapeFn → Prop where
  | x : IsComponent a (.string "x".toList) (.coordinate a 0)
  | y : IsComponent a (.string "y".toList) (.coordinate a 1)
  | z : IsComponent a (.string "z".toList) (.coordinate a 2)
  | xyz : IsComponent a (.string "xyz".toList) (.axis a)

/-- Shape functions. -/
inductive IsFunction : Node ℝ → ShapeFn → Prop where
  | const {n a : Node ℝ} {x : ℝ} : Call n "const" [("value", some (.int 1))] [a] → IsNumber a x → IsFunction n (.const x)
  | axis {n a b : Node ℝ} {w : ShapeAxis} {f : ShapeFn} : Call n "axis" [("which", none), ("comp", some (.string "xyz".toList))] [a, b] → IsShapeAxis a w →
      IsComponent w b f → IsFunction n f
  | qTensor {n a : Node ℝ} {w : ShapeAxis} : Call n "q_tensor" [("axis", none)] [a] → IsShapeAxis a w → IsFunction n (.qTensor w)

/-- Functions with a single value: constants and components of axes. -/
def SingleValued (f : ShapeFn) : Prop := (∃ x, f = .const x) ∨ ∃ a k, f = .coordinate a k

/-- Correlation functions. -/
inductive IsPairFn : Node ℝ → PairFn → Prop where
  | s110 {n a : Node ℝ} {w : ShapeAxis} : Call n "s110" [("axis", none)] [a] → IsShapeAxis a w → IsPairFn n (.s110 w)
  | s220 {n a : Node ℝ} {w : ShapeAxis} : Call n "s220" [("axis", none)] [a] → IsShapeAxis a w → IsPairFn n (.s220 w)
  | s221 {n a : Node ℝ} {w : ShapeAxis} : Call n "s221" [("axis", none)] [a] → IsShapeAxis a w → IsPairFn n (.s221 w)
  | axesAngle {n a : Node ℝ} {w : ShapeAxis} : Call n "axes_angle" [("axis", none)] [a] → IsShapeAxis a w → IsPairFn n (.axesAngle w)

/-- Three numbers of waves, not all of them 0. -/
def IsWavenumbers (n : Node ℝ) (l : List Nat) : Prop := ListOf IsSize n l ∧ l.length = 3 ∧ ∃ k ∈ l, k ≠ 0

/-- An integer as it is kept: in 32 bits. -/
def IsInt32 (n : Node ℝ) (j : Int) : Prop := ∃ i : Int, n = .int i ∧ j = Int.bmod i (2 ^ 32)

/-- Three Miller indices, not all of them 0. -/
def IsHkl (n : Node ℝ) (l : List Int) : Prop := ListOf IsInt32 n l ∧ l.length = 3 ∧ ∃ k ∈ l, k ≠ 0

/-- A letter which is an axis of the box. -/
inductive IsBoxAxis : Node ℝ → Nat → Prop where
  | x : IsBoxAxis (.string "x".toList) 0
  | y : IsBoxAxis (.string "y".toList) 1
  | z : IsBoxAxis (.string "z".toList) 2

/-- The default point, which is the center. -/
def center : Option (Node ℝ) := some (.string "o".toList)

/-- Ways of enumerating pairs. -/
inductive IsBinning : Node ℝ → Binning → Prop where
  | radial {n a : Node ℝ} {p : Text} : Call n "radial" [("focal_point", center)] [a] → IsText a p → IsBinning n (.radial p)
  | layerwise {n a b : Node ℝ} {hkl : List Int} {p : Text} : Call n "layerwise_radial" [("hkl", none), ("focal_point", center)] [a, b] → IsHkl a hkl →
      IsText b p → IsBinning n (.layerwise hkl p)
  | linear {n a b : Node ℝ} {k : Nat} {p : Text} : Call n "linear" [("axis", none), ("focal_point", center)] [a, b] → IsBoxAxis a k → IsText b p →
      IsBinning n (.linear k p)

/-- Fourier trackers: the numbers of waves and a function with a single value. -/
def IsFourier (n : Node ℝ) (wavenumbers : List Nat) (f : ShapeFn) : Prop :=
  ∃ a b, Call n "fourier_tracker" [("wavenumbers", none), ("function", none)] [a, b] ∧ IsWavenumbers a wavenumbers ∧ IsFunction b f ∧ SingleValued f

/-- Trackers: none, or a Fourier tracker. -/
inductive IsTracker : Node ℝ → Tracker → Prop where
  | none : IsTracker .none .dummy
  | fourier {n : Node ℝ} {w : List Nat} {f : ShapeFn} : IsFourier n w f → IsTracker n (.fourier w f)

/-! ### Observables -/

/-- The largest Miller indices: one positive integer for all, or three. -/
inductive IsMaxHkl : Node ℝ → List Nat → Prop where
  | single {n : Node ℝ} {k : Nat} : IsCount n k → IsMaxHkl n [k, k, k]
  | all {n : Node ℝ} {l : List Nat} : IsWavenumbers n l → IsMaxHkl n l

/-- The indices as they are kept, in 32 bits, where they must be neither negative nor all 0. -/
def Fits (l : List Nat) (r : List Int) : Prop := r = l.map (fun k : Nat => Int.bmod (k : Int) (2 ^ 32)) ∧ (∀ k ∈ r, 0 ≤ k) ∧ ∃ k ∈ r, k ≠ 0

/-- A rank: at least 3. -/
def IsRank (n : Node ℝ) (k : Nat) : Prop := n = .int k ∧ 3 ≤ k

/-- Ranks: one, or an array which is not empty. -/
inductive IsRanks : Node ℝ → List Nat → Prop where
  | single {n : Node ℝ} {k : Nat} : IsRank n k → IsRanks n [k]
  | all {n : Node ℝ} {l : List Nat} : ListOf IsRank n l → l ≠ [] → IsRanks n l

/-- Observables without arguments. -/
def Simple : List (String × Observable) :=
  [("number_density", .numberDensity), ("box_dimensions", .boxDimensions), ("packing_fraction", .packingFraction),
    ("compressibility_factor", .compressibilityFactor), ("energy_per_particle", .energyPerParticle),
    ("energy_fluctuations_per_particle", .energyFluctuationsPerParticle), ("rotation_matrix_drift", .rotationMatrixDrift),
    ("temperature", .temperature), ("pressure", .pressure)]

/-- Observables. -/
inductive IsObservable : Node ℝ → Observable → Prop where
  | plain {n : Node ℝ} {name : String} {o : Observable} : (name, o) ∈ Simple → Call n name [] [] → IsObservable n o
  | nematic {n a : Node ℝ} {dump : Bool} : Call n "nematic_order" [("dump_qtensor", some (.boolean false))] [a] → a = .boolean dump →
      IsObservable n (.nematicOrder dump)
  | smectic {n a b c d : Node ℝ} {l : List Nat} {r : List Int} {dump : Bool} {p : Text} {f : ShapeFn} :
      Call n "smectic_order" [("max_hkl", none), ("dump_tau_vector", some (.boolean false)), ("focal_point", center),
        ("function", some (.dataclass "const".toList [] []))] [a, b, c, d] →
      IsMaxHkl a l → Fits l r → b = .boolean dump → IsText c p → IsFunction d f → SingleValued f → IsObservable n (.smecticOrder r dump p f)
  | bond {n a b c d e : Node ℝ} {hkl : List Int} {ranks sorted : List Nat} {p q : Text} {isLocal : Bool} :
      Call n "bond_order" [("hkl", none), ("ranks", none), ("layering_point", center), ("focal_point", center), ("local", some (.boolean true))] [a, b, c, d, e] →
      IsHkl a hkl → IsRanks b ranks → sorted.Perm ranks → sorted.Pairwise (· ≤ ·) → IsText c p → IsText d q → e = .boolean isLocal →
      IsObservable n (.bondOrder sorted hkl p q isLocal)
  | fourier {n : Node ℝ} {w : List Nat} {f : ShapeFn} : IsFourier n w f → IsObservable n (.fourier w f)

/-- The scope as a number: a bit for snapshots, a bit for averages and a bit for inline output. -/
def scopeOf (snapshot averaging inline : Bool) : Nat := snapshot.toNat + 2 * averaging.toNat + 4 * inline.toNat

/-- Observables with scopes: without any given, it is everything. -/
inductive IsScoped : Node ℝ → Scoped → Prop where
  | full {n : Node ℝ} {o : Observable} : IsObservable n o → IsScoped n ⟨scopeOf true true true, o⟩
  | given {n a b c d : Node ℝ} {o : Observable} {snapshot averaging inline : Bool} :
      Call n "scoped" [("obs", none), ("snapshot", some (.boolean false)), ("averaging", some (.boolean false)), ("inline", some (.boolean false))] [a, b, c, d] →
      IsObservable a o → b = .boolean snapshot → c = .boolean averaging → d = .boolean inline →
      (snapshot = true ∨ averaging = true ∨ inline = true) → IsScoped n ⟨scopeOf snapshot averaging inline, o⟩

/-! ### Bulk observables -/

/-- A number of bins: at least 2. -/
def IsBins (n : Node ℝ) (k : Nat) : Prop := n = .int k ∧ 2 ≤ k

/-- A number of bins in a direction: it may be missing, and then it is 1. -/
inductive IsMaybeBins : Node ℝ → Nat → Prop where
  | none : IsMaybeBins .none 1
  | some {n : Node ℝ} {k : Nat} : IsBins n k → IsMaybeBins n k

/-- An interval. -/
def IsRange (n : Node ℝ) (low high : ℝ) : Prop := ∃ a b, n = .array [a, b] ∧ IsNumber a low ∧ IsNumber b high ∧ low < high

/-- Normalizations of density histograms. -/
inductive IsDensityNorm : Node ℝ → Norm → Prop where
  | avgCount : IsDensityNorm (.string "avg_count".toList) .avgCount
  | unit : IsDensityNorm (.string "unit".toList) .unit

/-- Normalizations of probability evolution. -/
inductive IsEvolutionNorm : Node ℝ → Norm → Prop where
  | none : IsEvolutionNorm .none .avgCount
  | avgCount : IsEvolutionNorm (.string "avg_count".toList) .avgCount
  | pdf : IsEvolutionNorm (.string "pdf".toList) .pdf
  | unit : IsEvolutionNorm (.string "unit".toList) .unit

/-- The default of booleans. -/
def off : Option (Node ℝ) := some (.boolean false)

/-- Bulk observables. -/
inductive IsBulk : Node ℝ → Bulk → Prop where
  | pairDensity {n a b c d : Node ℝ} {r : ℝ} {k : Nat} {e : Binning} {print : Bool} :
      Call n "pair_density_correlation" [("max_r", none), ("n_bins", none), ("binning", none), ("print_count", off)] [a, b, c, d] →
      IsPositive a r → IsBins b k → IsBinning c e → d = .boolean print → IsBulk n (.pairDensity e r k print)
  | pairAveraged {n a b c d e : Node ℝ} {r : ℝ} {k : Nat} {w : Binning} {f : PairFn} {print : Bool} :
      Call n "pair_averaged_correlation" [("max_r", none), ("n_bins", none), ("binning", none), ("function", none), ("print_count", off)] [a, b, c, d, e] →
      IsPositive a r → IsBins b k → IsBinning c w → IsPairFn d f → e = .boolean print → IsBulk n (.pairAveraged w f r k print)
  | density {n a b c d e f : Node ℝ} {x y z : Nat} {t : Tracker} {u : Norm} {print : Bool} :
      Call n "density_histogram" [("n_bins_x", some .none), ("n_bins_y", some .none), ("n_bins_z", some .none), ("tracker", some .none),
        ("normalization", some (.string "unit".toList)), ("print_count", off)] [a, b, c, d, e, f] →
      IsMaybeBins a x → IsMaybeBins b y → IsMaybeBins c z → (x ≠ 1 ∨ y ≠ 1 ∨ z ≠ 1) → IsTracker d t → IsDensityNorm e u → f = .boolean print →
      IsBulk n (.density [x, y, z] t u print)
  | evolution {n a b c d e f g h : Node ℝ} {r low high : ℝ} {k m : Nat} {w : Binning} {p : PairFn} {u : Norm} {print : Bool} :
      Call n "probability_evolution" [("max_r", none), ("n_bins_r", none), ("binning", none), ("fun_range", none), ("n_bins_fun", none), ("function", none),
        ("normalization", some (.string "avg_count".toList)), ("print_count", off)] [a, b, c, d, e, f, g, h] →
      IsPositive a r → IsBins b k → IsBinning c w → IsRange d low high → IsBins e m → IsPairFn f p → IsEvolutionNorm g u → h = .boolean print →
      IsBulk n (.evolution r k w low high m p u print)
  | binAveraged {n a b c d e f : Node ℝ} {x y z : Nat} {t : Tracker} {g : ShapeFn} {print : Bool} :
      Call n "bin_averaged_function" [("function", none), ("n_bins_x", some .none), ("n_bins_y", some .none), ("n_bins_z", some .none), ("tracker", some .none),
        ("print_count", off)] [a, b, c, d, e, f] →
      IsFunction a g → IsMaybeBins b x → IsMaybeBins c y → IsMaybeBins d z → (x ≠ 1 ∨ y ≠ 1 ∨ z ≠ 1) → IsTracker e t → f = .boolean print →
      IsBulk n (.binAveraged [x, y, z] g t print)

end Rampack.Observ.Spec
