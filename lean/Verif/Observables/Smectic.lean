import Verif.Observables.ShapeFunctions
import Mathlib.Analysis.SpecialFunctions.Complex.Arg
/-
Model of the smectic order parameter: /repo/src/core/observables/SmecticOrder.{h,cpp}.

Numbers are exact; `int` has no bound.
-/
namespace Rampack

noncomputable section

/-- `2 * M_PI * nTau_[i]` for all coordinates, multiplied by the transposed inverse of the dimensions of the box; SmecticOrder.cpp:19-23, BondOrder.cpp:33-34,
LayerwiseRadialEnumerator.cpp:16-17. -/
def waveVector (b : Box) (n : Vec3 ℤ) : Vec3 ℝ := b.dims.inverse.transpose.mulVec ⟨2 * Real.pi * n.x, 2 * Real.pi * n.y, 2 * Real.pi * n.z⟩

namespace SmecticOrder

/-- The loop in `calculateTau`; SmecticOrder.cpp:27-29. -/
def tauSum (k : Vec3 ℝ) : List (Vec3 ℝ × ℝ) → ℂ → ℂ
  | [], t => t
  | (p, f) :: l, t => tauSum k l (t + f * Complex.exp (Complex.I * (k.dot p : ℝ)))

/-- `calculateTau`; SmecticOrder.cpp:14-33. -/
def calculateTau (n : Vec3 ℤ) (b : Box) (points : List (Vec3 ℝ)) (values : List ℝ) : Outcome (ℂ × Vec3 ℝ) := do
  Outcome.require (decide (points.length = values.length)) "Expects(focalPoints.size() == functionValues.size())"
  return (tauSum (waveVector b n) (points.zip values) 0 / (b.volume : ℝ), waveVector b n)

/-- Integers from `lo` to `hi`, both included: `for (int i = lo; i <= hi; i++)`. -/
def upTo (lo hi : ℤ) : List ℤ := (List.range (hi - lo + 1).toNat).map fun (j : Nat) => lo + (j : ℤ)

/-- Indices in the order of the loops; SmecticOrder.cpp:46-53. -/
def indices (R : Vec3 Nat) : List (Vec3 ℤ) :=
  (upTo 0 R.x).flatMap fun cx => (upTo (if cx = 0 then 0 else -R.y) R.y).flatMap fun cy =>
    ((upTo (if cx = 0 ∧ cy = 0 then 0 else -R.z) R.z).map fun cz => (⟨cx, cy, cz⟩ : Vec3 ℤ)).filter fun n => decide (n ≠ ⟨0, 0, 0⟩)

/-- What is kept between snapshots: `tau`, `hkl`, `kTauVector`; SmecticOrder.h:36-38. -/
structure State where
  tau : ℂ
  hkl : Vec3 ℤ
  k : Vec3 ℝ

/-- A new observable; SmecticOrder.h:36-38. -/
def State.new : State := ⟨0, ⟨0, 0, 0⟩, 0⟩

/-- The body of the loops; SmecticOrder.cpp:55-60. -/
def visit (b : Box) (points : List (Vec3 ℝ)) (values : List ℝ) (st : State) (n : Vec3 ℤ) : Outcome State := do
  let r ← calculateTau n b points values
  if ‖r.1‖ > ‖st.tau‖ then return ⟨r.1, n, r.2⟩ else return st

/-- `calculate`, for given points and values; SmecticOrder.cpp:41-64. The wave vector stays as it was until it is replaced. -/
def search (R : Vec3 Nat) (b : Box) (points : List (Vec3 ℝ)) (values : List ℝ) (st : State) : Outcome State :=
  (indices R).foldlM (visit b points values) { st with tau := 0, hkl := ⟨0, 0, 0⟩ }

/-- The checks in the constructor; SmecticOrder.cpp:76-79. -/
def check (R : Vec3 Nat) (f : ShapeFn) : Outcome Unit := do
  Outcome.require (decide (R.x ≠ 0 ∨ R.y ≠ 0 ∨ R.z ≠ 0)) "Expects(std::any_of(hklRange.begin(), hklRange.end(), [](int i) { return i != 0; }))"
  Outcome.require (decide (f.arity = 1)) "Expects(this->shapeFunction->getNames().size() == 1)"

/-- `calculate`; SmecticOrder.cpp:35-64 and 103-111. -/
def calculate (R : Vec3 Nat) (name : String) (f : ShapeFn) (V : View) (G : Geometry) (st : State) : Outcome State := do
  let points ← V.namedPoints G name
  let values ← V.shapes.mapM fun s => f.value G s
  search R V.box points values st

/-- `getIntervalValues`; SmecticOrder.cpp:96-101. -/
def intervalValues (dump : Bool) (st : State) : List ℝ := if dump then [‖st.tau‖, st.k.x, st.k.y, st.k.z] else [‖st.tau‖]

end SmecticOrder

end

end Rampack
