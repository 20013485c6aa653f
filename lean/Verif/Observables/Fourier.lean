import Verif.Observables.ShapeFunctions
import Mathlib.Analysis.SpecialFunctions.Complex.Arg
import Mathlib.Algebra.Order.Floor.Ring
/-
Model of the tracker of the system's origin: /repo/src/core/observables/trackers/FourierTracker.{h,cpp} (and the part of /repo/src/core/observables/GoldstoneTracker.h which it uses).

Numbers are exact. `std::atan2` is the argument of a complex number. `RootFinder::solvePolynomial` is in an external library, so that it is an argument (`solve`), which is given
coefficients from the one of the highest power.
-/
namespace Rampack

noncomputable section

/-- Fields of `FourierTracker` which change or are given by a user, without the function; FourierTracker.h:67-71, GoldstoneTracker.h:20-23. -/
structure FourierTracker where
  wavenumbers : Vec3 Nat
  previous : Vec3 ℝ
  origin : Vec3 ℝ

namespace Fourier

/-- `FourierCoefficients`; index 0 is `COS` and 1 is `SIN`; FourierTracker.h:58-63. -/
abbrev Coefs := Fin 2 → Fin 2 → Fin 2 → ℝ

/-- `AMPLITUDE_EPSILON*AMPLITUDE_EPSILON`; FourierTracker.h:65. -/
def epsilon2 : ℝ := 1 / 10 ^ 8 * (1 / 10 ^ 8)

/-- `fmod(x, 1)`. -/
def fmod1 (x : ℝ) : ℝ := if 0 ≤ x then x - ⌊x⌋ else x + ⌊-x⌋

/-- `atan2(y, x)`. -/
def atan2 (y x : ℝ) : ℝ := Complex.arg ⟨x, y⟩

/-- `guardedAtan2`; FourierTracker.cpp:205-210. -/
def guardedAtan2 (y x : ℝ) : ℝ := if x * x + y * y < epsilon2 then 0 else atan2 y x

/-- Number of functions for an axis; FourierTracker.cpp:159-169. -/
def numFunctions (n : Nat) : Nat := if n = 0 then 1 else 2

/-- Functions for an axis; FourierTracker.cpp:159-169. -/
def function (n : Nat) (i : Fin 2) (xi : ℝ) : ℝ :=
  if n = 0 then 1 else if i = 0 then Real.cos (2 * Real.pi * n * xi) else Real.sin (2 * Real.pi * n * xi)

/-- `calculateFourierCoefficients`; FourierTracker.cpp:111-141. `f` gives `getValues().front()` of the function. Its values do not depend on the coefficient, so that they are calculated once. -/
def coefficients (n : Vec3 Nat) (f : Shape → Outcome ℝ) (V : View) : Outcome Coefs := do
  let values ← V.shapes.mapM f
  return fun i j k =>
    if i.val < numFunctions n.x ∧ j.val < numFunctions n.y ∧ k.val < numFunctions n.z then
      ((V.shapes.zip values).map fun q =>
        let rel := V.box.absToRel q.1.pos
        function n.x i rel.x * function n.y j rel.y * function n.z k rel.z * q.2).sum
    else 0

/-- `nonzeroWavenumberIdxs`; FourierTracker.cpp:146-150. -/
def nonzeroIdxs (n : Vec3 Nat) : List (Fin 3) := [0, 1, 2].filter fun i => decide (n.get i > 0)

/-- The constructor; FourierTracker.cpp:143-156. -/
def create (n : Vec3 Nat) (f : ShapeFn) : Outcome FourierTracker := do
  Outcome.require (!(nonzeroIdxs n).isEmpty) "Expects(!this->nonzeroWavenumberIdxs.empty())"
  Outcome.require (decide (f.arity = 1)) "Expects(this->function->getNames().size() == 1)"
  return ⟨n, 0, 0⟩

/-- `coefficients[idxs[0]][idxs[1]][idxs[2]]`. -/
def coefAt (C : Coefs) (idx : Fin 3 → Fin 2) : ℝ := C (idx 0) (idx 1) (idx 2)

/-- The relative coordinate of the phase; FourierTracker.cpp:70, 106, 107, 254-256. -/
def phasePos (phase : ℝ) (n : Nat) : ℝ := fmod1 (phase / n / 2 / Real.pi + 1)

/-- `calculateRelativeOriginPos1D` for the given `nonzeroIdx`; FourierTracker.cpp:57-72. -/
def relative1D (n : Vec3 Nat) (C : Coefs) (i : Fin 3) : Vec3 ℝ :=
  let c := coefAt C fun _ => 0
  let d := coefAt C fun a => if a = i then 1 else 0
  if c * c + d * d < epsilon2 then 0
  else Vec3.ofFn fun a => if a = i then phasePos (atan2 d c) (n.get i) else 0

/-- `calculateRelativeOriginPos2D` for the given `nonzeroIdx1`, `nonzeroIdx2`; FourierTracker.cpp:74-109. -/
def relative2D (n : Vec3 Nat) (C : Coefs) (i j : Fin 3) : Vec3 ℝ :=
  let cA := coefAt C fun _ => 0
  let cB := coefAt C fun a => if a = j then 1 else 0
  let cC := coefAt C fun a => if a = i then 1 else 0
  let cD := coefAt C fun a => if a = i ∨ a = j then 1 else 0
  if cA * cA + cB * cB + cC * cC + cD * cD < epsilon2 then 0
  else
    let a := guardedAtan2 (cC + cB) (cA - cD)
    let b := guardedAtan2 (cC - cB) (cA + cD)
    Vec3.ofFn fun k => if k = i then phasePos ((a + b) / 2) (n.get i) else if k = j then phasePos ((a - b) / 2) (n.get j) else 0

/-- `U`, ..., `Z`; FourierTracker.cpp:225-239. -/
structure Quad where
  U : ℝ
  V : ℝ
  W : ℝ
  X : ℝ
  Y : ℝ
  Z : ℝ

/-- `U`, ..., `Z`, where `A`, ..., `H` are coefficients in the order of FourierTracker.cpp:213-220; FourierTracker.cpp:225-239. -/
def quad (C : Coefs) : Quad :=
  let K1 := (C 0 0 0 + C 1 1 0) / 2
  let K2 := (C 0 0 0 - C 1 1 0) / 2
  let L1 := (C 0 0 1 + C 1 1 1) / 2
  let L2 := (C 0 0 1 - C 1 1 1) / 2
  let M1 := (C 0 1 0 + C 1 0 0) / 2
  let M2 := (C 0 1 0 - C 1 0 0) / 2
  let N1 := (C 0 1 1 + C 1 0 1) / 2
  let N2 := (C 0 1 1 - C 1 0 1) / 2
  ⟨K2 * K2 + M1 * M1, K2 * L2 + M1 * N1, L2 * L2 + N1 * N1, K1 * K1 + M2 * M2, K1 * L1 + M2 * N2, L1 * L1 + N2 * N2⟩

/-- `calculateTanZCoefficients`; FourierTracker.cpp:283-295. -/
def tanZ (q : Quad) : List ℝ :=
  let U := q.U
  let V := q.V
  let W := q.W
  let X := q.X
  let Y := q.Y
  let Z := q.Z
  [V * V * X - U * Y * Y,
    2 * V * (W * X + (V - Y) * Y) - 2 * U * (V * X + Y * (-X + Z)),
    -2 * V * V * X + (U - W) * (U - W) * X + 4 * V * (-U + W) * Y + 2 * U * Y * Y - W * Y * Y + 4 * V * Y * (X - Z) - U * (X - Z) * (X - Z) + V * V * Z,
    2 * (V * (U - W) * X - 2 * V * V * Y + (U - W) * (U - W) * Y + 2 * V * Y * Y + W * Y * (X - Z) - V * (X - Z) * (X - Z) + V * (-U + W) * Z + U * Y * (-X + Z)),
    V * V * X + 4 * V * (U - W) * Y - U * Y * Y + 2 * W * Y * Y - W * (X - Z) * (X - Z) - 2 * V * V * Z + (U - W) * (U - W) * Z + 4 * V * Y * (-X + Z),
    2 * (V * V * Y + W * Y * (-X + Z) - V * (Y * Y + (-U + W) * Z)),
    -W * Y * Y + V * V * Z]

/-- `val`; FourierTracker.cpp:308. -/
def amplitude (q : Quad) (cz sz : ℝ) : ℝ :=
  Real.sqrt (q.U * cz * cz + 2 * q.V * sz * cz + q.W * sz * sz) + Real.sqrt (q.X * cz * cz + 2 * q.Y * sz * cz + q.Z * sz * sz)

/-- The body of the loop with `(bestSz, bestCz, bestVal)`; FourierTracker.cpp:305-313. -/
def tryRoot (q : Quad) (best : ℝ × ℝ × ℝ) (z : ℝ) : ℝ × ℝ × ℝ :=
  let norm := Real.sqrt (1 + z * z)
  let cz := 1 / norm
  let sz := z / norm
  if amplitude q cz sz > best.2.2 then (sz, cz, amplitude q cz sz) else best

/-- `findBestSinCosZ`; FourierTracker.cpp:297-317. -/
def bestSinCos (q : Quad) (roots : List ℝ) : ℝ × ℝ :=
  let best := roots.foldl (tryRoot q) (0, 0, 0)
  (best.1, best.2.1)

/-- `calculateRelativeOriginPos3D`; FourierTracker.cpp:212-275. Coefficients given to the solver are from the highest power. -/
def relative3D (solve : List ℝ → List ℝ) (n : Vec3 Nat) (C : Coefs) : Vec3 ℝ :=
  if C 0 0 0 * C 0 0 0 + C 0 0 1 * C 0 0 1 + C 0 1 0 * C 0 1 0 + C 0 1 1 * C 0 1 1 + C 1 0 0 * C 1 0 0 + C 1 0 1 * C 1 0 1 + C 1 1 0 * C 1 1 0 + C 1 1 1 * C 1 1 1 < epsilon2 then 0
  else
    let best := bestSinCos (quad C) (solve (tanZ (quad C)).reverse)
    let sz := best.1
    let cz := best.2
    let z0 := guardedAtan2 sz cz
    let A2D := C 0 0 0 * cz + C 0 0 1 * sz
    let B2D := C 0 1 0 * cz + C 0 1 1 * sz
    let C2D := C 1 0 0 * cz + C 1 0 1 * sz
    let D2D := C 1 1 0 * cz + C 1 1 1 * sz
    let a := guardedAtan2 (C2D + B2D) (A2D - D2D)
    let b := guardedAtan2 (C2D - B2D) (A2D + D2D)
    ⟨phasePos ((a + b) / 2) n.x, phasePos ((a - b) / 2) n.y, phasePos z0 n.z⟩

/-- `calculateRelativeOriginPos`; FourierTracker.cpp:44-55. -/
def relativeOrigin (solve : List ℝ → List ℝ) (n : Vec3 Nat) (C : Coefs) : Outcome (Vec3 ℝ) :=
  match nonzeroIdxs n with
  | [i] => .ok (relative1D n C i)
  | [i, j] => .ok (relative2D n C i j)
  | [_, _, _] => .ok (relative3D solve n C)
  | _ => .throw "FourierTracker: zeros"

/-- Values of `idxs` in loops which are not skipped; FourierTracker.cpp:179-184. -/
def candidates (n : Vec3 Nat) : List (Vec3 Nat) :=
  ((List.range (max (2 * n.x) 1)).flatMap fun i => (List.range (max (2 * n.y) 1)).flatMap fun j => (List.range (max (2 * n.z) 1)).map fun (k : Nat) => (⟨i, j, k⟩ : Vec3 Nat)).filter
    fun idx => decide ((idx.x + idx.y + idx.z) % 2 = 0)

/-- One coordinate of `nextOriginPosRel`; FourierTracker.cpp:187-189. -/
def shift1 (n idx : Nat) (x : ℝ) : ℝ := if n > 0 then x + (idx : ℝ) / ((2 * n : Nat) : ℝ) else x

/-- `nextOriginPosRel`; FourierTracker.cpp:186-190. The box of `pbc` is the unit cube. -/
def next (n : Vec3 Nat) (rel : Vec3 ℝ) (idx : Vec3 Nat) : Vec3 ℝ :=
  let p : Vec3 ℝ := ⟨shift1 n.x idx.x rel.x, shift1 n.y idx.y rel.y, shift1 n.z idx.z rel.z⟩
  p + PBC.getCorrection ⟨1, 1⟩ p

/-- The end of the body of loops with `(bestOriginPosRel, bestDeltaR2)`; FourierTracker.cpp:192-196. -/
def tryNext (previous : Vec3 ℝ) (best : Vec3 ℝ × ℝ) (p : Vec3 ℝ) : Vec3 ℝ × ℝ :=
  if PBC.getDistance2 ⟨1, 1⟩ previous p < best.2 then (p, PBC.getDistance2 ⟨1, 1⟩ previous p) else best

/-- `normalizeOriginPos` without the last assignment; FourierTracker.cpp:174-200. -/
def normalizeOrigin (n : Vec3 Nat) (previous rel : Vec3 ℝ) : Vec3 ℝ :=
  (((candidates n).map (next n rel)).foldl (tryNext previous) (rel, PBC.getDistance2 ⟨1, 1⟩ previous rel)).1

/-- `calculateOrigin`; FourierTracker.cpp:37-42, 201. -/
def calculateOrigin (solve : List ℝ → List ℝ) (f : Shape → Outcome ℝ) (T : FourierTracker) (V : View) : Outcome FourierTracker := do
  let C ← coefficients T.wavenumbers f V
  let rel ← relativeOrigin solve T.wavenumbers C
  let rel := normalizeOrigin T.wavenumbers T.previous rel
  return ⟨T.wavenumbers, rel, V.box.relToAbs rel⟩

/-- `reset`; FourierTracker.cpp:319-321. -/
def reset (T : FourierTracker) : FourierTracker := { T with previous := 0 }

end Fourier

end

end Rampack
