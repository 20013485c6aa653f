import Verif.Vec3
import Verif.Outcome
import Mathlib.Analysis.SpecialFunctions.Trigonometric.Inverse
import Mathlib.Analysis.SpecialFunctions.Complex.Arg
/-
Model of rotations: `Matrix<3, 3>::rotation`, /repo/src/geometry/Matrix.tpp:408-450, /repo/src/geometry/EulerAngles.{h,cpp} and /repo/src/geometry/Quaternion.cpp.

Numbers are real. The result of a division by zero is not a number, and then so is the angle; this is `none`.
-/
namespace Rampack

open Real

/-- `Matrix<3, 3>::rotation(ax, ay, az)`; Matrix.tpp:411-434. -/
noncomputable def Mat3.rotation (ax ay az : ℝ) : Mat3 :=
  ⟨⟨cos ay * cos az, sin ax * sin ay * cos az - cos ax * sin az, cos ax * sin ay * cos az + sin ax * sin az⟩,
   ⟨cos ay * sin az, sin ax * sin ay * sin az + cos ax * cos az, cos ax * sin ay * sin az - sin ax * cos az⟩,
   ⟨-sin ay, sin ax * cos ay, cos ax * cos ay⟩⟩

/-- The matrix `K` of Rodrigues' formula; Matrix.tpp:444-446. -/
def Mat3.skew (axis : Vec3 ℝ) : Mat3 := ⟨⟨0, -axis.z, axis.y⟩, ⟨axis.z, 0, -axis.x⟩, ⟨-axis.y, axis.x, 0⟩⟩

/-- `Matrix<3, 3>::rotation(axis, angle)`; Matrix.tpp:440-450. -/
noncomputable def Mat3.axisRotation (axis : Vec3 ℝ) (angle : ℝ) : Mat3 :=
  1 + sin angle • Mat3.skew axis + ((1 - cos angle) • Mat3.skew axis) * Mat3.skew axis

namespace EulerAngles

/-- `EPSILON`; EulerAngles.h:31. -/
noncomputable def EPSILON : ℝ := 1 / 10 ^ 12

/-- `std::atan2`. -/
noncomputable def atan2 (y x : ℝ) : ℝ := Complex.arg ⟨x, y⟩

/-- A division, which does not give a number for the denominator zero. -/
noncomputable def quotient (x c : ℝ) : Option ℝ := if c = 0 then none else some (x / c)

/-- The angle with a given second angle and its cosine; EulerAngles.cpp:29-32. -/
noncomputable def anglesFor (m : Mat3) (theta c : ℝ) : Option (Vec3 ℝ) := do
  let a ← quotient m.r2.y c
  let b ← quotient m.r2.z c
  let p ← quotient m.r1.x c
  let q ← quotient m.r0.x c
  return ⟨atan2 a b, theta, atan2 p q⟩

/-- The condition of the first branch; EulerAngles.cpp:24. -/
def general (r31 : ℝ) : Prop := r31 > -1 + EPSILON ∨ r31 < 1 - EPSILON

open Classical in
/-- `forMatrix`, with the function computing cosines; EulerAngles.cpp:12-45. -/
noncomputable def forMatrixWith (cosine : ℝ → ℝ) (m : Mat3) : Option (Vec3 ℝ × Vec3 ℝ) :=
  if general m.r2.x then do
    let a ← anglesFor m (-arcsin m.r2.x) (cosine (-arcsin m.r2.x))
    let b ← anglesFor m (π - -arcsin m.r2.x) (cosine (π - -arcsin m.r2.x))
    return (a, b)
  else if m.r2.x < 0 then some (⟨atan2 m.r0.y m.r0.z, π / 2, 0⟩, ⟨atan2 m.r0.y m.r0.z, π / 2, 0⟩)
  else some (⟨atan2 (-m.r0.y) (-m.r0.z), -(π / 2), 0⟩, ⟨atan2 (-m.r0.y) (-m.r0.z), -(π / 2), 0⟩)

/-- `forMatrix`. -/
noncomputable def forMatrix (m : Mat3) : Option (Vec3 ℝ × Vec3 ℝ) := forMatrixWith cos m

/-- `isRotationMatrix`; EulerAngles.cpp:59-66. -/
def isRotationMatrix (m : Mat3) : Prop :=
  ∀ i j : Fin 3, |(![m.r0, m.r1, m.r2] i).dot (![m.r0, m.r1, m.r2] j) - if i = j then 1 else 0| < EPSILON

open Classical in
/-- The constructor; EulerAngles.cpp:47-53. -/
noncomputable def make (m : Mat3) : Outcome (Option (Vec3 ℝ × Vec3 ℝ)) :=
  if isRotationMatrix m then .ok (forMatrix m) else .throw "Expects(EulerAngles::isRotationMatrix(matrix))"

/-- `hasGimbalLock`; EulerAngles.cpp:55-57. -/
def hasGimbalLock (first : Vec3 ℝ) : Prop := |first.y| = π / 2

end EulerAngles

/-- `Vector<4>`: `quat[0]`, ..., `quat[3]`. -/
@[ext] structure Quat where
  x : ℝ
  y : ℝ
  z : ℝ
  w : ℝ

namespace Quat

/-- `norm()`; Vector.tpp. -/
noncomputable def norm (q : Quat) : ℝ := Real.sqrt (q.x * q.x + q.y * q.y + q.z * q.z + q.w * q.w)

/-- `normalized()`; Vector.tpp. -/
noncomputable def normalized (q : Quat) : Quat := ⟨q.x / q.norm, q.y / q.norm, q.z / q.norm, q.w / q.norm⟩

open Classical in
/-- The index of the largest diagonal element; Quaternion.cpp:20-29. -/
noncomputable def largest (m : Mat3) : Nat :=
  if m.r1.y > m.r0.x then if m.r2.z > m.r1.y then 2 else 1 else if m.r2.z > m.r0.x then 2 else 0

open Classical in
/-- The quaternion before it is normalized; Quaternion.cpp:9-54. -/
noncomputable def raw (m : Mat3) : Quat :=
  if m.r0.x + m.r1.y + m.r2.z > 0 then ⟨m.r2.y - m.r1.z, m.r0.z - m.r2.x, m.r1.x - m.r0.y, 1 + (m.r0.x + m.r1.y + m.r2.z)⟩
  else match largest m with
    | 0 => ⟨1 + m.r0.x - m.r1.y - m.r2.z, m.r1.x + m.r0.y, m.r2.x + m.r0.z, m.r2.y - m.r1.z⟩
    | 1 => ⟨m.r0.y + m.r1.x, 1 - m.r0.x + m.r1.y - m.r2.z, m.r2.y + m.r1.z, m.r0.z - m.r2.x⟩
    | _ => ⟨m.r0.z + m.r2.x, m.r1.z + m.r2.y, 1 - m.r0.x - m.r1.y + m.r2.z, m.r1.x - m.r0.y⟩

/-- `Quaternion::fromMatrix`; Quaternion.cpp:8-57. -/
noncomputable def fromMatrix (m : Mat3) : Quat := (raw m).normalized

end Quat

end Rampack
