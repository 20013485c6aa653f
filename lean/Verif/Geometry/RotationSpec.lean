import Verif.Geometry.Rotation
import Mathlib.Algebra.Quaternion
/-
What rotations are.
-/
namespace Rampack.Spec

open Real

/-- A rotation matrix: orthogonal, with the determinant 1. -/
def ProperRotation (m : Mat3) : Prop := m * m.transpose = 1 ∧ m.det = 1

/-- Rotations around the axes, anticlockwise, looking from the end of the axis. -/
noncomputable def aroundX (a : ℝ) : Mat3 := ⟨⟨1, 0, 0⟩, ⟨0, cos a, -sin a⟩, ⟨0, sin a, cos a⟩⟩
noncomputable def aroundY (a : ℝ) : Mat3 := ⟨⟨cos a, 0, sin a⟩, ⟨0, 1, 0⟩, ⟨-sin a, 0, cos a⟩⟩
noncomputable def aroundZ (a : ℝ) : Mat3 := ⟨⟨cos a, -sin a, 0⟩, ⟨sin a, cos a, 0⟩, ⟨0, 0, 1⟩⟩

/-- The Euler angles reproduce the matrix: rotations around X, Y and Z one after another. -/
def Reproduces (angles : Vec3 ℝ) (m : Mat3) : Prop := ∀ v, m.mulVec v = (aroundZ angles.z).mulVec ((aroundY angles.y).mulVec ((aroundX angles.x).mulVec v))

/-- The quaternion `w + x i + y j + z k`. -/
def hamilton (q : Quat) : Quaternion ℝ := ⟨q.w, q.x, q.y, q.z⟩

/-- A vector as a quaternion without the real part. -/
def pureQuaternion (v : Vec3 ℝ) : Quaternion ℝ := ⟨0, v.x, v.y, v.z⟩

end Rampack.Spec
