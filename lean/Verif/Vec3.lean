import Mathlib.Analysis.Real.Sqrt
import Mathlib.Tactic.Ring
import Mathlib.Tactic.Linarith
import Mathlib.Tactic.FieldSimp
/-
Three-component vectors and 3×3 matrices: /repo/src/geometry/Vector.h, Vector.tpp, Matrix.h, Matrix.tpp restricted to
`DIM = 3`. `double` entries are exact.
-/
namespace Rampack

universe u v

/-- `Vector<3, E>` / `std::array<E, 3>`; src/geometry/Vector.h, components 0, 1, 2 are `x`, `y`, `z`. -/
@[ext] structure Vec3 (α : Type u) where
  x : α
  y : α
  z : α
  deriving DecidableEq, Repr

namespace Vec3
variable {α : Type u} {β : Type v}

/-- Element access `v[i]`. -/
def get (v : Vec3 α) (i : Fin 3) : α := match i with | 0 => v.x | 1 => v.y | 2 => v.z

/-- The vector with components `f 0, f 1, f 2`. -/
def ofFn (f : Fin 3 → α) : Vec3 α := ⟨f 0, f 1, f 2⟩

def map (f : α → β) (v : Vec3 α) : Vec3 β := ⟨f v.x, f v.y, f v.z⟩

@[simp] theorem get_zero (v : Vec3 α) : v.get 0 = v.x := rfl
@[simp] theorem get_one (v : Vec3 α) : v.get 1 = v.y := rfl
@[simp] theorem get_two (v : Vec3 α) : v.get 2 = v.z := rfl
@[simp] theorem map_x (f : α → β) (v : Vec3 α) : (v.map f).x = f v.x := rfl
@[simp] theorem map_y (f : α → β) (v : Vec3 α) : (v.map f).y = f v.y := rfl
@[simp] theorem map_z (f : α → β) (v : Vec3 α) : (v.map f).z = f v.z := rfl
@[simp] theorem ofFn_get (v : Vec3 α) : ofFn v.get = v := rfl
@[simp] theorem get_ofFn (f : Fin 3 → α) (i : Fin 3) : (ofFn f).get i = f i := by
  match i with | 0 => rfl | 1 => rfl | 2 => rfl

theorem ext_get {v w : Vec3 α} (h : ∀ i, v.get i = w.get i) : v = w := by
  ext
  · exact h 0
  · exact h 1
  · exact h 2

instance [Zero α] : Zero (Vec3 α) := ⟨⟨0, 0, 0⟩⟩
instance [Add α] : Add (Vec3 α) := ⟨fun a b => ⟨a.x + b.x, a.y + b.y, a.z + b.z⟩⟩
instance [Sub α] : Sub (Vec3 α) := ⟨fun a b => ⟨a.x - b.x, a.y - b.y, a.z - b.z⟩⟩
instance [Neg α] : Neg (Vec3 α) := ⟨fun a => ⟨-a.x, -a.y, -a.z⟩⟩
instance [Mul α] : SMul α (Vec3 α) := ⟨fun k a => ⟨k * a.x, k * a.y, k * a.z⟩⟩

@[simp] theorem zero_x [Zero α] : (0 : Vec3 α).x = 0 := rfl
@[simp] theorem zero_y [Zero α] : (0 : Vec3 α).y = 0 := rfl
@[simp] theorem zero_z [Zero α] : (0 : Vec3 α).z = 0 := rfl
@[simp] theorem add_x [Add α] (a b : Vec3 α) : (a + b).x = a.x + b.x := rfl
@[simp] theorem add_y [Add α] (a b : Vec3 α) : (a + b).y = a.y + b.y := rfl
@[simp] theorem add_z [Add α] (a b : Vec3 α) : (a + b).z = a.z + b.z := rfl
@[simp] theorem sub_x [Sub α] (a b : Vec3 α) : (a - b).x = a.x - b.x := rfl
@[simp] theorem sub_y [Sub α] (a b : Vec3 α) : (a - b).y = a.y - b.y := rfl
@[simp] theorem sub_z [Sub α] (a b : Vec3 α) : (a - b).z = a.z - b.z := rfl
@[simp] theorem neg_x [Neg α] (a : Vec3 α) : (-a).x = -a.x := rfl
@[simp] theorem neg_y [Neg α] (a : Vec3 α) : (-a).y = -a.y := rfl
@[simp] theorem neg_z [Neg α] (a : Vec3 α) : (-a).z = -a.z := rfl
@[simp] theorem smul_x [Mul α] (k : α) (a : Vec3 α) : (k • a).x = k * a.x := rfl
@[simp] theorem smul_y [Mul α] (k : α) (a : Vec3 α) : (k • a).y = k * a.y := rfl
@[simp] theorem smul_z [Mul α] (k : α) (a : Vec3 α) : (k • a).z = k * a.z := rfl

/-- Component-wise additive group laws. -/
instance [AddCommGroup α] : AddCommGroup (Vec3 α) where
  add_assoc a b c := by ext <;> simp [add_assoc]
  zero_add a := by ext <;> simp
  add_zero a := by ext <;> simp
  add_comm a b := by ext <;> simp [add_comm]
  neg_add_cancel a := by ext <;> simp
  sub_eq_add_neg a b := by ext <;> simp [sub_eq_add_neg]
  nsmul := nsmulRec
  zsmul := zsmulRec

/-- Scalar product `v * w`; src/geometry/Vector.tpp `operator*`. -/
def dot (a b : Vec3 ℝ) : ℝ := a.x * b.x + a.y * b.y + a.z * b.z

/-- Cross product `v ^ w`; src/geometry/Vector.tpp:106-112. -/
def cross (a b : Vec3 ℝ) : Vec3 ℝ := ⟨a.y * b.z - a.z * b.y, a.z * b.x - a.x * b.z, a.x * b.y - a.y * b.x⟩

/-- `norm2()` : squared length; src/geometry/Vector.tpp. -/
def norm2 (a : Vec3 ℝ) : ℝ := a.dot a

/-- `norm()` : length; src/geometry/Vector.tpp. -/
noncomputable def norm (a : Vec3 ℝ) : ℝ := Real.sqrt a.norm2

theorem norm2_nonneg (a : Vec3 ℝ) : 0 ≤ a.norm2 := by
  unfold norm2 dot; nlinarith [mul_self_nonneg a.x, mul_self_nonneg a.y, mul_self_nonneg a.z]

theorem norm_nonneg (a : Vec3 ℝ) : 0 ≤ a.norm := Real.sqrt_nonneg _

theorem norm_sq (a : Vec3 ℝ) : a.norm ^ 2 = a.norm2 := Real.sq_sqrt a.norm2_nonneg

/-- Cauchy–Schwarz. -/
theorem dot_sq_le (a b : Vec3 ℝ) : (a.dot b) ^ 2 ≤ a.norm2 * b.norm2 := by
  unfold norm2 dot
  nlinarith [sq_nonneg (a.x * b.y - a.y * b.x), sq_nonneg (a.y * b.z - a.z * b.y), sq_nonneg (a.z * b.x - a.x * b.z)]

theorem abs_dot_le (a b : Vec3 ℝ) : |a.dot b| ≤ a.norm * b.norm := by
  have h := dot_sq_le a b
  rw [← norm_sq, ← norm_sq, ← mul_pow] at h
  exact abs_le_of_sq_le_sq h (mul_nonneg a.norm_nonneg b.norm_nonneg)

theorem norm2_pos_of_ne {a : Vec3 ℝ} (h : a ≠ 0) : 0 < a.norm2 := by
  rcases (norm2_nonneg a).lt_or_eq with h' | h'
  · exact h'
  · exfalso; apply h
    unfold norm2 dot at h'
    have hx : a.x * a.x = 0 := by nlinarith [mul_self_nonneg a.x, mul_self_nonneg a.y, mul_self_nonneg a.z]
    have hy : a.y * a.y = 0 := by nlinarith [mul_self_nonneg a.x, mul_self_nonneg a.y, mul_self_nonneg a.z]
    have hz : a.z * a.z = 0 := by nlinarith [mul_self_nonneg a.x, mul_self_nonneg a.y, mul_self_nonneg a.z]
    ext
    · exact mul_self_eq_zero.mp hx
    · exact mul_self_eq_zero.mp hy
    · exact mul_self_eq_zero.mp hz

end Vec3

/-- `Matrix<3, 3>` stored by rows; src/geometry/Matrix.h. -/
@[ext] structure Mat3 where
  r0 : Vec3 ℝ
  r1 : Vec3 ℝ
  r2 : Vec3 ℝ

namespace Mat3

/-- `matrix * vector`; src/geometry/Matrix.tpp / Vector.tpp `operator*`. -/
def mulVec (m : Mat3) (v : Vec3 ℝ) : Vec3 ℝ := ⟨m.r0.dot v, m.r1.dot v, m.r2.dot v⟩

/-- Columns. -/
def c0 (m : Mat3) : Vec3 ℝ := ⟨m.r0.x, m.r1.x, m.r2.x⟩
def c1 (m : Mat3) : Vec3 ℝ := ⟨m.r0.y, m.r1.y, m.r2.y⟩
def c2 (m : Mat3) : Vec3 ℝ := ⟨m.r0.z, m.r1.z, m.r2.z⟩

/-- `transpose()`; src/geometry/Matrix.tpp:221-229. -/
def transpose (m : Mat3) : Mat3 := ⟨m.c0, m.c1, m.c2⟩

/-- `matrix * matrix`; src/geometry/Matrix.tpp `operator*`. -/
def mul (a b : Mat3) : Mat3 :=
  ⟨⟨a.r0.dot b.c0, a.r0.dot b.c1, a.r0.dot b.c2⟩,
   ⟨a.r1.dot b.c0, a.r1.dot b.c1, a.r1.dot b.c2⟩,
   ⟨a.r2.dot b.c0, a.r2.dot b.c1, a.r2.dot b.c2⟩⟩

/-- `identity()`; src/geometry/Matrix.tpp:274-283. -/
def one : Mat3 := ⟨⟨1, 0, 0⟩, ⟨0, 1, 0⟩, ⟨0, 0, 1⟩⟩

/-- Diagonal matrix. -/
def diag (a b c : ℝ) : Mat3 := ⟨⟨a, 0, 0⟩, ⟨0, b, 0⟩, ⟨0, 0, c⟩⟩

instance : Mul Mat3 := ⟨mul⟩
instance : One Mat3 := ⟨one⟩
instance : Add Mat3 := ⟨fun a b => ⟨a.r0 + b.r0, a.r1 + b.r1, a.r2 + b.r2⟩⟩
instance : Sub Mat3 := ⟨fun a b => ⟨a.r0 - b.r0, a.r1 - b.r1, a.r2 - b.r2⟩⟩
instance : SMul ℝ Mat3 := ⟨fun k a => ⟨k • a.r0, k • a.r1, k • a.r2⟩⟩

/-- `det()` for 3×3; src/geometry/Matrix.tpp:355-360. -/
def det (m : Mat3) : ℝ :=
  m.r0.x * m.r1.y * m.r2.z + m.r0.y * m.r1.z * m.r2.x + m.r0.z * m.r1.x * m.r2.y
    - m.r0.z * m.r1.y * m.r2.x - m.r0.y * m.r1.x * m.r2.z - m.r0.x * m.r1.z * m.r2.y

/-- `inverse()` for 3×3 (cofactors over the determinant); src/geometry/Matrix.tpp:258-271. The exception for a zero
determinant (line 265) is modelled by the callers (`TriclinicBox` constructors). -/
noncomputable def inverse (m : Mat3) : Mat3 :=
  ⟨⟨(m.r1.y * m.r2.z - m.r1.z * m.r2.y) / m.det, -(m.r0.y * m.r2.z - m.r0.z * m.r2.y) / m.det,
     (m.r0.y * m.r1.z - m.r0.z * m.r1.y) / m.det⟩,
   ⟨-(m.r1.x * m.r2.z - m.r1.z * m.r2.x) / m.det, (m.r0.x * m.r2.z - m.r0.z * m.r2.x) / m.det,
     -(m.r0.x * m.r1.z - m.r0.z * m.r1.x) / m.det⟩,
   ⟨(m.r1.x * m.r2.y - m.r1.y * m.r2.x) / m.det, -(m.r0.x * m.r2.y - m.r0.y * m.r2.x) / m.det,
     (m.r0.x * m.r1.y - m.r0.y * m.r1.x) / m.det⟩⟩

theorem mul_def (a b : Mat3) : a * b = mul a b := rfl
theorem one_def : (1 : Mat3) = one := rfl

@[simp] theorem smul_r0 (k : ℝ) (a : Mat3) : (k • a).r0 = k • a.r0 := rfl
@[simp] theorem smul_r1 (k : ℝ) (a : Mat3) : (k • a).r1 = k • a.r1 := rfl
@[simp] theorem smul_r2 (k : ℝ) (a : Mat3) : (k • a).r2 = k • a.r2 := rfl
@[simp] theorem add_r0 (a b : Mat3) : (a + b).r0 = a.r0 + b.r0 := rfl
@[simp] theorem add_r1 (a b : Mat3) : (a + b).r1 = a.r1 + b.r1 := rfl
@[simp] theorem add_r2 (a b : Mat3) : (a + b).r2 = a.r2 + b.r2 := rfl
@[simp] theorem sub_r0 (a b : Mat3) : (a - b).r0 = a.r0 - b.r0 := rfl
@[simp] theorem sub_r1 (a b : Mat3) : (a - b).r1 = a.r1 - b.r1 := rfl
@[simp] theorem sub_r2 (a b : Mat3) : (a - b).r2 = a.r2 - b.r2 := rfl

theorem mulVec_add (m : Mat3) (v w : Vec3 ℝ) : m.mulVec (v + w) = m.mulVec v + m.mulVec w := by
  ext <;> simp [mulVec, Vec3.dot] <;> ring

theorem mulVec_sub (m : Mat3) (v w : Vec3 ℝ) : m.mulVec (v - w) = m.mulVec v - m.mulVec w := by
  ext <;> simp [mulVec, Vec3.dot] <;> ring

theorem mulVec_neg (m : Mat3) (v : Vec3 ℝ) : m.mulVec (-v) = -m.mulVec v := by
  ext <;> simp [mulVec, Vec3.dot] <;> ring

theorem mulVec_zero (m : Mat3) : m.mulVec 0 = 0 := by
  ext <;> simp [mulVec, Vec3.dot]

theorem mulVec_mulVec (a b : Mat3) (v : Vec3 ℝ) : a.mulVec (b.mulVec v) = (a * b).mulVec v := by
  ext <;> simp [mulVec, mul_def, mul, Vec3.dot, c0, c1, c2] <;> ring

theorem one_mulVec (v : Vec3 ℝ) : (1 : Mat3).mulVec v = v := by
  ext <;> simp [mulVec, one_def, one, Vec3.dot]

theorem mul_assoc (a b c : Mat3) : a * b * c = a * (b * c) := by
  ext <;> simp [mul_def, mul, Vec3.dot, c0, c1, c2] <;> ring

theorem one_mul (a : Mat3) : 1 * a = a := by
  ext <;> simp [mul_def, mul, one_def, one, Vec3.dot, c0, c1, c2]

theorem mul_one (a : Mat3) : a * 1 = a := by
  ext <;> simp [mul_def, mul, one_def, one, Vec3.dot, c0, c1, c2]

theorem transpose_mul (a b : Mat3) : (a * b).transpose = b.transpose * a.transpose := by
  ext <;> simp [mul_def, mul, transpose, Vec3.dot, c0, c1, c2] <;> ring

theorem det_mul (a b : Mat3) : (a * b).det = a.det * b.det := by
  simp only [mul_def, mul, det, Vec3.dot, c0, c1, c2]; ring

theorem inverse_mul_cancel {m : Mat3} (h : m.det ≠ 0) : m.inverse * m = 1 := by
  ext <;> simp only [mul_def, mul, one_def, one, inverse, Vec3.dot, c0, c1, c2] <;> field_simp <;>
    simp only [det] <;> ring

theorem mul_inverse_cancel {m : Mat3} (h : m.det ≠ 0) : m * m.inverse = 1 := by
  ext <;> simp only [mul_def, mul, one_def, one, inverse, Vec3.dot, c0, c1, c2] <;> field_simp <;>
    simp only [det] <;> ring

end Mat3

end Rampack
