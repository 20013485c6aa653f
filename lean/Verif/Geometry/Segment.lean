import Verif.Vec3
/-
Model of /repo/src/geometry/SegmentDistanceCalculator.h: the squared distance of two line segments. Numbers are real.
-/
namespace Rampack

namespace Segment

/-- `EPSILON`; SegmentDistanceCalculator.h:12. -/
noncomputable def EPSILON : ℝ := 1 / 10 ^ 10

/-- `sN`, `sD`, `tN`, `tD`. -/
structure Params where
  sN : ℝ
  sD : ℝ
  tN : ℝ
  tD : ℝ

/-- The nearest points of lines, and the ends of the first segment; SegmentDistanceCalculator.h:28-54. -/
noncomputable def first (eps a b c d e : ℝ) : Params :=
  if a * c - b * b < eps then ⟨0, 1, e, c⟩
  else if b * e - c * d < 0 then ⟨0, a * c - b * b, e, c⟩
  else if b * e - c * d > a * c - b * b then ⟨a * c - b * b, a * c - b * b, e + b, c⟩
  else ⟨b * e - c * d, a * c - b * b, a * e - b * d, a * c - b * b⟩

/-- The nearest point of the first segment to an end of the second one, with `n / a` on the line; SegmentDistanceCalculator.h:59-66, 70-77. -/
noncomputable def again (a n sD : ℝ) : ℝ × ℝ :=
  if n < 0 then (0, sD) else if n > a then (sD, sD) else (n, a)

/-- The ends of the second segment; SegmentDistanceCalculator.h:56-78. -/
noncomputable def second (a b d : ℝ) (p : Params) : Params :=
  if p.tN < 0 then ⟨(again a (-d) p.sD).1, (again a (-d) p.sD).2, 0, p.tD⟩
  else if p.tN > p.tD then ⟨(again a (-d + b) p.sD).1, (again a (-d + b) p.sD).2, p.tD, p.tD⟩
  else p

/-- The division at the end; SegmentDistanceCalculator.h:80-81. -/
noncomputable def ratio (eps n m : ℝ) : ℝ := if |n| < eps then 0 else n / m

/-- `sc` and `tc`; SegmentDistanceCalculator.h:24-81. -/
noncomputable def closest (eps : ℝ) (u v w : Vec3 ℝ) : ℝ × ℝ :=
  (ratio eps (second (u.dot u) (u.dot v) (u.dot w) (first eps (u.dot u) (u.dot v) (v.dot v) (u.dot w) (v.dot w))).sN
    (second (u.dot u) (u.dot v) (u.dot w) (first eps (u.dot u) (u.dot v) (v.dot v) (u.dot w) (v.dot w))).sD,
   ratio eps (second (u.dot u) (u.dot v) (u.dot w) (first eps (u.dot u) (u.dot v) (v.dot v) (u.dot w) (v.dot w))).tN
    (second (u.dot u) (u.dot v) (u.dot w) (first eps (u.dot u) (u.dot v) (v.dot v) (u.dot w) (v.dot w))).tD)

/-- `calculate`; SegmentDistanceCalculator.h:21-87. -/
noncomputable def calculate (s11 s12 s21 s22 : Vec3 ℝ) : ℝ :=
  (s11 - s21 + (closest EPSILON (s12 - s11) (s22 - s21) (s11 - s21)).1 • (s12 - s11) - (closest EPSILON (s12 - s11) (s22 - s21) (s11 - s21)).2 • (s22 - s21)).norm2

end Segment

end Rampack
