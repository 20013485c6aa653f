import Verif.Observables.View
/-
Model of shape functions: /repo/src/core/observables/ShapeFunction.h and /repo/src/core/observables/shape_functions/.
-/
namespace Rampack

noncomputable section

/-- `ShapeGeometry::Axis`; ShapeGeometry.h. -/
inductive AxisKind where
  | primary
  | secondary
  | auxiliary
  deriving DecidableEq

/-- `getAxis`; ShapeGeometry.cpp:104-115. -/
def Geometry.getAxis (G : Geometry) (k : AxisKind) (s : Shape) : Outcome (Vec3 ℝ) :=
  match k with
  | .primary => G.getPrimaryAxis s
  | .secondary => G.getSecondaryAxis s
  | .auxiliary => G.getAuxiliaryAxis s

/-- The classes which derive from `ShapeFunction`, with arguments of their constructors; ConstantShapeFunction.h:18, ShapeAxisCoordinate.cpp:9-12, ShapeAxis.h:21, ShapeQTensor.h:21. -/
inductive ShapeFn where
  | const (value : ℝ)
  | coordinate (axis : AxisKind) (coord : Fin 3)
  | axis (axis : AxisKind)
  | tensor (axis : AxisKind)

namespace ShapeFn

/-- `values` of `ShapeQTensor` for an axis; ShapeQTensor.cpp:13-20. -/
def tensorValues (a : Vec3 ℝ) : List ℝ :=
  [3 / 2 * a.x * a.x - 1 / 2, 3 / 2 * a.x * a.y, 3 / 2 * a.x * a.z, 3 / 2 * a.y * a.y - 1 / 2, 3 / 2 * a.y * a.z, 3 / 2 * a.z * a.z - 1 / 2]

/-- `calculate` followed by `getValues`; ConstantShapeFunction.h:20-24, ShapeAxisCoordinate.cpp:14-28, ShapeAxis.cpp:9-13, ShapeQTensor.cpp:9-21. -/
def values (f : ShapeFn) (G : Geometry) (s : Shape) : Outcome (List ℝ) :=
  match f with
  | .const v => .ok [v]
  | .coordinate k i => do
    let a ← G.getAxis k s
    return [a.get i]
  | .axis k => do
    let a ← G.getAxis k s
    return [a.x, a.y, a.z]
  | .tensor k => do
    let a ← G.getAxis k s
    return tensorValues a

/-- `getNames().size()`, which is the number of values; ConstantShapeFunction.h:23, ShapeAxisCoordinate.h, ShapeAxis.h, ShapeQTensor.h. -/
def arity : ShapeFn → Nat
  | .const _ => 1
  | .coordinate _ _ => 1
  | .axis _ => 3
  | .tensor _ => 6

/-- `calculate` followed by `getValues().front()`. -/
def value (f : ShapeFn) (G : Geometry) (s : Shape) : Outcome ℝ := do
  let l ← f.values G s
  vget l 0

end ShapeFn

end

end Rampack
