import Verif.Shapes.Axes
/-
What observables read from a packing: /repo/src/core/Packing.{h,cpp}.
-/
namespace Rampack

/-- What observables are given: `getBox()` and the particles between `begin()` and `end()`; Packing.h. Boundary conditions are the periodic ones of the box. -/
structure View where
  box : Box
  shapes : List Shape

/-- The packing as it is seen by observables: temporary shapes at the back are left out; Packing.h lines 196-201. -/
def Packing.view (P : Packing) : View := ⟨P.box, P.shapes.take P.size⟩

namespace View

/-- `getVolume()`; Packing.cpp:952-954. -/
noncomputable def volume (V : View) : ℝ := V.box.volume

/-- `getNumberDensity()`; Packing.cpp:230-232. -/
noncomputable def numberDensity (V : View) : ℝ := V.shapes.length / V.volume

/-- `dumpNamedPoints`; Packing.cpp:1144-1153. -/
def namedPoints (V : View) (G : Geometry) (name : String) : Outcome (List (Vec3 ℝ)) := do
  let p ← G.getNamedPoint name
  return V.shapes.map fun s => s.pos + s.rot.mulVec p

end View

end Rampack
