import Verif.Geometry.Xeno
/-
Meshes of convex bodies and their output.

Models src/geometry/Polyhedron.cpp, src/geometry/xenocollide/XCPrinter.cpp, src/core/shapes/{XCObjShapePrinter,XCWolframShapePrinter}.cpp.
Real numbers instead of doubles. The library QuickHull, which is not a part of the code, is a function given as an argument. Output is
a list of what is written in the lines, not text.
-/
namespace Rampack

open Packing (normalized)

namespace Mesh

/-- A triangle: indices of vertices; src/geometry/Polyhedron.h:20. -/
structure Triangle where
  a : Nat
  b : Nat
  c : Nat

/-- `Polyhedron`; src/geometry/Polyhedron.h:24-29. -/
structure Polyhedron where
  center : Vec3 ℝ
  vertices : List (Vec3 ℝ)
  triangles : List Triangle

/-- `vertices[i]` for a vector of vertices. -/
def vertexAt (vertices : List (Vec3 ℝ)) (i : Nat) : Outcome (Vec3 ℝ) :=
  match vertices[i]? with
  | some v => .ok v
  | none => .ub

/-- The vertices of the octahedron; XCPrinter.cpp:60. -/
def octahedronVertices : List (Vec3 ℝ) := [⟨1, 0, 0⟩, ⟨-1, 0, 0⟩, ⟨0, 1, 0⟩, ⟨0, -1, 0⟩, ⟨0, 0, 1⟩, ⟨0, 0, -1⟩]

/-- The triangles of the octahedron; XCPrinter.cpp:61-62. -/
def octahedronTriangles : List Triangle :=
  [⟨0, 3, 5⟩, ⟨2, 0, 5⟩, ⟨1, 2, 5⟩, ⟨3, 1, 5⟩, ⟨3, 0, 4⟩, ⟨0, 2, 4⟩, ⟨2, 1, 4⟩, ⟨1, 3, 4⟩]

/-- Division of one triangle; XCPrinter.cpp:66-75. -/
noncomputable def divide (verts : List (Vec3 ℝ)) (t : Triangle) : Outcome (List (Vec3 ℝ) × List Triangle) := do
  let a ← vertexAt verts t.a
  let b ← vertexAt verts t.b
  let c ← vertexAt verts t.c
  let k := verts.length
  return (verts ++ [normalized (a + b), normalized (b + c), normalized (c + a)],
    [⟨t.a, k, k + 2⟩, ⟨k, t.b, k + 1⟩, ⟨k + 2, k + 1, t.c⟩, ⟨k, k + 1, k + 2⟩])

/-- The loop over triangles; XCPrinter.cpp:66-76. -/
noncomputable def divideAll : List (Vec3 ℝ) → List Triangle → Outcome (List (Vec3 ℝ) × List Triangle)
  | verts, [] => .ok (verts, [])
  | verts, t :: ts => do
    let r ← divide verts t
    let rs ← divideAll r.1 ts
    return (rs.1, r.2 ++ rs.2)

/-- The loop over subdivisions; XCPrinter.cpp:64-78. -/
noncomputable def subdivide : Nat → List (Vec3 ℝ) → List Triangle → Outcome (List (Vec3 ℝ) × List Triangle)
  | 0, verts, ts => .ok (verts, ts)
  | n + 1, verts, ts => do
    let r ← divideAll verts ts
    subdivide n r.1 r.2

/-- `generateSpherePoints`; XCPrinter.cpp:59-81. -/
noncomputable def spherePoints (subdivisions : Nat) : Outcome (List (Vec3 ℝ)) := do
  let r ← subdivide subdivisions octahedronVertices octahedronTriangles
  return r.1

/-- The normal of a triangle, not normalised; XCPrinter.cpp:47-50. -/
def normal (a b c : Vec3 ℝ) : Vec3 ℝ := (b - a).cross (c - b)

open Classical in
/-- Swapping of vertices such that the normal points outwards; XCPrinter.cpp:46-52. -/
noncomputable def orient (center : Vec3 ℝ) (vertices : List (Vec3 ℝ)) (t : Triangle) : Outcome Triangle := do
  let a ← vertexAt vertices t.a
  let b ← vertexAt vertices t.b
  let c ← vertexAt vertices t.c
  return if (normal a b c).dot (a - center) < 0 then ⟨t.b, t.a, t.c⟩ else t

/-- The loop over triples of indices; XCPrinter.cpp:43-55. -/
noncomputable def orientAll (center : Vec3 ℝ) (vertices : List (Vec3 ℝ)) : List Nat → Outcome (List Triangle)
  | i :: j :: k :: indices => do
    let t ← orient center vertices ⟨i, j, k⟩
    let ts ← orientAll center vertices indices
    return t :: ts
  | _ => .ok []

/-- The convex hull of points: its vertices and indices, three for each triangle; QuickHull.hpp. -/
abbrev Hull := List (Vec3 ℝ) → List (Vec3 ℝ) × List Nat

/-- `buildPolyhedron0`; XCPrinter.cpp:14-57. -/
noncomputable def buildPolyhedron (hull : Hull) (g : XCGeometry) (subdivisions : Nat) : Outcome Polyhedron := do
  let points ← spherePoints subdivisions
  let h := hull (points.map g.support)
  Outcome.require (decide (h.2.length % 3 = 0)) "Assert(indexBuffer.size() % 3 == 0)"
  let triangles ← orientAll g.center h.1 h.2
  return ⟨g.center, h.1, triangles⟩

/-- One term of the volume; Polyhedron.cpp:33-36. -/
noncomputable def tetrahedron (center a b c : Vec3 ℝ) : ℝ := 1 / 6 * |((c - a).cross (c - b)).dot (c - center)|

/-- The loop of `getVolume`; Polyhedron.cpp:32-37. -/
noncomputable def volumeOf (center : Vec3 ℝ) (vertices : List (Vec3 ℝ)) : List Triangle → Outcome ℝ
  | [] => .ok 0
  | t :: ts => do
    let a ← vertexAt vertices t.a
    let b ← vertexAt vertices t.b
    let c ← vertexAt vertices t.c
    let v ← volumeOf center vertices ts
    return tetrahedron center a b c + v

/-- `getVolume`; Polyhedron.cpp:29-40. -/
noncomputable def Polyhedron.volume (p : Polyhedron) : Outcome ℝ := volumeOf p.center p.vertices p.triangles

/-- `transformed`; Polyhedron.cpp:52-59. -/
def Polyhedron.transformed (p : Polyhedron) (pos : Vec3 ℝ) (transform : Mat3) : Polyhedron :=
  ⟨p.center + pos, p.vertices.map fun v => transform.mulVec v + pos, p.triangles⟩

/-- A line of an OBJ file. -/
inductive ObjLine where
  | vertex (v : Vec3 ℝ)
  | blank
  | face (i j k : Nat)

/-- `storeWavefrontObj`; Polyhedron.cpp:42-50. -/
def Polyhedron.wavefrontObj (p : Polyhedron) (offset : Nat) : List ObjLine :=
  p.vertices.map ObjLine.vertex ++ [.blank] ++ p.triangles.map fun t => .face (t.a + 1 + offset) (t.b + 1 + offset) (t.c + 1 + offset)

/-- A graphics complex of Wolfram Mathematica: points and polygons given by indices of points. -/
structure GraphicsComplex where
  points : List (Vec3 ℝ)
  polygons : List Triangle

/-- `storeWolframGraphicsComplex`; Polyhedron.cpp:8-27. -/
def Polyhedron.graphicsComplex (p : Polyhedron) : GraphicsComplex :=
  ⟨p.vertices, p.triangles.map fun t => ⟨t.a + 1, t.b + 1, t.c + 1⟩⟩

/-- A printer: meshes and positions of interaction centres; XCObjShapePrinter.h:20-21, XCWolframShapePrinter.h. -/
structure Printer where
  polyhedra : List Polyhedron
  centres : List (Vec3 ℝ)

/-- `buildPolyhedra`; XCObjShapePrinter.cpp:41-49, XCWolframShapePrinter.cpp:57-65. -/
noncomputable def buildPolyhedra (hull : Hull) (subdivisions : Nat) : List XCGeometry → Outcome (List Polyhedron)
  | [] => .ok []
  | g :: gs => do
    let p ← buildPolyhedron hull g subdivisions
    let ps ← buildPolyhedra hull subdivisions gs
    return p :: ps

/-- The constructors with many interaction centres; XCObjShapePrinter.cpp:33-39, XCWolframShapePrinter.cpp:49-55. -/
noncomputable def Printer.make (hull : Hull) (geometries : List XCGeometry) (centres : List (Vec3 ℝ)) (subdivisions : Nat) :
    Outcome Printer := do
  let ps ← buildPolyhedra hull subdivisions geometries
  Outcome.require (!geometries.isEmpty) "Expects(!geometries.empty())"
  Outcome.require (decide (geometries.length = centres.length)) "Expects(geometries.size() == this->interactionCentres.size())"
  return ⟨ps, centres⟩

/-- `createPrinter` and the check of `mesh_divisions`; src/core/shapes/XenoCollideTraits.h:57-75, 110-119. Without interaction centres there
is one in the origin. -/
noncomputable def createPrinter (hull : Hull) (geometry : Nat → XCGeometry) (centres : List (Vec3 ℝ)) (subdivisions : Nat) : Outcome Printer := do
  Outcome.require (decide (subdivisions ≥ 1)) "Expects(meshSubdivisions >= 1)"
  let cs := if centres.isEmpty then [0] else centres
  Printer.make hull ((List.range cs.length).map geometry) cs subdivisions

/-- The loop of `XCObjShapePrinter::print`; XCObjShapePrinter.cpp:17-24. -/
def printObjFrom (pos : Vec3 ℝ) (rot : Mat3) : Nat → List (Polyhedron × Vec3 ℝ) → List ObjLine
  | _, [] => []
  | offset, (p, center) :: rest =>
    let t := p.transformed (pos + rot.mulVec center) rot
    t.wavefrontObj offset ++ printObjFrom pos rot (offset + t.vertices.length) rest

/-- `XCObjShapePrinter::print` of a molecule with the position and orientation; XCObjShapePrinter.cpp:14-26. -/
def Printer.printObj (p : Printer) (pos : Vec3 ℝ) (rot : Mat3) : List ObjLine := printObjFrom pos rot 0 (p.polyhedra.zip p.centres)

/-- A graphics complex with the affine transformation applied to it. -/
structure Transformed where
  complex : GraphicsComplex
  matrix : Mat3
  translation : Vec3 ℝ

/-- `XCWolframShapePrinter::print` of a molecule with the position and orientation; XCWolframShapePrinter.cpp:15-42. The loop over interaction
centres takes polyhedra with the same numbers. -/
def Printer.printWolfram (p : Printer) (pos : Vec3 ℝ) (rot : Mat3) : List Transformed :=
  (p.polyhedra.zip p.centres).map fun c => ⟨c.1.graphicsComplex, rot, pos + rot.mulVec c.2⟩

end Mesh

end Rampack
