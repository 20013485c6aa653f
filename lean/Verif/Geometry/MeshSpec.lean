import Verif.Geometry.Mesh
import Verif.Geometry.XenoSpec
import Verif.Geometry.RotationSpec
/-
Specification of meshes (C109).
-/
namespace Rampack.Spec

open Rampack Mesh

/-- What QuickHull is relied on for: vertices of the hull are some of the points, none of the points lies further than all vertices in any
direction, and indices are those of vertices. -/
structure IsHull (points : List (Vec3 ℝ)) (vertices : List (Vec3 ℝ)) (indices : List Nat) : Prop where
  some_points : ∀ v ∈ vertices, v ∈ points
  furthest : ∀ n : Vec3 ℝ, ∀ p ∈ points, ∃ v ∈ vertices, p.dot n ≤ v.dot n
  triples : indices.length % 3 = 0
  in_range : ∀ i ∈ indices, i < vertices.length

/-- The triangle of a mesh has the given corners. -/
def Corners (vertices : List (Vec3 ℝ)) (t : Triangle) (a b c : Vec3 ℝ) : Prop :=
  vertices[t.a]? = some a ∧ vertices[t.b]? = some b ∧ vertices[t.c]? = some c

/-- The triangles given by a list of indices. -/
def triples : List Nat → List Triangle
  | i :: j :: k :: l => ⟨i, j, k⟩ :: triples l
  | _ => []

/-- The same triangle, possibly turned over. -/
def SameTriangle (t s : Triangle) : Prop := s = t ∨ s = ⟨t.b, t.a, t.c⟩

/-- All triangles of a mesh have corners. -/
def ValidMesh (p : Polyhedron) : Prop := ∀ t ∈ p.triangles, ∃ a b c, Corners p.vertices t a b c

/-- All vertices lie on one side of the plane of the triangle, on whichever. -/
def OneSided (vertices : List (Vec3 ℝ)) (a b c : Vec3 ℝ) : Prop :=
  (∀ v ∈ vertices, (normal a b c).dot (v - a) ≤ 0) ∨ ∀ v ∈ vertices, 0 ≤ (normal a b c).dot (v - a)

/-- The point is in the hull of the vertices: no plane separates them. -/
def InsideHull (vertices : List (Vec3 ℝ)) (p : Vec3 ℝ) : Prop := ∀ n : Vec3 ℝ, ∃ v ∈ vertices, p.dot n ≤ v.dot n

/-- The six directions of the axes. -/
def axisDirections : List (Vec3 ℝ) := [⟨1, 0, 0⟩, ⟨-1, 0, 0⟩, ⟨0, 1, 0⟩, ⟨0, -1, 0⟩, ⟨0, 0, 1⟩, ⟨0, 0, -1⟩]

/-- The vertices in a file, in order. -/
def objVertices (lines : List ObjLine) : List (Vec3 ℝ) :=
  lines.filterMap fun
    | .vertex v => some v
    | _ => none

/-- What a program which reads an OBJ file shows: triangles with corners at the vertices with the given numbers; vertices of the file are
numbered from 1. -/
def objTriangles (lines : List ObjLine) : List (Option (Vec3 ℝ) × Option (Vec3 ℝ) × Option (Vec3 ℝ)) :=
  lines.filterMap fun
    | .face i j k => some (vertexNo i, vertexNo j, vertexNo k)
    | _ => none
where
  vertexNo (i : Nat) : Option (Vec3 ℝ) := if i = 0 then none else (objVertices lines)[i - 1]?

/-- What Mathematica shows: polygons with corners at the points with the given numbers, from 1 on, moved by the affine transformation. -/
def wolframTriangles (t : Transformed) : List (Option (Vec3 ℝ) × Option (Vec3 ℝ) × Option (Vec3 ℝ)) :=
  t.complex.polygons.map fun p => (pointNo p.a, pointNo p.b, pointNo p.c)
where
  pointNo (i : Nat) : Option (Vec3 ℝ) :=
    if i = 0 then none else (t.complex.points[i - 1]?).map fun v => t.matrix.mulVec v + t.translation

/-- The triangles of a mesh placed as a part of the molecule: the mesh is moved to its interaction centre, then the molecule is rotated
and moved. -/
def placedTriangles (pos : Vec3 ℝ) (rot : Mat3) (p : Polyhedron) (centre : Vec3 ℝ) :
    List (Option (Vec3 ℝ) × Option (Vec3 ℝ) × Option (Vec3 ℝ)) :=
  p.triangles.map fun t => (corner t.a, corner t.b, corner t.c)
where
  corner (i : Nat) : Option (Vec3 ℝ) := (p.vertices[i]?).map fun v => pos + rot.mulVec (centre + v)

end Rampack.Spec
