import Verif.Geometry.MeshSpec
import Verif.Geometry.XenoLemmas
import Verif.OutcomeLemmas
import Mathlib.Tactic.LinearCombination
/-
Theorems on meshes (C109).
-/
namespace Rampack

open Rampack.Spec
open Packing (normalized)

namespace Mesh

/-- A triangle of unit vectors at most a right angle apart. -/
def Fine (V : List (Vec3 ℝ)) (t : Triangle) : Prop :=
  ∃ a b c, Corners V t a b c ∧ 0 ≤ a.dot b ∧ 0 ≤ b.dot c ∧ 0 ≤ c.dot a

theorem corners_mem {V : List (Vec3 ℝ)} {t : Triangle} {a b c : Vec3 ℝ} (h : Corners V t a b c) : a ∈ V ∧ b ∈ V ∧ c ∈ V :=
  ⟨List.mem_of_getElem? h.1, List.mem_of_getElem? h.2.1, List.mem_of_getElem? h.2.2⟩

theorem getElem?_prefix {V W : List (Vec3 ℝ)} (h : V <+: W) {i : Nat} {v : Vec3 ℝ} (hi : V[i]? = some v) : W[i]? = some v := by
  obtain ⟨X, rfl⟩ := h
  obtain ⟨hlt, e⟩ := List.getElem?_eq_some_iff.mp hi
  rw [List.getElem?_append_left hlt, hi]

theorem corners_prefix {V W : List (Vec3 ℝ)} (h : V <+: W) {t : Triangle} {a b c : Vec3 ℝ} (hc : Corners V t a b c) : Corners W t a b c :=
  ⟨getElem?_prefix h hc.1, getElem?_prefix h hc.2.1, getElem?_prefix h hc.2.2⟩

theorem Fine.prefix {V W : List (Vec3 ℝ)} (h : V <+: W) {t : Triangle} (ht : Fine V t) : Fine W t := by
  obtain ⟨a, b, c, hc, hd⟩ := ht
  exact ⟨a, b, c, corners_prefix h hc, hd⟩

theorem vertexAt_ok {V : List (Vec3 ℝ)} {i : Nat} {v : Vec3 ℝ} (h : V[i]? = some v) : vertexAt V i = .ok v := by
  unfold vertexAt
  rw [h]

theorem dot_comm' (a b : Vec3 ℝ) : a.dot b = b.dot a := by
  simp only [Vec3.dot]; ring

theorem sum_norm_pos {a b : Vec3 ℝ} (ha : a.norm2 = 1) (hb : b.norm2 = 1) (h : 0 ≤ a.dot b) : 0 < (a + b).norm := by
  have e : (a + b).norm2 = a.norm2 + b.norm2 + 2 * a.dot b := by simp only [Vec3.norm2, Vec3.dot, Vec3.add_x, Vec3.add_y, Vec3.add_z]; ring
  have : 0 < (a + b).norm2 := by rw [e, ha, hb]; linarith
  exact Real.sqrt_pos.mpr this

theorem mid_norm2 {a b : Vec3 ℝ} (ha : a.norm2 = 1) (hb : b.norm2 = 1) (h : 0 ≤ a.dot b) : (normalized (a + b)).norm2 = 1 := by
  have hp := sum_norm_pos ha hb h
  have h2 := Vec3.norm_sq (a + b)
  have e : (normalized (a + b)).norm2 = (a + b).norm2 / (a + b).norm ^ 2 := by
    simp only [Vec3.norm2, Vec3.dot, normalized]
    field_simp
  rw [e, ← h2, div_self (by positivity)]

theorem dot_mid (v : Vec3 ℝ) (a b : Vec3 ℝ) : v.dot (normalized (a + b)) = (v.dot a + v.dot b) / (a + b).norm := by
  simp only [Vec3.dot, normalized, Vec3.add_x, Vec3.add_y, Vec3.add_z]
  ring

theorem dot_mid_nonneg {v a b : Vec3 ℝ} (h1 : 0 ≤ v.dot a) (h2 : 0 ≤ v.dot b) : 0 ≤ v.dot (normalized (a + b)) := by
  rw [dot_mid]
  exact div_nonneg (add_nonneg h1 h2) (Vec3.norm_nonneg _)

theorem divide_ok {V : List (Vec3 ℝ)} {t : Triangle} (hV : ∀ v ∈ V, v.norm2 = 1) (ht : Fine V t) :
    ∃ r, divide V t = .ok r ∧ V <+: r.1 ∧ r.1.length = V.length + 3 ∧ r.2.length = 4 ∧ (∀ v ∈ r.1, v.norm2 = 1) ∧ ∀ s ∈ r.2, Fine r.1 s := by
  obtain ⟨a, b, c, hc, h1, h2, h3⟩ := ht
  obtain ⟨ma, mb, mc⟩ := corners_mem hc
  have na := hV a ma
  have nb := hV b mb
  have nc := hV c mc
  have e : divide V t = .ok (V ++ [normalized (a + b), normalized (b + c), normalized (c + a)],
      [⟨t.a, V.length, V.length + 2⟩, ⟨V.length, t.b, V.length + 1⟩, ⟨V.length + 2, V.length + 1, t.c⟩,
        ⟨V.length, V.length + 1, V.length + 2⟩]) := by
    rw [divide, vertexAt_ok hc.1, Outcome.ok_bind, vertexAt_ok hc.2.1, Outcome.ok_bind, vertexAt_ok hc.2.2, Outcome.ok_bind]
    rfl
  have hpre : V <+: V ++ [normalized (a + b), normalized (b + c), normalized (c + a)] := List.prefix_append _ _
  have k0 : (V ++ [normalized (a + b), normalized (b + c), normalized (c + a)])[V.length]? = some (normalized (a + b)) := by
    rw [List.getElem?_append_right (le_refl _), Nat.sub_self]; rfl
  have k1 : (V ++ [normalized (a + b), normalized (b + c), normalized (c + a)])[V.length + 1]? = some (normalized (b + c)) := by
    rw [List.getElem?_append_right (by omega), Nat.add_sub_cancel_left]; rfl
  have k2 : (V ++ [normalized (a + b), normalized (b + c), normalized (c + a)])[V.length + 2]? = some (normalized (c + a)) := by
    rw [List.getElem?_append_right (by omega), Nat.add_sub_cancel_left]; rfl
  have g := corners_prefix hpre hc
  -- all scalar products
  have ab := h1
  have ba : 0 ≤ b.dot a := by rw [dot_comm']; exact h1
  have bc := h2
  have cb : 0 ≤ c.dot b := by rw [dot_comm']; exact h2
  have ca := h3
  have ac : 0 ≤ a.dot c := by rw [dot_comm']; exact h3
  have aa : 0 ≤ a.dot a := Vec3.norm2_nonneg a
  have bb : 0 ≤ b.dot b := Vec3.norm2_nonneg b
  have cc : 0 ≤ c.dot c := Vec3.norm2_nonneg c
  have swap : ∀ {u v : Vec3 ℝ}, 0 ≤ u.dot v → 0 ≤ v.dot u := fun h => by rw [dot_comm']; exact h
  have m1a := dot_mid_nonneg aa ab
  have m1b := dot_mid_nonneg ba bb
  have m1c := dot_mid_nonneg ca cb
  have m2a := dot_mid_nonneg ab ac
  have m2b := dot_mid_nonneg bb bc
  have m2c := dot_mid_nonneg cb cc
  have m3a := dot_mid_nonneg ac aa
  have m3b := dot_mid_nonneg bc ba
  have m3c := dot_mid_nonneg cc ca
  have m12 := dot_mid_nonneg (swap m1b) (swap m1c)
  have m23 := dot_mid_nonneg (swap m2c) (swap m2a)
  have m31 := dot_mid_nonneg (swap m3a) (swap m3b)
  refine ⟨_, e, hpre, by simp, rfl, ?_, ?_⟩
  · intro v hv
    rcases List.mem_append.mp hv with hv | hv
    · exact hV v hv
    · simp only [List.mem_cons, List.not_mem_nil, or_false] at hv
      rcases hv with rfl | rfl | rfl
      · exact mid_norm2 na nb h1
      · exact mid_norm2 nb nc h2
      · exact mid_norm2 nc na h3
  · intro s hs
    simp only [List.mem_cons, List.not_mem_nil, or_false] at hs
    rcases hs with rfl | rfl | rfl | rfl
    · exact ⟨_, _, _, ⟨g.1, k0, k2⟩, m1a, swap m31, swap m3a⟩
    · exact ⟨_, _, _, ⟨k0, g.2.1, k1⟩, swap m1b, m2b, swap m12⟩
    · exact ⟨_, _, _, ⟨k2, k1, g.2.2⟩, swap m23, swap m2c, m3c⟩
    · exact ⟨_, _, _, ⟨k0, k1, k2⟩, m12, m23, m31⟩

theorem divideAll_ok : ∀ (ts : List Triangle) (V : List (Vec3 ℝ)), (∀ v ∈ V, v.norm2 = 1) → (∀ t ∈ ts, Fine V t) →
    ∃ r, divideAll V ts = .ok r ∧ V <+: r.1 ∧ r.1.length = V.length + 3 * ts.length ∧ r.2.length = 4 * ts.length ∧
      (∀ v ∈ r.1, v.norm2 = 1) ∧ ∀ s ∈ r.2, Fine r.1 s
  | [], V, hV, _ => ⟨(V, []), rfl, List.prefix_refl _, rfl, rfl, hV, fun s hs => nomatch hs⟩
  | t :: ts, V, hV, ht => by
    obtain ⟨r, e1, p1, l1, l2, u1, f1⟩ := divide_ok hV (ht t List.mem_cons_self)
    obtain ⟨rs, e2, p2, l3, l4, u2, f2⟩ := divideAll_ok ts r.1 u1 (fun s hs => (ht s (List.mem_cons_of_mem _ hs)).prefix p1)
    refine ⟨(rs.1, r.2 ++ rs.2), ?_, p1.trans p2, ?_, ?_, u2, ?_⟩
    · rw [divideAll, e1, Outcome.ok_bind, e2, Outcome.ok_bind]; rfl
    · rw [l3, l1, List.length_cons]; omega
    · rw [List.length_append, l2, l4, List.length_cons]; omega
    · intro s hs
      rcases List.mem_append.mp hs with hs | hs
      · exact (f1 s hs).prefix p2
      · exact f2 s hs

theorem subdivide_ok : ∀ (n : Nat) (ts : List Triangle) (V : List (Vec3 ℝ)), (∀ v ∈ V, v.norm2 = 1) → (∀ t ∈ ts, Fine V t) →
    ∃ r, subdivide n V ts = .ok r ∧ V <+: r.1 ∧ r.1.length + ts.length = V.length + 4 ^ n * ts.length ∧
      r.2.length = 4 ^ n * ts.length ∧ ∀ v ∈ r.1, v.norm2 = 1
  | 0, ts, V, hV, _ => ⟨(V, ts), rfl, List.prefix_refl _, by simp, by simp, hV⟩
  | n + 1, ts, V, hV, ht => by
    obtain ⟨r, e1, p1, l1, l2, u1, f1⟩ := divideAll_ok ts V hV ht
    obtain ⟨rs, e2, p2, l3, l4, u2⟩ := subdivide_ok n r.2 r.1 u1 f1
    refine ⟨rs, by rw [subdivide, e1, Outcome.ok_bind, e2], p1.trans p2, ?_, ?_, u2⟩
    · rw [l2, l1] at l3
      rw [pow_succ, Nat.mul_assoc]
      omega
    · rw [l4, l2, pow_succ, Nat.mul_assoc]

theorem octahedron_unit : ∀ v ∈ octahedronVertices, v.norm2 = 1 := by
  intro v hv
  simp only [octahedronVertices, List.mem_cons, List.not_mem_nil, or_false] at hv
  rcases hv with rfl | rfl | rfl | rfl | rfl | rfl <;> simp [Vec3.norm2, Vec3.dot]

theorem octahedron_fine : ∀ t ∈ octahedronTriangles, Fine octahedronVertices t := by
  intro t ht
  simp only [octahedronTriangles, List.mem_cons, List.not_mem_nil, or_false] at ht
  rcases ht with rfl | rfl | rfl | rfl | rfl | rfl | rfl | rfl <;>
    exact ⟨_, _, _, ⟨rfl, rfl, rfl⟩, by simp [Vec3.dot], by simp [Vec3.dot], by simp [Vec3.dot]⟩

theorem subdivide_add : ∀ (n m : Nat) (V : List (Vec3 ℝ)) (ts : List Triangle),
    subdivide (n + m) V ts = (subdivide n V ts >>= fun r => subdivide m r.1 r.2)
  | 0, m, V, ts => by rw [Nat.zero_add]; rfl
  | n + 1, m, V, ts => by
    rw [show n + 1 + m = (n + m) + 1 by omega, subdivide, subdivide]
    cases divideAll V ts with
    | ok r => rw [Outcome.ok_bind, Outcome.ok_bind, subdivide_add n m]
    | throw m => rfl
    | ub => rfl
    | diverge => rfl

theorem orient_ok {center : Vec3 ℝ} {V : List (Vec3 ℝ)} {t : Triangle} {a b c : Vec3 ℝ} (h : Corners V t a b c) :
    ∃ s, orient center V t = .ok s ∧ SameTriangle t s ∧ ∃ a b c, Corners V s a b c ∧ 0 ≤ (normal a b c).dot (a - center) := by
  have e : orient center V t = .ok (open Classical in if (normal a b c).dot (a - center) < 0 then ⟨t.b, t.a, t.c⟩ else t) := by
    rw [orient, vertexAt_ok h.1, Outcome.ok_bind, vertexAt_ok h.2.1, Outcome.ok_bind, vertexAt_ok h.2.2, Outcome.ok_bind]
    rfl
  refine ⟨_, e, ?_⟩
  by_cases hn : (normal a b c).dot (a - center) < 0
  · rw [if_pos hn]
    refine ⟨Or.inr rfl, b, a, c, ⟨h.2.1, h.1, h.2.2⟩, ?_⟩
    have : (normal b a c).dot (b - center) = -(normal a b c).dot (a - center) := by
      simp only [normal, Vec3.cross, Vec3.dot, Vec3.sub_x, Vec3.sub_y, Vec3.sub_z]
      ring
    rw [this]
    linarith
  · rw [if_neg hn]
    exact ⟨Or.inl rfl, a, b, c, h, not_lt.mp hn⟩

theorem corners_of_lt {V : List (Vec3 ℝ)} {t : Triangle} (ha : t.a < V.length) (hb : t.b < V.length) (hc : t.c < V.length) :
    Corners V t V[t.a] V[t.b] V[t.c] := ⟨List.getElem?_eq_getElem ha, List.getElem?_eq_getElem hb, List.getElem?_eq_getElem hc⟩

theorem orientAll_ok {center : Vec3 ℝ} {V : List (Vec3 ℝ)} : ∀ (l : List Nat), (∀ i ∈ l, i < V.length) →
    ∃ ts, orientAll center V l = .ok ts ∧ List.Forall₂ SameTriangle (triples l) ts ∧
      ∀ t ∈ ts, ∃ a b c, Corners V t a b c ∧ 0 ≤ (normal a b c).dot (a - center)
  | [], _ => ⟨[], rfl, .nil, fun t ht => nomatch ht⟩
  | [_], _ => ⟨[], rfl, .nil, fun t ht => nomatch ht⟩
  | [_, _], _ => ⟨[], rfl, .nil, fun t ht => nomatch ht⟩
  | i :: j :: k :: l, h => by
    obtain ⟨s, e1, e2, e3⟩ := orient_ok (center := center) (corners_of_lt (V := V) (t := ⟨i, j, k⟩) (h i (by simp)) (h j (by simp)) (h k (by simp)))
    obtain ⟨ts, f1, f2, f3⟩ := orientAll_ok (center := center) l (fun m hm => h m (by simp [hm]))
    refine ⟨s :: ts, by rw [orientAll, e1, Outcome.ok_bind, f1]; rfl, .cons e2 f2, ?_⟩
    intro t ht
    rcases List.mem_cons.mp ht with rfl | ht
    · exact e3
    · exact f3 t ht

theorem unit_ne_zero {v : Vec3 ℝ} (h : v.norm2 = 1) : v ≠ 0 := by
  rintro rfl
  simp [Vec3.norm2, Vec3.dot] at h

/-- Resolved faces, with the given numbering. -/
def faces (at' : Nat → Option (Vec3 ℝ)) (lines : List ObjLine) : List (Option (Vec3 ℝ) × Option (Vec3 ℝ) × Option (Vec3 ℝ)) :=
  lines.filterMap fun
    | .face i j k => some (at' i, at' j, at' k)
    | _ => none

theorem objTriangles_eq (lines : List ObjLine) :
    objTriangles lines = faces (fun i => if i = 0 then none else (objVertices lines)[i - 1]?) lines := rfl

theorem faces_append (at' : Nat → Option (Vec3 ℝ)) (l m : List ObjLine) : faces at' (l ++ m) = faces at' l ++ faces at' m := by
  unfold faces
  rw [List.filterMap_append]

theorem objVertices_append (l m : List ObjLine) : objVertices (l ++ m) = objVertices l ++ objVertices m := by
  unfold objVertices
  rw [List.filterMap_append]

theorem faces_vertices (at' : Nat → Option (Vec3 ℝ)) (l : List (Vec3 ℝ)) : faces at' (l.map ObjLine.vertex) = [] := by
  induction l with
  | nil => rfl
  | cons v l ih => exact ih

theorem objVertices_vertices (l : List (Vec3 ℝ)) : objVertices (l.map ObjLine.vertex) = l := by
  induction l with
  | nil => rfl
  | cons v l ih => exact congrArg (v :: ·) ih

theorem faces_faces (at' : Nat → Option (Vec3 ℝ)) (o : Nat) (l : List Triangle) :
    faces at' (l.map fun t => ObjLine.face (t.a + 1 + o) (t.b + 1 + o) (t.c + 1 + o)) =
      l.map fun t => (at' (t.a + 1 + o), at' (t.b + 1 + o), at' (t.c + 1 + o)) := by
  induction l with
  | nil => rfl
  | cons v l ih => exact congrArg (_ :: ·) ih

theorem objVertices_faces (o : Nat) (l : List Triangle) :
    objVertices (l.map fun t => ObjLine.face (t.a + 1 + o) (t.b + 1 + o) (t.c + 1 + o)) = [] := by
  induction l with
  | nil => rfl
  | cons v l ih => exact ih

theorem wavefrontObj_vertices (p : Polyhedron) (o : Nat) : objVertices (p.wavefrontObj o) = p.vertices := by
  unfold Polyhedron.wavefrontObj
  rw [objVertices_append, objVertices_append, objVertices_vertices, objVertices_faces, List.append_nil]
  exact List.append_nil _

theorem wavefrontObj_faces (at' : Nat → Option (Vec3 ℝ)) (p : Polyhedron) (o : Nat) :
    faces at' (p.wavefrontObj o) = p.triangles.map fun t => (at' (t.a + 1 + o), at' (t.b + 1 + o), at' (t.c + 1 + o)) := by
  unfold Polyhedron.wavefrontObj
  rw [faces_append, faces_append, faces_vertices, faces_faces]
  rfl

theorem place_eq (pos : Vec3 ℝ) (rot : Mat3) (centre v : Vec3 ℝ) : rot.mulVec v + (pos + rot.mulVec centre) = pos + rot.mulVec (centre + v) := by
  rw [Mat3.mulVec_add]
  apply Vec3.ext <;> simp only [Vec3.add_x, Vec3.add_y, Vec3.add_z] <;> ring

theorem printObj_faces (pos : Vec3 ℝ) (rot : Mat3) : ∀ (parts : List (Polyhedron × Vec3 ℝ)) (W X : List (Vec3 ℝ)) ,
    (∀ c ∈ parts, ValidMesh c.1) →
    faces (fun i => if i = 0 then none else (W ++ objVertices (printObjFrom pos rot W.length parts) ++ X)[i - 1]?) (printObjFrom pos rot W.length parts) =
      parts.flatMap fun c => placedTriangles pos rot c.1 c.2
  | [], W, X, _ => rfl
  | (p, centre) :: parts, W, X, h => by
    have hv := h (p, centre) List.mem_cons_self
    have ih := printObj_faces pos rot parts (W ++ (p.transformed (pos + rot.mulVec centre) rot).vertices) X (fun c hc => h c (List.mem_cons_of_mem _ hc))
    rw [List.length_append] at ih
    rw [printObjFrom]
    rw [objVertices_append, wavefrontObj_vertices, faces_append, wavefrontObj_faces, List.flatMap_cons, ← ih, ← List.append_assoc W]
    congr 1
    unfold placedTriangles
    refine List.map_congr_left fun t ht => ?_
    obtain ⟨a, b, c, h1, h2, h3⟩ := hv t ht
    have key : ∀ (i : Nat) (a : Vec3 ℝ), p.vertices[i]? = some a →
        (if i + 1 + W.length = 0 then none else (W ++ (p.transformed (pos + rot.mulVec centre) rot).vertices ++
          objVertices (printObjFrom pos rot (W.length + (p.transformed (pos + rot.mulVec centre) rot).vertices.length) parts) ++ X)[i + 1 + W.length - 1]?) =
        placedTriangles.corner pos rot p centre i := by
      intro i a hi
      obtain ⟨hlt, _⟩ := List.getElem?_eq_some_iff.mp hi
      have hlt' : i < (p.transformed (pos + rot.mulVec centre) rot).vertices.length := by
        rw [Polyhedron.transformed, List.length_map]; exact hlt
      rw [if_neg (by omega), show i + 1 + W.length - 1 = W.length + i by omega, List.append_assoc, List.append_assoc,
        List.getElem?_append_right (by omega), Nat.add_sub_cancel_left, List.getElem?_append_left hlt', placedTriangles.corner,
        Polyhedron.transformed, List.getElem?_map, hi, Option.map_some, Option.map_some, place_eq]
    show (_, _, _) = (_, _, _)
    rw [key t.a a h1, key t.b b h2, key t.c c h3]

theorem buildPolyhedra_ok {hull : Hull} {n : Nat} : ∀ (gs : List XCGeometry),
    (∀ g ∈ gs, ∃ p, buildPolyhedron hull g n = .ok p) →
    ∃ ps, buildPolyhedra hull n gs = .ok ps ∧ List.Forall₂ (fun g p => buildPolyhedron hull g n = .ok p) gs ps
  | [], _ => ⟨[], rfl, .nil⟩
  | g :: gs, h => by
    obtain ⟨p, e⟩ := h g List.mem_cons_self
    obtain ⟨ps, e1, e2⟩ := buildPolyhedra_ok gs (fun g hg => h g (List.mem_cons_of_mem _ hg))
    exact ⟨p :: ps, by rw [buildPolyhedra, e, Outcome.ok_bind, e1]; rfl, .cons e e2⟩

end Mesh

open Mesh

/-- A tetrahedron with one corner in the origin and the centre inside. -/
noncomputable def Mesh.demoTetrahedron : Polyhedron :=
  ⟨⟨1 / 4, 1 / 4, 1 / 4⟩, [⟨0, 0, 0⟩, ⟨1, 0, 0⟩, ⟨0, 1, 0⟩, ⟨0, 0, 1⟩], [⟨0, 1, 2⟩, ⟨0, 1, 3⟩, ⟨0, 2, 3⟩, ⟨1, 2, 3⟩]⟩

/-- C109: for every number of subdivisions the directions of sampling are unit vectors, those of the axes of coordinates are among them, and
there are `8 * 4 ^ n - 2` of them. -/
theorem C109_sphere (n : Nat) : ∃ points, spherePoints n = .ok points ∧ points.length + 2 = 8 * 4 ^ n ∧ (∀ v ∈ points, v.norm2 = 1) ∧
    (∀ u ∈ axisDirections, u ∈ points) := by
  obtain ⟨r, e, p, l1, l2, u⟩ := subdivide_ok n octahedronTriangles octahedronVertices octahedron_unit octahedron_fine
  refine ⟨r.1, by rw [spherePoints, e]; rfl, ?_, u, fun v hv => p.subset hv⟩
  have h1 : octahedronTriangles.length = 8 := rfl
  have h2 : octahedronVertices.length = 6 := rfl
  rw [h1, h2] at l1
  omega

/-- C109: the mesh of a body lies in the body and reaches as far as the body does in each direction of sampling, so along the axes of
coordinates; its triangles are those of the convex hull, none of them with the normal towards the centre. -/
theorem C109_mesh {hull : Hull} {g : XCGeometry} {B : Vec3 ℝ → Prop} {n : Nat} {points : List (Vec3 ℝ)} (hg : SupportOf g.support B)
    (hp : spherePoints n = .ok points) (hh : IsHull (points.map g.support) (hull (points.map g.support)).1 (hull (points.map g.support)).2) :
    ∃ P, buildPolyhedron hull g n = .ok P ∧ P.center = g.center ∧ (∀ v ∈ P.vertices, B v) ∧
      (∀ u ∈ points, ∃ v ∈ P.vertices, ∀ p, B p → p.dot u ≤ v.dot u) ∧
      (∀ u ∈ axisDirections, ∃ v ∈ P.vertices, ∀ p, B p → p.dot u ≤ v.dot u) ∧
      List.Forall₂ SameTriangle (triples (hull (points.map g.support)).2) P.triangles ∧
      ∀ t ∈ P.triangles, ∃ a b c, Corners P.vertices t a b c ∧ 0 ≤ (normal a b c).dot (a - P.center) := by
  obtain ⟨points', e, -, hu, hax⟩ := C109_sphere n
  have : points = points' := Outcome.ok_inj.mp (hp.symm.trans e)
  subst this
  obtain ⟨ts, f1, f2, f3⟩ := orientAll_ok (center := g.center) _ hh.in_range
  have hfar : ∀ u ∈ points, ∃ v ∈ (hull (points.map g.support)).1, ∀ p, B p → p.dot u ≤ v.dot u := by
    intro u hup
    obtain ⟨v, hv, hle⟩ := hh.furthest u (g.support u) (List.mem_map_of_mem hup)
    exact ⟨v, hv, fun p hB => (hg.furthest u (unit_ne_zero (hu u hup)) p hB).trans hle⟩
  refine ⟨⟨g.center, (hull (points.map g.support)).1, ts⟩, ?_, rfl, ?_, hfar, fun u hx => hfar u (hax u hx), f2, f3⟩
  · rw [buildPolyhedron, hp, Outcome.ok_bind]
    simp only
    rw [decide_eq_true hh.triples, Outcome.require_true, Outcome.ok_bind, f1]
    rfl
  · intro v hv
    obtain ⟨u, hup, rfl⟩ := List.mem_map.mp (hh.some_points v hv)
    exact hg.mem u (unit_ne_zero (hu u hup))

/-- For every body and every number of subdivisions something is a hull (here: all points, with triangles of an octahedron). -/
example (g : XCGeometry) (n : Nat) : ∃ points, spherePoints n = .ok points ∧
    IsHull (points.map g.support) (points.map g.support) (octahedronTriangles.flatMap fun t => [t.a, t.b, t.c]) := by
  obtain ⟨points, e, hl, -, -⟩ := C109_sphere n
  refine ⟨points, e, fun v hv => hv, fun m p hp => ⟨p, hp, le_refl _⟩, rfl, ?_⟩
  intro i hi
  have h1 : 1 ≤ 4 ^ n := Nat.one_le_pow _ _ (by norm_num)
  have h2 : i < 6 := by
    simp [octahedronTriangles] at hi
    omega
  rw [List.length_map]
  omega

/-- C109: the normals point outwards: if all vertices lie on one side of a triangle, and the centre in the hull of the vertices but not in the plane
of the triangle, then the normal points to the other side. -/
theorem C109_outward {hull : Hull} {g : XCGeometry} {n : Nat} {P : Polyhedron} {t : Triangle} {a b c : Vec3 ℝ}
    (h : buildPolyhedron hull g n = .ok P) (ht : t ∈ P.triangles) (hc : Corners P.vertices t a b c) (hs : OneSided P.vertices a b c)
    (hi : InsideHull P.vertices P.center) (hne : (normal a b c).dot (a - P.center) ≠ 0) :
    ∀ v ∈ P.vertices, (normal a b c).dot (v - a) ≤ 0 := by
  have hpos : 0 ≤ (normal a b c).dot (a - P.center) := by
    rw [buildPolyhedron] at h
    obtain ⟨points, h1, h⟩ := Outcome.bind_eq_ok.mp h
    simp only at h
    obtain ⟨_, h2, h⟩ := Outcome.bind_eq_ok.mp h
    obtain ⟨ts, h3, h⟩ := Outcome.bind_eq_ok.mp h
    rw [Outcome.pure_eq, Outcome.ok_inj] at h
    rw [← h] at ht hc ⊢
    have key : ∀ (l : List Nat) (ts : List Triangle), orientAll g.center (hull (points.map g.support)).1 l = .ok ts → ∀ t ∈ ts, ∀ a b c,
        Corners (hull (points.map g.support)).1 t a b c → 0 ≤ (normal a b c).dot (a - g.center) := by
      intro l
      induction l using triples.induct with
      | case1 i j k l ih =>
        intro ts h t ht a b c hc
        rw [orientAll] at h
        obtain ⟨s, g1, h⟩ := Outcome.bind_eq_ok.mp h
        obtain ⟨ss, g2, h⟩ := Outcome.bind_eq_ok.mp h
        rw [Outcome.pure_eq, Outcome.ok_inj] at h
        rw [← h] at ht
        rcases List.mem_cons.mp ht with rfl | ht
        · have hco : ∃ a b c, Corners (hull (points.map g.support)).1 ⟨i, j, k⟩ a b c := by
            rw [orient] at g1
            obtain ⟨a, k1, g1⟩ := Outcome.bind_eq_ok.mp g1
            obtain ⟨b, k2, g1⟩ := Outcome.bind_eq_ok.mp g1
            obtain ⟨c, k3, g1⟩ := Outcome.bind_eq_ok.mp g1
            have inv : ∀ {m : Nat} {v : Vec3 ℝ}, vertexAt (hull (points.map g.support)).1 m = .ok v → (hull (points.map g.support)).1[m]? = some v := by
              intro m v hm
              unfold vertexAt at hm
              split at hm
              · rename_i w hw
                rw [Outcome.ok_inj] at hm
                rw [hw, hm]
              · cases hm
            exact ⟨a, b, c, inv k1, inv k2, inv k3⟩
          obtain ⟨a0, b0, c0, hco⟩ := hco
          obtain ⟨s', e1, -, a1, b1, c1, e2, e3⟩ := orient_ok (center := g.center) hco
          have : t = s' := Outcome.ok_inj.mp (g1.symm.trans e1)
          subst this
          have ea : a = a1 := Option.some_inj.mp (hc.1.symm.trans e2.1)
          have eb : b = b1 := Option.some_inj.mp (hc.2.1.symm.trans e2.2.1)
          have ec : c = c1 := Option.some_inj.mp (hc.2.2.symm.trans e2.2.2)
          rw [ea, eb, ec]
          exact e3
        · exact ih ss g2 t ht a b c hc
      | case2 l hl =>
        intro ts h t ht
        have : orientAll g.center (hull (points.map g.support)).1 l = .ok [] := by
          unfold orientAll
          split
          · rename_i i j k l'
            exact absurd rfl (hl i j k l')
          · rfl
        rw [this, Outcome.ok_inj] at h
        rw [← h] at ht
        cases ht
    exact key _ _ h3 t ht a b c hc
  rcases hs with hs | hs
  · exact hs
  · obtain ⟨v, hv, hle⟩ := hi (-normal a b c)
    have h1 := hs v hv
    exfalso
    apply hne
    have e1 : (normal a b c).dot (a - P.center) = (normal a b c).dot a - P.center.dot (normal a b c) := by
      simp only [Vec3.dot, Vec3.sub_x, Vec3.sub_y, Vec3.sub_z]; ring
    have e2 : (normal a b c).dot (v - a) = v.dot (normal a b c) - (normal a b c).dot a := by
      simp only [Vec3.dot, Vec3.sub_x, Vec3.sub_y, Vec3.sub_z]; ring
    have e3 : ∀ w : Vec3 ℝ, w.dot (-normal a b c) = -w.dot (normal a b c) := by
      intro w; simp only [Vec3.dot, Vec3.neg_x, Vec3.neg_y, Vec3.neg_z]; ring
    rw [e3, e3] at hle
    rw [e2] at h1
    rw [e1] at hpos ⊢
    linarith

/-- A face of an octahedron around the origin. -/
example : Corners octahedronVertices ⟨0, 2, 4⟩ ⟨1, 0, 0⟩ ⟨0, 1, 0⟩ ⟨0, 0, 1⟩ ∧ OneSided octahedronVertices ⟨1, 0, 0⟩ ⟨0, 1, 0⟩ ⟨0, 0, 1⟩ ∧
    InsideHull octahedronVertices 0 ∧ (normal ⟨1, 0, 0⟩ ⟨0, 1, 0⟩ ⟨0, 0, 1⟩).dot (⟨1, 0, 0⟩ - 0) ≠ 0 := by
  refine ⟨⟨rfl, rfl, rfl⟩, Or.inl ?_, ?_, ?_⟩
  · intro v hv
    simp only [octahedronVertices, List.mem_cons, List.not_mem_nil, or_false] at hv
    rcases hv with rfl | rfl | rfl | rfl | rfl | rfl <;> norm_num [normal, Vec3.cross, Vec3.dot]
  · intro n
    rcases le_total 0 n.x with h | h
    · exact ⟨⟨1, 0, 0⟩, by simp [octahedronVertices], by simpa [Vec3.dot] using h⟩
    · exact ⟨⟨-1, 0, 0⟩, by simp [octahedronVertices], by simpa [Vec3.dot] using h⟩
  · norm_num [normal, Vec3.cross, Vec3.dot]

/-- C109: for every shape made of interaction centres the printer has a mesh for each of them, which is a mesh of that part; less than one
subdivision is refused. -/
theorem C109_printer {hull : Hull} {geometry : Nat → XCGeometry} {B : Nat → Vec3 ℝ → Prop} {centres : List (Vec3 ℝ)} {n : Nat}
    (hg : ∀ i, SupportOf (geometry i).support (B i)) (hh : ∀ l, IsHull l (hull l).1 (hull l).2) :
    (n = 0 → ∃ m, createPrinter hull geometry centres n = .throw m) ∧
    (0 < n → ∃ p, createPrinter hull geometry centres n = .ok p ∧ p.centres = (if centres = [] then [0] else centres) ∧
      p.polyhedra.length = p.centres.length ∧
      ∀ i P, p.polyhedra[i]? = some P → ValidMesh P ∧ P.center = (geometry i).center ∧ (∀ v ∈ P.vertices, B i v) ∧
        ∀ u ∈ axisDirections, ∃ v ∈ P.vertices, ∀ q, B i q → q.dot u ≤ v.dot u) := by
  constructor
  · rintro rfl
    exact ⟨_, rfl⟩
  · intro hn
    obtain ⟨points, e, -⟩ := C109_sphere n
    obtain ⟨cs, hcs⟩ : ∃ cs, cs = if centres.isEmpty then [0] else centres := ⟨_, rfl⟩
    have hcs' : cs = if centres = [] then [0] else centres := by rw [hcs]; cases centres <;> rfl
    have hne : 0 < cs.length := by rw [hcs]; cases centres <;> simp
    obtain ⟨ps, e1, e2⟩ := buildPolyhedra_ok (hull := hull) (n := n) ((List.range cs.length).map geometry) (by
      intro g hgm
      obtain ⟨i, -, rfl⟩ := List.mem_map.mp hgm
      obtain ⟨P, k, -⟩ := C109_mesh (hull := hull) (hg i) e (hh _)
      exact ⟨P, k⟩)
    have hl : ps.length = cs.length := by
      have := e2.length_eq
      rw [List.length_map, List.length_range] at this
      exact this.symm
    refine ⟨⟨ps, cs⟩, ?_, hcs', hl, ?_⟩
    · rw [createPrinter, decide_eq_true (show n ≥ 1 from hn), Outcome.require_true, Outcome.ok_bind]
      simp only
      rw [← hcs, Printer.make, e1, Outcome.ok_bind]
      have h1 : ((List.range cs.length).map geometry).isEmpty = false := by
        cases hr : (List.range cs.length).map geometry with
        | nil =>
          have := congrArg List.length hr
          simp at this
          rw [this] at hne
          cases hne
        | cons a l => rfl
      rw [h1, Bool.not_false, Outcome.require_true, Outcome.ok_bind, decide_eq_true (by simp), Outcome.require_true]
      rfl
    · intro i P hi
      obtain ⟨hlt, hP⟩ := List.getElem?_eq_some_iff.mp hi
      have hlt : i < ps.length := hlt
      have hb := (List.forall₂_iff_get.mp e2).2 i (by simp; omega) hlt
      simp only [List.get_eq_getElem, List.getElem_map, List.getElem_range] at hb
      obtain ⟨P', k1, k2, k3, -, k5, -, k7⟩ := C109_mesh (hull := hull) (hg i) e (hh _)
      have : P = P' := by
        rw [hP] at hb
        exact Outcome.ok_inj.mp (hb.symm.trans k1)
      subst this
      refine ⟨fun t ht => ?_, k2, k3, k5⟩
      obtain ⟨a, b, c, h1, -⟩ := k7 t ht
      exact ⟨a, b, c, h1⟩

/-- Something is a hull of all lists of points. -/
example : ∀ l : List (Vec3 ℝ), IsHull l l (if 3 ≤ l.length then [0, 1, 2] else []) := by
  intro l
  refine ⟨fun v hv => hv, fun n p hp => ⟨p, hp, le_refl _⟩, ?_, ?_⟩
  · split <;> rfl
  · intro i hi
    split at hi
    · simp only [List.mem_cons, List.not_mem_nil, or_false] at hi
      omega
    · cases hi

/-- C109: a program which reads the OBJ file sees exactly the triangles of all parts of the molecule, rotated and moved. -/
theorem C109_obj {p : Printer} {pos : Vec3 ℝ} {rot : Mat3} (h : ∀ P ∈ p.polyhedra, ValidMesh P) :
    objTriangles (p.printObj pos rot) = (p.polyhedra.zip p.centres).flatMap fun c => placedTriangles pos rot c.1 c.2 := by
  have := printObj_faces pos rot (p.polyhedra.zip p.centres) [] [] (fun c hc => h c.1 (List.of_mem_zip hc).1)
  rw [objTriangles_eq, Printer.printObj]
  rw [List.nil_append, List.append_nil] at this
  exact this

/-- Two meshes, one of which is a tetrahedron and the other one an octahedron. -/
example : ∀ P ∈ [demoTetrahedron, ⟨0, octahedronVertices, octahedronTriangles⟩], ValidMesh P := by
  intro P hP t ht
  simp only [List.mem_cons, List.not_mem_nil, or_false] at hP
  rcases hP with rfl | rfl
  · simp only [demoTetrahedron, List.mem_cons, List.not_mem_nil, or_false] at ht
    rcases ht with rfl | rfl | rfl | rfl <;> exact ⟨_, _, _, rfl, rfl, rfl⟩
  · obtain ⟨a, b, c, h, -⟩ := octahedron_fine t ht
    exact ⟨a, b, c, h⟩

/-- C109: Mathematica shows exactly the triangles of all parts of the molecule, rotated and moved. -/
theorem C109_wolfram {p : Printer} {pos : Vec3 ℝ} {rot : Mat3} :
    (p.printWolfram pos rot).map wolframTriangles = (p.polyhedra.zip p.centres).map fun c => placedTriangles pos rot c.1 c.2 := by
  rw [Printer.printWolfram, List.map_map]
  refine List.map_congr_left fun c hc => ?_
  simp only [Function.comp, wolframTriangles, Polyhedron.graphicsComplex, placedTriangles, List.map_map]
  refine List.map_congr_left fun t ht => ?_
  have key : ∀ i : Nat, wolframTriangles.pointNo ⟨⟨c.1.vertices, c.1.triangles.map fun t => ⟨t.a + 1, t.b + 1, t.c + 1⟩⟩, rot, pos + rot.mulVec c.2⟩ (i + 1) =
      placedTriangles.corner pos rot c.1 c.2 i := by
    intro i
    rw [wolframTriangles.pointNo, if_neg (by omega), placedTriangles.corner, Nat.add_sub_cancel]
    congr 1
    funext v
    exact place_eq pos rot c.2 v
  simp only [Function.comp, key]

/-- C109: the volume of a mesh does not change if it is moved, or rotated and its centre is the origin. -/
theorem C109_volume {P : Polyhedron} {pos : Vec3 ℝ} {rot : Mat3} (h : P.center = 0 ∧ ProperRotation rot ∨ rot = 1) :
    (P.transformed pos rot).volume = P.volume := by
  have hd : rot.det = 1 := by
    rcases h with h | rfl
    · exact h.2.2
    · simp [Mat3.one_def, Mat3.one, Mat3.det]
  have hcen : ∀ v, rot.mulVec v + pos - (P.center + pos) = rot.mulVec (v - P.center) := by
    intro v
    rcases h with h | rfl
    · rw [h.1]
      have e : v - (0 : Vec3 ℝ) = v := sub_zero v
      rw [e, zero_add, add_sub_cancel_right]
    · rw [Mat3.one_mulVec, Mat3.one_mulVec, add_sub_add_right_eq_sub]
  have hdet : ∀ a b c : Vec3 ℝ, ((rot.mulVec a).cross (rot.mulVec b)).dot (rot.mulVec c) = (a.cross b).dot c := by
    intro a b c
    have : ((rot.mulVec a).cross (rot.mulVec b)).dot (rot.mulVec c) = rot.det * (a.cross b).dot c := by
      simp only [Mat3.mulVec, Vec3.cross, Vec3.dot, Mat3.det]
      ring
    rw [this, hd, one_mul]
  have hat : ∀ i, vertexAt (P.transformed pos rot).vertices i = (vertexAt P.vertices i >>= fun v => .ok (rot.mulVec v + pos)) := by
    intro i
    unfold vertexAt Polyhedron.transformed
    simp only [List.getElem?_map]
    cases P.vertices[i]? <;> rfl
  have hsub : ∀ a c : Vec3 ℝ, rot.mulVec c + pos - (rot.mulVec a + pos) = rot.mulVec (c - a) := by
    intro a c
    rw [add_sub_add_right_eq_sub, Mat3.mulVec_sub]
  have htet : ∀ a b c : Vec3 ℝ, tetrahedron (P.center + pos) (rot.mulVec a + pos) (rot.mulVec b + pos) (rot.mulVec c + pos) = tetrahedron P.center a b c := by
    intro a b c
    unfold tetrahedron
    rw [hsub, hsub, hcen, hdet]
  unfold Polyhedron.volume
  have key : ∀ ts : List Triangle, volumeOf (P.center + pos) (P.transformed pos rot).vertices ts = volumeOf P.center P.vertices ts := by
    intro ts
    induction ts with
    | nil => rfl
    | cons t ts ih =>
      simp only [volumeOf, hat]
      rw [ih]
      cases vertexAt P.vertices t.a with
      | ok a =>
        cases vertexAt P.vertices t.b with
        | ok b =>
          cases vertexAt P.vertices t.c with
          | ok c => simp only [Outcome.ok_bind, htet]
          | throw m => rfl
          | ub => rfl
          | diverge => rfl
        | throw m => rfl
        | ub => rfl
        | diverge => rfl
      | throw m => rfl
      | ub => rfl
      | diverge => rfl
  exact key P.triangles

/-- C109 is violated: the volume changes if a mesh is rotated about the origin by half a turn, because its centre stays where it was. -/
theorem C109_volume_violated : ∃ (P : Polyhedron) (rot : Mat3), ProperRotation rot ∧ InsideHull P.vertices P.center ∧ P.volume = .ok (1 / 6) ∧
    (P.transformed 0 rot).volume = .ok (1 / 3) := by
  refine ⟨demoTetrahedron, Mat3.diag (-1) (-1) 1, ⟨?_, ?_⟩, ?_, ?_, ?_⟩
  · apply Mat3.ext <;> apply Vec3.ext <;> simp [Mat3.mul_def, Mat3.mul, Mat3.diag, Mat3.transpose, Mat3.c0, Mat3.c1, Mat3.c2, Mat3.one_def, Mat3.one, Vec3.dot]
  · simp [Mat3.diag, Mat3.det]
  · intro n
    by_contra hc
    push Not at hc
    have h0 := hc ⟨0, 0, 0⟩ (by simp [demoTetrahedron])
    have h1 := hc ⟨1, 0, 0⟩ (by simp [demoTetrahedron])
    have h2 := hc ⟨0, 1, 0⟩ (by simp [demoTetrahedron])
    have h3 := hc ⟨0, 0, 1⟩ (by simp [demoTetrahedron])
    simp only [demoTetrahedron, Vec3.dot] at h0 h1 h2 h3
    linarith
  · simp [Polyhedron.volume, volumeOf, demoTetrahedron, vertexAt, tetrahedron, Vec3.cross, Vec3.dot]
    norm_num [abs_of_pos, abs_of_neg]
  · simp [Polyhedron.volume, Polyhedron.transformed, volumeOf, demoTetrahedron, vertexAt, tetrahedron, Vec3.cross, Vec3.dot, Mat3.mulVec, Mat3.diag]
    norm_num [abs_of_pos, abs_of_neg]

end Rampack
