import Verif.Frontend.ShapeClasses
import Verif.Frontend.ShapeExprSpec
/-
What expressions of shapes mean, after /repo/docs/shapes.md and the checks in constructors: a relation between an expression and the shape, apart from the way in
which matchers work.
-/
namespace Rampack.ShapeExpr.Spec

open Pyon Pyon.Spec Rampack.Input.Spec Rampack.Shapes

/-- A number which is not negative. -/
def IsNonNegative (n : Node ℝ) (x : ℝ) : Prop := IsNumber n x ∧ 0 ≤ x

/-- An integer not less than two. -/
def IsMany (n : Node ℝ) (k : Nat) : Prop := n = .int k ∧ 2 ≤ k

/-- The interaction of spheres. -/
inductive IsInteraction : Node ℝ → Interaction → Prop where
  | hard {n : Node ℝ} : Call n "hard" [] [] → IsInteraction n .hard
  | lj {n a b : Node ℝ} {e s : ℝ} : Call n "lj" [("epsilon", none), ("sigma", none)] [a, b] → IsPositive a e → IsPositive b s → IsInteraction n (.lj e s)
  | wca {n a b : Node ℝ} {e s : ℝ} : Call n "wca" [("epsilon", none), ("sigma", none)] [a, b] → IsPositive a e → IsPositive b s → IsInteraction n (.wca e s)
  | squareInverseCore {n a b : Node ℝ} {e s : ℝ} : Call n "square_inverse_core" [("epsilon", none), ("sigma", none)] [a, b] → IsPositive a e → IsPositive b s →
      IsInteraction n (.squareInverseCore e s)

/-- Spheres are hard unless it is said otherwise. -/
def hardNode : Option (Node ℝ) := some (.dataclass "hard".toList [] [])

/-- An axis, or none: a vector with a component which is not too small, of whatever length; the axis is of unit length. -/
inductive IsAxis : Node ℝ → Option (Vec3 ℝ) → Prop where
  | none : IsAxis .none none
  | some {n : Node ℝ} {v a : Vec3 ℝ} : IsVec n v → 1 / 10 ^ 10 < |v.x| ∨ 1 / 10 ^ 10 < |v.y| ∨ 1 / 10 ^ 10 < |v.z| → a = (1 / v.norm) • v → IsAxis n (some a)

/-- Named points: a dictionary of vectors, sorted by names; of values of the same name the last one counts. -/
def IsPoints (n : Node ℝ) (l : List (Text × Vec3 ℝ)) : Prop :=
  ∃ es, n = .dictionary es ∧ Ordered l ∧ (∀ k m, Given es k m → ∃ v, IsVec m v ∧ (k, v) ∈ l) ∧ ∀ k v, (k, v) ∈ l → ∃ m, Given es k m ∧ IsVec m v

/-- The arguments `volume`, `geometric_center`, `primary_axis`, `secondary_axis` and `named_points`: the secondary axis needs the primary one, and the matcher
takes axes whose scalar product is less than this. -/
structure IsFrame (a b c d e : Node ℝ) (f : Frame) : Prop where
  volume : IsPositive a f.volume
  center : IsVec b f.center
  primary : IsAxis c f.primary
  secondary : IsAxis d f.secondary
  both : f.secondary.isSome → f.primary.isSome
  perpendicular : ∀ p q, f.primary = some p → f.secondary = some q → p.dot q < 1 / 10 ^ 12
  points : IsPoints e f.points

/-- The declaration of these arguments. -/
def frameSignature : List (String × Option (Node ℝ)) :=
  [("volume", none), ("geometric_center", zeros), ("primary_axis", some .none), ("secondary_axis", some .none), ("named_points", some (.dictionary []))]

/-- A place, or many places. -/
inductive IsPlaces : Node ℝ → List (Vec3 ℝ) → Prop where
  | one {n : Node ℝ} {v : Vec3 ℝ} : IsVec n v → IsPlaces n [v]
  | many {ns : List (Node ℝ)} {l : List (Vec3 ℝ)} : List.Forall₂ IsVec ns l → l ≠ [] → IsPlaces (.array ns) l

/-- Spheres of the same radius. -/
inductive IsBalls (n : Node ℝ) : List SphereData → Prop where
  | mk {a b : Node ℝ} {ps : List (Vec3 ℝ)} {r : ℝ} : Call n "sphere" [("pos", none), ("r", none)] [a, b] → IsPlaces a ps → IsPositive b r →
      IsBalls n (ps.map fun p => ⟨p, r⟩)

/-- Spheres. -/
inductive IsSpheres : Node ℝ → List SphereData → Prop where
  | one {n : Node ℝ} {l : List SphereData} : IsBalls n l → IsSpheres n l
  | many {ns : List (Node ℝ)} {ls : List (List SphereData)} : List.Forall₂ IsBalls ns ls → ls ≠ [] → IsSpheres (.array ns) ls.flatten

/-- The rod with these ends. -/
noncomputable def rodBetween (r : ℝ) (a b : Vec3 ℝ) : RodData :=
  ⟨(1 / 2 : ℝ) • (a + b), (1 / 2 : ℝ) • (b - a), ((1 / 2 : ℝ) • (b - a)).norm, r, r + ((1 / 2 : ℝ) • (b - a)).norm⟩

/-- A chain of rods of the same radius. -/
inductive IsChain (n : Node ℝ) : List RodData → Prop where
  | mk {a : List (Node ℝ)} {b : Node ℝ} {ps : List (Vec3 ℝ)} {r : ℝ} : Call n "sc" [("chain", none), ("r", none)] [.array a, b] → List.Forall₂ IsVec a ps →
      2 ≤ ps.length → IsPositive b r → IsChain n (List.zipWith (rodBetween r) ps ps.tail)

/-- Rods. -/
inductive IsRods : Node ℝ → List RodData → Prop where
  | one {n : Node ℝ} {l : List RodData} : IsChain n l → IsRods n l
  | many {ns : List (Node ℝ)} {ls : List (List RodData)} : List.Forall₂ IsChain ns ls → ls ≠ [] → IsRods (.array ns) ls.flatten

/-- Names are not taken: the shape names the points of its `n` parts by a letter and a number. -/
def Free (letters : List String) (n : Nat) (f : Frame) : Prop := ∀ k v, (k, v) ∈ f.points → ∀ s ∈ letters, ∀ i < n, k ≠ (s ++ toString i).toList

/-- Shapes. -/
inductive IsSpecies (n : Node ℝ) : Species → Prop where
  | sphere {a b : Node ℝ} {r : ℝ} {i : Interaction} : Call n "sphere" [("r", none), ("interaction", hardNode)] [a, b] → IsPositive a r → IsInteraction b i →
      IsSpecies n (.sphere r i)
  | kmer {a b c d : Node ℝ} {k : Nat} {r distance : ℝ} {i : Interaction} :
      Call n "kmer" [("k", none), ("r", none), ("distance", none), ("interaction", hardNode)] [a, b, c, d] → IsMany a k → IsPositive b r → IsPositive c distance →
      IsInteraction d i → IsSpecies n (.kmer k r distance i)
  | polysphereBanana {a b c d e : Node ℝ} {k : Nat} {r arcR angle : ℝ} {i : Interaction} :
      Call n "polysphere_banana" [("sphere_n", none), ("sphere_r", none), ("arc_r", none), ("arc_angle", none), ("interaction", hardNode)] [a, b, c, d, e] →
      IsMany a k → IsPositive b r → IsPositive c arcR → r ≤ arcR → IsPositive d angle → angle < 2 * Real.pi → IsInteraction e i →
      IsSpecies n (.polysphereBanana arcR angle k r i)
  | polysphereLollipop {a b c d e : Node ℝ} {k : Nat} {stickR tipR p q : ℝ} :
      Call n "polysphere_lollipop" [("sphere_n", none), ("stick_r", none), ("tip_r", none), ("stick_penetration", some (.int 0)), ("tip_penetration", some (.int 0))]
        [a, b, c, d, e] → IsMany a k → IsPositive b stickR → IsPositive c tipR → IsNonNegative d p → p < 2 * stickR → IsNonNegative e q → q < 2 * stickR → q < 2 * tipR →
      IsSpecies n (.polysphereLollipop k stickR tipR p q)
  | polysphereWedge {a b c d : Node ℝ} {k : Nat} {bottomR topR p : ℝ} :
      Call n "polysphere_wedge" [("sphere_n", none), ("bottom_r", none), ("top_r", none), ("penetration", some (.int 0))] [a, b, c, d] → IsMany a k →
      IsPositive b bottomR → IsPositive c topR → IsNonNegative d p → p < 2 * bottomR → p < 2 * topR → IsSpecies n (.polysphereWedge k bottomR topR p)
  | spherocylinder {a b : Node ℝ} {l r : ℝ} : Call n "spherocylinder" [("l", none), ("r", none)] [a, b] → IsPositive a l → IsPositive b r →
      IsSpecies n (.spherocylinder l r)
  | polyspherocylinderBanana {a b c d e : Node ℝ} {k parts : Nat} {r arcR angle : ℝ} :
      Call n "polyspherocylinder_banana" [("segment_n", none), ("sc_r", none), ("arc_r", none), ("arc_angle", none), ("subdivisions", some (.int 1))] [a, b, c, d, e] →
      IsMany a k → IsPositive b r → IsPositive c arcR → IsPositive d angle → angle < Real.pi → IsCount e parts →
      (k = 2 ∨ r ≤ arcR * Real.cos (angle / k / 2) * (1 + 1 / 10 ^ 12)) → IsSpecies n (.polyspherocylinderBanana arcR angle k r parts)
  | smoothWedge {a b c d : Node ℝ} {parts : Nat} {l bottomR topR : ℝ} :
      Call n "smooth_wedge" [("l", none), ("bottom_r", none), ("top_r", none), ("subdivisions", some (.int 1))] [a, b, c, d] → IsPositive a l → IsPositive b bottomR →
      IsPositive c topR → IsCount d parts → |bottomR - topR| ≤ l → (2 ≤ parts → |bottomR - topR| < l) → IsSpecies n (.smoothWedge bottomR topR l parts)
  | polysphere {s a b c d e i : Node ℝ} {l : List SphereData} {f : Frame} {I : Interaction} :
      Call n "polysphere" ([("spheres", none)] ++ frameSignature ++ [("interaction", hardNode)]) [s, a, b, c, d, e, i] → IsSpheres s l → IsFrame a b c d e f →
      Free ["s"] l.length f → IsInteraction i I → IsSpecies n (.polysphere l f I)
  | polyspherocylinder {s a b c d e : Node ℝ} {l : List RodData} {f : Frame} :
      Call n "polyspherocylinder" ([("scs", none)] ++ frameSignature) [s, a, b, c, d, e] → IsRods s l → IsFrame a b c d e f → Free ["o", "b", "e"] l.length f →
      IsSpecies n (.polyspherocylinder l f)
  | genericConvex {s a b c d e : Node ℝ} {g : Convex} {f : Frame} :
      Call n "generic_convex" ([("geometry", none)] ++ frameSignature) [s, a, b, c, d, e] → IsConvex s g → IsFrame a b c d e f → IsSpecies n (.genericConvex g f)
  | polyhedralWedge {a b c d e g : Node ℝ} {parts : Nat} {bx bz tx ty l : ℝ} :
      Call n "polyhedral_wedge" [("bottom_ax", none), ("bottom_ay", none), ("top_ax", none), ("top_ay", none), ("l", none), ("subdivisions", some (.int 1))]
        [a, b, c, d, e, g] → IsNonNegative a bx → IsNonNegative b bz → IsNonNegative c tx → IsNonNegative d ty → (0 < tx ∧ 0 < bz) ∨ (0 < ty ∧ 0 < bx) →
      IsPositive e l → IsCount g parts → IsSpecies n (.polyhedralWedge bx bz tx ty l parts)

end Rampack.ShapeExpr.Spec
