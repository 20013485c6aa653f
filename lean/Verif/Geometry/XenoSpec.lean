import Verif.Geometry.Xeno
import Verif.Packing.UpscaleSpec
/-
Bodies as sets of points, their support functions, and when two bodies are apart or near.
-/
namespace Rampack.Spec

open Rampack Packing

/-- The function gives, for every direction, a point of the body which lies the furthest in this direction. -/
structure SupportOf (support : Vec3 ℝ → Vec3 ℝ) (B : Vec3 ℝ → Prop) : Prop where
  mem : ∀ n, n ≠ 0 → B (support n)
  furthest : ∀ n, n ≠ 0 → ∀ p, B p → p.dot n ≤ (support n).dot n

/-- With two points the body has the whole segment between them. -/
def ConvexBody (B : Vec3 ℝ → Prop) : Prop := ∀ p q (c : ℝ), B p → B q → 0 ≤ c → c ≤ 1 → B (c • p + (1 - c) • q)

/-- The body rotated and then moved. -/
def Placed (B : Vec3 ℝ → Prop) (rot : Mat3) (pos p : Vec3 ℝ) : Prop := ∃ q, B q ∧ p = rot.mulVec q + pos

/-- Some plane has the two bodies on its two sides, but for a slab of thickness `δ`: in the direction `n` nothing of `B` lies
ahead of anything of `A` by more than `δ`. -/
def ApartBut (A B : Vec3 ℝ → Prop) (δ : ℝ) : Prop := ∃ n : Vec3 ℝ, n.norm2 = 1 ∧ ∀ a b, A a → B b → (b - a).dot n ≤ δ

/-- The bodies have points at most `δ` apart. -/
def Near (A B : Vec3 ℝ → Prop) (δ : ℝ) : Prop := ∃ a b, A a ∧ B b ∧ (b - a).norm2 ≤ δ ^ 2

/-- The bodies are apart by `δ` or more. -/
def FarApart (A B : Vec3 ℝ → Prop) (δ : ℝ) : Prop := ∀ a b, A a → B b → δ ^ 2 ≤ (b - a).norm2

/-- No point of the body is further than `r` from its own origin. -/
def CoveredBy (B : Vec3 ℝ → Prop) (r : ℝ) : Prop := ∀ p, B p → p.norm2 ≤ r ^ 2

/-- The ball of radius `r` about the origin lies in the body; a radius of zero promises nothing. -/
def Inscribed (B : Vec3 ℝ → Prop) (r : ℝ) : Prop := 0 < r → ∀ p, p.norm2 ≤ r ^ 2 → B p

/-- What the collision test relies on about a body `B`: the geometry gives its furthest points, its centre is one of its
points, and the radii are those of a ball around it and a ball inside it. -/
structure Describes (g : XCGeometry) (B : Vec3 ℝ → Prop) : Prop where
  support : SupportOf g.support B
  convex : ConvexBody B
  center : B g.center
  circumsphere_nonneg : 0 ≤ g.circumsphereRadius
  insphere_nonneg : 0 ≤ g.insphereRadius
  covered : CoveredBy B g.circumsphereRadius
  inscribed : Inscribed B g.insphereRadius

/-- The new point `v4`, the vertex `v3` of the portal and another vertex lie in one plane with the origin and the centre `v0`. -/
def TieAt (v0 v1 v2 v3 v4 : Vec3 ℝ) : Prop :=
  v4.cross v0 ≠ 0 ∧ v3.dot (v4.cross v0) = 0 ∧ (v1.dot (v4.cross v0) = 0 ∨ v2.dot (v4.cross v0) = 0)

/-- The refinement of the portal comes across a tie. -/
def RefineTies (sup : Vec3 ℝ → Vec3 ℝ) (tol : ℝ) (v0 : Vec3 ℝ) : ℕ → Vec3 ℝ → Vec3 ℝ → Vec3 ℝ → Prop
  | 0, _, _, _ => False
  | fuel + 1, v1, v2, v3 =>
    ¬ (Xeno.portalNormal v1 v2 v3).dot v1 ≥ 0 ∧
    Xeno.refinedToMiss tol v3 (sup (Xeno.portalNormal v1 v2 v3)) (Xeno.portalNormal v1 v2 v3) = false ∧
    (TieAt v0 v1 v2 v3 (sup (Xeno.portalNormal v1 v2 v3)) ∨
      RefineTies sup tol v0 fuel (Xeno.nextPortal v0 v1 v2 v3 (sup (Xeno.portalNormal v1 v2 v3))).1
        (Xeno.nextPortal v0 v1 v2 v3 (sup (Xeno.portalNormal v1 v2 v3))).2.1
        (Xeno.nextPortal v0 v1 v2 v3 (sup (Xeno.portalNormal v1 v2 v3))).2.2)

/-- The search, whichever portal it starts to refine, comes across a tie. -/
def PortalTies (sup : Vec3 ℝ → Vec3 ℝ) (tol : ℝ) (v0 : Vec3 ℝ) : ℕ → Vec3 ℝ → Vec3 ℝ → Vec3 ℝ → Prop
  | 0, _, _, _ => False
  | fuel + 1, v1, v2, n =>
    if (v1.cross (sup n)).dot v0 < 0 then PortalTies sup tol v0 fuel v1 (sup n) ((v1 - v0).cross (sup n - v0))
    else if ((sup n).cross v2).dot v0 < 0 then PortalTies sup tol v0 fuel (sup n) v2 ((sup n - v0).cross (v2 - v0))
    else RefineTies sup tol v0 fuel v1 v2 (sup n)

/-- The test of the two placed bodies comes across a tie. -/
def Ties (fuel : ℕ) (e1 e2 : XC.Entry) (tol : ℝ) : Prop :=
  let sup := Xeno.differenceSupport e1 e2
  let v0 := e2.center - e1.center
  let v1 := sup (-v0)
  let v2 := sup (v1.cross v0)
  PortalTies sup tol v0 fuel v1 v2 ((v1 - v0).cross (v2 - v0))

end Rampack.Spec
