import Verif.Geometry.XenoBuilderSpec
import Verif.Geometry.XenoViolations
import Verif.Geometry.RotationProps
/-
Lemmas about the builder of convex bodies.
-/
namespace Rampack

open Packing Spec Xeno XC XCBuilder

namespace XCBuilder

/-- Footballs of length equal to the diameter are an exception. -/
def Slim : Block → Prop
  | .football r l => 2 * r < l
  | _ => True

/-- What is true of the geometry of a block. -/
structure BlockFacts (b : Block) (g : XCGeometry) : Prop where
  furthest : ∀ n, n ≠ 0 → BlockFine b n → BlockBody b (g.support n) ∧ ∀ p, BlockBody b p → p.dot n ≤ (g.support n).dot n
  convex : ConvexBody (BlockBody b)
  center : BlockBody b g.center
  origin : BlockBody b 0
  circumsphere_nonneg : 0 ≤ g.circumsphereRadius
  insphere_nonneg : 0 ≤ g.insphereRadius
  covered : Slim b → CoveredBy (BlockBody b) g.circumsphereRadius
  inscribed : Slim b → Inscribed (BlockBody b) g.insphereRadius

theorem facts_of_describes {b : Block} {g : XCGeometry} (h : Describes g (BlockBody b) ∧ HasOrigin (BlockBody b)) : BlockFacts b g :=
  ⟨fun n hn _ => ⟨h.1.support.mem n hn, h.1.support.furthest n hn⟩, h.1.convex, h.1.center, h.2, h.1.circumsphere_nonneg, h.1.insphere_nonneg,
    fun _ => h.1.covered, fun _ => h.1.inscribed⟩

theorem zero_lt : ZERO < 1 / 10 ^ 12 := by unfold ZERO; norm_num

theorem create_facts {b : Block} {g : XCGeometry} (h : create b = .ok g) : BlockFacts b g ∧ BlockSizes b := by
  cases b with
  | segment l =>
    obtain ⟨_, h1, h⟩ := Outcome.bind_eq_ok.mp h
    have hs : 0 < l := of_decide_eq_true (Outcome.require_eq_ok.mp h1)
    exact ⟨facts_of_describes (b := .segment l) (C75_segment h), hs⟩
  | rectangle ax ay =>
    obtain ⟨_, h1, h⟩ := Outcome.bind_eq_ok.mp h
    have hs : 0 < ax ∧ 0 < ay := of_decide_eq_true (Outcome.require_eq_ok.mp h1)
    exact ⟨facts_of_describes (b := .rectangle ax ay) (C75_rectangle h), hs⟩
  | cuboid ax ay az =>
    obtain ⟨_, h1, h⟩ := Outcome.bind_eq_ok.mp h
    have hs : 0 < ax ∧ 0 < ay ∧ 0 < az := of_decide_eq_true (Outcome.require_eq_ok.mp h1)
    exact ⟨facts_of_describes (b := .cuboid ax ay az) (C75_cuboid h), hs⟩
  | sphere r =>
    obtain ⟨_, h1, h⟩ := Outcome.bind_eq_ok.mp h
    have hs : 0 < r := of_decide_eq_true (Outcome.require_eq_ok.mp h1)
    exact ⟨facts_of_describes (b := .sphere r) (C75_sphere h), hs⟩
  | ellipsoid rx ry rz =>
    obtain ⟨_, h1, h⟩ := Outcome.bind_eq_ok.mp h
    have hs : 0 < rx ∧ 0 < ry ∧ 0 < rz := of_decide_eq_true (Outcome.require_eq_ok.mp h1)
    exact ⟨facts_of_describes (b := .ellipsoid rx ry rz) (C75_ellipsoid h), hs⟩
  | disk r =>
    obtain ⟨_, h1, h⟩ := Outcome.bind_eq_ok.mp h
    have hr : 0 < r := of_decide_eq_true (Outcome.require_eq_ok.mp h1)
    have hd := C75_disk_partial h
    have hc : g.circumsphereRadius = r := by obtain ⟨_, rfl⟩ := require_pure h; rfl
    obtain ⟨_, _, _, k1, k2, k3, k4, k5⟩ := hd 0
    refine ⟨⟨fun n _ hf => ⟨(hd n).1, (hd n).2.2.1 (fun hc => hf ⟨hc.1.trans zero_lt, hc.2.trans zero_lt⟩)⟩, k1, k2, k5, ?_, k4.ge, fun _ => k3, fun _ h' => ?_⟩, hr⟩
    · rw [hc]; exact hr.le
    · rw [k4] at h'; exact absurd h' (lt_irrefl _)
  | ellipse rx ry =>
    obtain ⟨_, h1, h⟩ := Outcome.bind_eq_ok.mp h
    have hr : 0 < rx ∧ 0 < ry := of_decide_eq_true (Outcome.require_eq_ok.mp h1)
    have hd := C75_ellipse_partial h
    have hc : 0 ≤ g.circumsphereRadius := by obtain ⟨_, rfl⟩ := require_pure h; exact le_max_right _ _
    obtain ⟨_, _, _, k1, k2, k3, k4, k5⟩ := hd 0
    refine ⟨⟨fun n _ hf => ⟨(hd n).1, (hd n).2.2.1 (fun hc => hf ⟨hc.1.trans zero_lt, hc.2.trans zero_lt⟩)⟩, k1, k2, k5, hc, k4.ge, fun _ => k3, fun _ h' => ?_⟩, hr⟩
    rw [k4] at h'; exact absurd h' (lt_irrefl _)
  | saucer r l =>
    obtain ⟨_, h1, h⟩ := Outcome.bind_eq_ok.mp h
    obtain ⟨hr, hl⟩ : 0 < r ∧ 0 < l := of_decide_eq_true (Outcome.require_eq_ok.mp h1)
    obtain ⟨_, h2, h⟩ := Outcome.bind_eq_ok.mp h
    have hlr : l ≤ 2 * r := of_decide_eq_true (Outcome.require_eq_ok.mp h2)
    have hd := C75_saucer_partial (half_pos hl) h
    obtain ⟨k0, k1, k2, k3, k4, k5⟩ := hd
    have hc : g.circumsphereRadius = r ∧ g.insphereRadius = l / 2 := by
      obtain ⟨_, _, h⟩ := Outcome.bind_eq_ok.mp h
      obtain ⟨_, rfl⟩ := require_pure h; exact ⟨rfl, rfl⟩
    refine ⟨⟨fun n hn hf => k0 n hn (fun hc => hf ⟨hc.1.1.trans zero_lt, hc.1.2.trans zero_lt⟩), k1, k2, k5, ?_, ?_, fun _ => k3, fun _ => k4⟩, hr, hl, hlr⟩
    · rw [hc.1]; exact hr.le
    · rw [hc.2]; exact (half_pos hl).le
  | football r l =>
    obtain ⟨_, h1, h⟩ := Outcome.bind_eq_ok.mp h
    obtain ⟨hl, hr⟩ : 0 < l ∧ 0 < r := of_decide_eq_true (Outcome.require_eq_ok.mp h1)
    obtain ⟨_, h2, h⟩ := Outcome.bind_eq_ok.mp h
    have hlr : 2 * r ≤ l := of_decide_eq_true (Outcome.require_eq_ok.mp h2)
    refine ⟨?_, hr, hl, hlr⟩
    have hg : g = ⟨footballSupport (l / 2) r, 0, l / 2, r⟩ := by
      obtain ⟨_, _, h⟩ := Outcome.bind_eq_ok.mp h
      obtain ⟨_, rfl⟩ := require_pure h; rfl
    have ho : FootballBody (l / 2) r 0 := by
      have hR := curvature_ge (h := l / 2) hr
      have hk : 0 ≤ curvature (l / 2) r - r := by linarith
      unfold FootballBody
      rw [← curvature_eq hr.ne']
      simp only [Vec3.zero_x, Vec3.zero_y, Vec3.zero_z]
      norm_num
      nlinarith
    refine ⟨fun n hn hf => ?_, ?_, ?_, ho, ?_, ?_, fun hs => ?_, fun hs => ?_⟩
    · have := (C75_football_partial (by have : 2 * r < l := hf; linarith) h).1
      exact ⟨this.support.mem n hn, this.support.furthest n hn⟩
    · have hR := curvature_ge (h := l / 2) hr
      have hk : 0 ≤ curvature (l / 2) r - r := by linarith
      show ConvexBody (FootballBody (l / 2) r)
      unfold FootballBody
      rw [← curvature_eq hr.ne']
      exact football_convex hk
    · rw [hg]; exact ho
    · rw [hg]; exact (half_pos hl).le
    · rw [hg]; exact hr.le
    · exact (C75_football_partial (by have : 2 * r < l := hs; linarith) h).1.covered
    · exact (C75_football_partial (by have : 2 * r < l := hs; linarith) h).1.inscribed

theorem create_sizes {b : Block} (h : BlockSizes b) : ∃ g, create b = .ok g := by
  cases b with
  | segment l =>
    have h' : 0 < l := h
    exact ⟨_, by simp [create, XC.segment, Outcome.require, h']; rfl⟩
  | rectangle ax ay =>
    obtain ⟨h1, h2⟩ := h
    exact ⟨_, by simp [create, rectangle, Outcome.require, h1, h2]; rfl⟩
  | cuboid ax ay az =>
    obtain ⟨h1, h2, h3⟩ := h
    exact ⟨_, by simp [create, cuboid, Outcome.require, h1, h2, h3]; rfl⟩
  | sphere r =>
    have h' : 0 < r := h
    exact ⟨_, by simp [create, sphere, Outcome.require, h']; rfl⟩
  | ellipsoid rx ry rz =>
    obtain ⟨h1, h2, h3⟩ := h
    exact ⟨_, by simp [create, ellipsoid, Outcome.require, h1, h2, h3]; rfl⟩
  | disk r =>
    have h' : 0 < r := h
    exact ⟨_, by simp [create, disk, Outcome.require, h']; rfl⟩
  | ellipse rx ry =>
    obtain ⟨h1, h2⟩ := h
    exact ⟨_, by simp [create, ellipse, Outcome.require, h1, h2]; rfl⟩
  | saucer r l =>
    obtain ⟨h1, h2, h3⟩ := h
    have h4 : l / 2 ≤ r := by linarith
    exact ⟨_, by simp [create, saucer, Outcome.require, h1, h2, h3, h4]; rfl⟩
  | football r l =>
    obtain ⟨h1, h2, h3⟩ := h
    have h4 : r ≤ l / 2 := by linarith
    exact ⟨_, by simp [create, football, Outcome.require, h1, h2, h3, h4]; rfl⟩

theorem inDegrees_eq (a : Vec3 ℝ) : Mat3.rotation (a.x * Real.pi / 180) (a.y * Real.pi / 180) (a.z * Real.pi / 180) = inDegrees a := rotation_eq _ _ _

theorem inDegrees_orthogonal (a : Vec3 ℝ) : Orthogonal (inDegrees a) := by
  rw [← inDegrees_eq]
  have h := (C54_rotation ⟨a.x * Real.pi / 180, a.y * Real.pi / 180, a.z * Real.pi / 180⟩).2
  have ht := rotation_transpose h
  have hd : (Mat3.rotation (a.x * Real.pi / 180) (a.y * Real.pi / 180) (a.z * Real.pi / 180)).det ≠ 0 := by
    have := h.2; simp only at this; rw [this]; exact one_ne_zero
  unfold Orthogonal
  simp only at ht
  rw [ht, Mat3.inverse_mul_cancel hd]

theorem inDegrees_zero : inDegrees 0 = 1 := by
  rw [← inDegrees_eq]
  simp [Mat3.rotation, Mat3.one_def, Mat3.one]

/-- What is true of the entry built for an expression. -/
structure Built (g : Convex) (e : Entry) : Prop where
  pos : e.pos = ownOrigin g
  rot : AtDefault g → e.rot = 1
  furthest : ∀ n, n ≠ 0 → Fine g n → ConvexMeans g (e.support n) ∧ ∀ p, ConvexMeans g p → p.dot n ≤ (e.support n).dot n
  convex : ConvexBody (ConvexMeans g)
  center : ConvexMeans g e.center
  circumsphere_nonneg : 0 ≤ e.geometry.circumsphereRadius
  insphere_nonneg : 0 ≤ e.geometry.insphereRadius
  covered : PointsAtOrigin g → ∀ p, ConvexMeans g p → (p - e.pos).norm ≤ e.geometry.circumsphereRadius
  inscribed : Centred g → 0 < e.geometry.insphereRadius → ∀ v : Vec3 ℝ, v.norm ≤ e.geometry.insphereRadius → ConvexMeans g (v + e.pos)

theorem Built.inside {g : Convex} {e : Entry} (h : Built g e) (hc : Centred g) (ho : ConvexMeans g (ownOrigin g)) {v : Vec3 ℝ}
    (hv : v.norm ≤ e.geometry.insphereRadius) : ConvexMeans g (v + e.pos) := by
  rcases h.insphere_nonneg.lt_or_eq with h' | h'
  · exact h.inscribed hc h' v hv
  · rw [← h'] at hv
    have : v = 0 := by
      by_contra hne
      have := Xeno.norm_pos_of_ne hne
      linarith
    rw [this, zero_add, h.pos]; exact ho

theorem plain_support (g : XCGeometry) (n : Vec3 ℝ) : Entry.support ⟨g, 0, 1⟩ n = g.support n := by
  have e : (1 : Mat3).transpose.mulVec n = n := by
    ext <;> simp [Mat3.mulVec, Mat3.transpose, Mat3.c0, Mat3.c1, Mat3.c2, Vec3.dot, Mat3.one_def, Mat3.one]
  simp only [Entry.support, e, Mat3.one_mulVec, add_zero]

theorem plain_center (g : XCGeometry) : Entry.center ⟨g, 0, 1⟩ = g.center := by
  simp only [Entry.center, Mat3.one_mulVec, add_zero]

theorem built_point (pos : Vec3 ℝ) : Built (.point pos) ⟨XC.point pos, 0, 1⟩ := by
  have hm : ∀ p, ConvexMeans (.point pos) p ↔ p = pos := by intro p; simp only [ConvexMeans]; rfl
  refine ⟨rfl, fun _ => rfl, ?_, ?_, ?_, le_refl _, le_refl _, ?_, ?_⟩
  · intro n _ _
    rw [plain_support]
    refine ⟨(hm _).mpr rfl, fun p hp => ?_⟩
    rw [(hm p).mp hp]; exact le_refl _
  · intro p q c hp hq _ _
    rw [(hm p).mp hp, (hm q).mp hq, hm]
    ext <;> simp only [Vec3.add_x, Vec3.add_y, Vec3.add_z, Vec3.smul_x, Vec3.smul_y, Vec3.smul_z] <;> ring
  · rw [plain_center]; exact (hm _).mpr rfl
  · intro h p hp
    have h : pos = 0 := h
    rw [(hm p).mp hp, h]
    simp [Vec3.norm, Vec3.norm2, Vec3.dot, XC.point]
  · intro _ h; exact absurd h (lt_irrefl _)

theorem slim_of_points {b : Block} {pos a : Vec3 ℝ} (h : PointsAtOrigin (.block b pos a)) : Slim b := by
  cases b <;> simpa [Slim, PointsAtOrigin] using h

theorem slim_of_centred {b : Block} {pos a : Vec3 ℝ} (h : Centred (.block b pos a)) : Slim b := by
  cases b <;> simpa [Slim, Centred] using h

theorem built_block {b : Block} {g : XCGeometry} (h : BlockFacts b g) (pos a : Vec3 ℝ) : Built (.block b pos a) ⟨g, pos, inDegrees a⟩ := by
  have ho := inDegrees_orthogonal a
  have hm : ∀ p, ConvexMeans (.block b pos a) p ↔ Placed (BlockBody b) (inDegrees a) pos p := by intro p; simp only [ConvexMeans]
  refine ⟨rfl, ?_, ?_, ?_, ?_, h.circumsphere_nonneg, h.insphere_nonneg, ?_, ?_⟩
  · rintro ⟨_, h⟩; rw [h]; exact inDegrees_zero
  · intro n hn hf
    have hf : BlockFine b ((inDegrees a).transpose.mulVec n) := hf
    obtain ⟨h1, h2⟩ := h.furthest _ (transpose_ne ho hn) hf
    refine ⟨(hm _).mpr ⟨_, h1, rfl⟩, fun p hp => ?_⟩
    obtain ⟨q, hq, rfl⟩ := (hm p).mp hp
    have := h2 q hq
    have e : ∀ v : Vec3 ℝ, ((inDegrees a).mulVec v + pos).dot n = v.dot ((inDegrees a).transpose.mulVec n) + pos.dot n := by
      intro v; rw [← mulVec_dot]; simp only [Vec3.dot, Vec3.add_x, Vec3.add_y, Vec3.add_z]; ring
    show ((inDegrees a).mulVec q + pos).dot n ≤ ((inDegrees a).mulVec (g.support ((inDegrees a).transpose.mulVec n)) + pos).dot n
    rw [e, e]; linarith
  · intro p q c hp hq h0 h1
    exact (hm _).mpr (placed_convex h.convex _ _ p q c ((hm p).mp hp) ((hm q).mp hq) h0 h1)
  · exact (hm _).mpr ⟨_, h.center, rfl⟩
  · intro hp p hpp
    exact norm_le_of h.circumsphere_nonneg (placed_near (h.covered (slim_of_points hp)) ho ((hm p).mp hpp))
  · intro hc hpos v hv
    refine (hm _).mpr (placed_of_near hpos (h.inscribed (slim_of_centred hc)) ho ?_)
    have : v + pos - pos = v := by abel
    rw [this]; exact norm2_le_of hv

end XCBuilder

end Rampack
