import Verif.Shapes.FillLemmas
import Verif.Shapes.HardRangeProps
import Verif.Shapes.WedgeProps3
import Verif.Observables.ThermoProps
import Verif.Packing.UpscaleProps
import Verif.Domain.ApartLemmas
/-
C105: the packing fraction of a packing without overlaps is at most one.
-/
namespace Rampack

open Spec Packing Grid Volume Shapes MeasureTheory

namespace Fill

/-- Sites of different molecules do not overlap. -/
theorem sites_free {P : Packing} {I : Interaction} (h : Reachable P I) (h0 : P.countTotalOverlaps I false = .ok 0) {i j : ℕ} {s t : Shape} (hs : (mols P)[i]? = some s)
    (ht : (mols P)[j]? = some t) (hij : i ≠ j) {x y : Site} (hx : x ∈ molSites P.box I s) (hy : y ∈ molSites P.box I t) :
    if P.ng.isSome then ∀ n : Vec3 ℤ, I.overlap x y (BC.hard (lattice P.box n)) = false else I.overlap x y (BC.pbc P.box) = false := by
  obtain ⟨hP, hI⟩ := h.inv
  have hnum : numTotal P I = 0 := by
    obtain ⟨K, ek, hK⟩ := count_exact hP hI
    rw [ek] at h0
    injection h0 with h0
    rw [← hK, h0]; simp
  obtain ⟨hi, rfl⟩ := mem_mols hs
  obtain ⟨hj, rfl⟩ := mem_mols ht
  have hin := (hP.q.core.shapeFn hi).2
  have h1 := single_le_total hP hI hi
  rw [single_overlaps hP hI hi hin, hnum] at h1
  have hz : overlapsOf P I i (P.shapeFn i) = 0 := by
    have h2 : (0 : ℝ) ≤ (wallNum P.box P.hasWall I (P.shapeFn i) : ℕ) := Nat.cast_nonneg _
    have h3 : ((overlapsOf P I i (P.shapeFn i) : ℕ) : ℝ) ≤ 0 := by linarith
    exact_mod_cast le_antisymm h3 (Nat.cast_nonneg _)
  unfold overlapsOf at hz
  rw [others_sum hi, List.sum_eq_zero_iff] at hz
  have hz := hz (pairOverlaps P I (P.shapeFn i) (P.shapeFn j))
    (List.mem_map.mpr ⟨j, List.mem_filter.mpr ⟨List.mem_range.mpr hj, by simpa using hij.symm⟩, rfl⟩)
  have hsum : ∀ f : Site → Site → ℕ, sitePairs P.box I f (P.shapeFn i) (P.shapeFn j) = 0 → f x y = 0 := by
    intro f hf
    unfold sitePairs at hf
    rw [List.sum_eq_zero_iff] at hf
    have h2 := hf _ (List.mem_map.mpr ⟨x, hx, rfl⟩)
    rw [List.sum_eq_zero_iff] at h2
    exact h2 _ (List.mem_map.mpr ⟨y, hy, rfl⟩)
  unfold pairOverlaps at hz
  split_ifs with hg
  · rw [if_pos hg] at hz
    have h2 := hsum _ hz
    intro n
    by_contra hn
    simp only [Bool.not_eq_false] at hn
    obtain ⟨g, hg⟩ := Option.isSome_iff_exists.mp hg
    obtain ⟨gx, gy, gz⟩ := heights_of_grid hP hg
    unfold overlappingImages at h2
    refine absurd h2 (Nat.pos_iff_ne_zero.mp ((Set.ncard_pos ?_).mpr ⟨n, hn⟩))
    refine (shifts.finite_toSet).subset ?_
    intro t ht
    exact image_shift hP.q.core.box hI.range_pos gx gy gz (molSites_inside hP.q.core.box hin x hx)
      (molSites_inside hP.q.core.box (hP.q.core.shapeFn hj).2 y hy) (hI.overlap_range _ _ _ ht)
  · rw [if_neg hg] at hz
    have h2 := hsum _ hz
    unfold overlappingNearest at h2
    by_contra hn
    simp only [Bool.not_eq_false] at hn
    rw [if_pos hn] at h2
    omega

/-- Images of the box are at least as far as its smallest height. -/
theorem lattice_far {b : Box} (hb : b.WF) {c : ℝ} (hx : c ≤ b.heights.x) (hy : c ≤ b.heights.y) (hz : c ≤ b.heights.z) {t : Vec3 ℤ} (ht : t ≠ 0) : c ≤ (lattice b t).norm := by
  obtain ⟨h1, h2, h3⟩ := Box.height_mul_rel_le hb (lattice b t)
  obtain ⟨p1, p2, p3⟩ := Box.heights_pos hb
  rw [Box.absToRel_lattice hb] at h1 h2 h3
  have key : ∀ (k : ℤ) (h : ℝ), 0 < h → k ≠ 0 → h ≤ |(k : ℝ)| * h := by
    intro k h hp hk
    have : (1 : ℝ) ≤ |(k : ℝ)| := by exact_mod_cast Int.one_le_abs hk
    nlinarith
  by_cases ex : t.x = 0
  · by_cases ey : t.y = 0
    · have ez : t.z ≠ 0 := fun ez => ht (by ext <;> assumption)
      exact hz.trans ((key _ _ p3 ez).trans h3)
    · exact hy.trans ((key _ _ p2 ey).trans h2)
  · exact hx.trans ((key _ _ p1 ex).trans h1)

/-- In a rectangular box the nearest image is not farther than any other one. -/
theorem rect_near {b : Box} (hb : b.WF) (hr : Rectangular b) (p q : Vec3 ℝ) (n : Vec3 ℤ) : PBC.getDistance2 b p q ≤ (q + lattice b n - p).norm2 := by
  have hm := hb.make
  rw [C07_distance2_partial hm hr]
  obtain ⟨-, -, h, -⟩ := C06_translation hm p q
  refine (h hr n).trans (le_of_eq ?_)
  simp only [dist2, Vec3.norm2, Vec3.dot, Vec3.sub_x, Vec3.sub_y, Vec3.sub_z]; ring

/-- The fraction from the number of molecules and the volume. -/
theorem fraction_le {P : Packing} {I : Interaction} (h : Reachable P I) {v : ℝ} (hv : 0 ≤ v) (hle : ((mols P).length : ℝ) * v ≤ |P.box.dims.det|) (T p : ℝ) :
    ∃ theta, Thermo.packingFraction.calculate P T p v I = .ok [theta] ∧ 0 ≤ theta ∧ theta ≤ 1 := by
  obtain ⟨-, h2, -⟩ := C100_state h T p v
  obtain ⟨theta, e, ht⟩ := h2 hv
  have hpos : 0 < |P.box.dims.det| := abs_pos.mpr h.inv.1.q.core.box.det_ne
  refine ⟨theta, e, ?_, ?_⟩
  · by_contra hc
    push Not at hc
    have : (0 : ℝ) ≤ (mols P).length * v := by positivity
    nlinarith
  · by_contra hc
    push Not at hc
    nlinarith

theorem body_placed (data : List SphereData) (s : Shape) (ho : Orthogonal s.rot) : SphereBody data s = Placed (Balls3 data) s.rot s.pos := by
  ext p
  rw [placed_iff ho]
  have key : ∀ d : SphereData, Ball (s.pos + s.rot.mulVec d.position) d.radius p ↔ SphereData.Inside d (s.rot.transpose.mulVec (p - s.pos)) := by
    intro d
    unfold SphereData.Inside Ball
    have e : p - (s.pos + s.rot.mulVec d.position) = s.rot.mulVec (s.rot.transpose.mulVec (p - s.pos) - d.position) := by
      rw [Mat3.mulVec_sub, Mat3.mulVec_mulVec, Xeno.orthogonal_transpose ho, Mat3.one_mulVec]
      ext <;> simp <;> ring
    rw [e, orthogonal_norm2 ho]
  constructor
  · rintro ⟨d, hd, h⟩; exact ⟨d, hd, (key d).mp h⟩
  · rintro ⟨d, hd, h⟩; exact ⟨d, hd, (key d).mpr h⟩

theorem balls_measurable (data : List SphereData) : MeasurableSet (Spec.points (Balls3 data)) := by
  induction data with
  | nil =>
    have : Spec.points (Balls3 []) = ∅ := by ext p; simp [Spec.points, Balls3]
    rw [this]; exact MeasurableSet.empty
  | cons d rest ih =>
    have e : Spec.points (Balls3 (d :: rest)) = Spec.points (Ball d.position d.radius) ∪ Spec.points (Balls3 rest) := by
      ext p
      simp only [Spec.points, Balls3, List.mem_cons, Set.mem_union, Set.mem_setOf_eq, or_and_right, exists_or, exists_eq_left]
      rfl
    rw [e]
    exact (any_ball_measurable _ _).union ih

end Fill

open Fill

/-- C105 for balls: the packing fraction of a packing without overlaps is at most one, if the neighbour grid is used, or if the box is rectangular and not thinner than
the diameter. -/
theorem C105_spheres_partial {P : Packing} {I : Interaction} {r : ℝ} (h : Reachable P I) (hI : sphere r = .ok I) (h0 : P.countTotalOverlaps I false = .ok 0)
    (hbox : P.ng.isSome = true ∨ Rectangular P.box ∧ 2 * r ≤ P.box.heights.x ∧ 2 * r ≤ P.box.heights.y ∧ 2 * r ≤ P.box.heights.z) (T p : ℝ) :
    ∃ theta, Thermo.packingFraction.calculate P T p (Wedge.sphereVolume r) I = .ok [theta] ∧ 0 ≤ theta ∧ theta ≤ 1 := by
  obtain ⟨hP, -⟩ := h.inv
  obtain ⟨hr, hIe⟩ := sphere_ok hI
  have hb := hP.q.core.box
  have hrange : I.range = 2 * r := by rw [hIe]
  have hc : I.centres = [] := by rw [hIe]
  have hh : 2 * r ≤ P.box.heights.x ∧ 2 * r ≤ P.box.heights.y ∧ 2 * r ≤ P.box.heights.z := by
    rcases hbox with hg | ⟨-, hh⟩
    · obtain ⟨g, hg⟩ := Option.isSome_iff_exists.mp hg
      obtain ⟨gx, gy, gz⟩ := heights_of_grid hP hg
      rw [hrange] at gx gy gz
      exact ⟨gx.le, gy.le, gz.le⟩
    · exact hh
  have hvol : ∀ c, HasVolume (Ball c r) (Wedge.sphereVolume r) := C104_sphere hI
  refine fraction_le h (hvol 0).1 (fill hb (n := (mols P).length) (B := fun i => Ball (mols P)[i].pos r) (fun i => any_ball_measurable _ _) (fun i => hvol _) ?_) T p
  intro i j t hne
  rw [moved_ball, meet_balls hr hr, not_lt]
  by_cases hij : i = j
  · subst hij
    have ht : t ≠ 0 := by rcases hne with h | h; exact absurd rfl h; exact h
    have := lattice_far hb hh.1 hh.2.1 hh.2.2 ht
    rw [show (mols P)[i].pos + lattice P.box t - (mols P)[i].pos = lattice P.box t by ext <;> simp, ← Vec3.norm_sq, ← two_mul]
    nlinarith
  · have hs : (mols P)[i.1]? = some (mols P)[i] := List.getElem?_eq_getElem i.2
    have hs' : (mols P)[j.1]? = some (mols P)[j] := List.getElem?_eq_getElem j.2
    have key := sites_free h h0 hs hs' (fun e => hij (Fin.ext e)) (x := ⟨(mols P)[i].pos, (mols P)[i].rot, 0⟩) (y := ⟨(mols P)[j].pos, (mols P)[j].rot, 0⟩)
      (by rw [molSites_single hc]; simp) (by rw [molSites_single hc]; simp)
    rw [← two_mul]
    split_ifs at key with hg
    · have key := key t
      rw [hIe] at key
      simp only [hard_distance2] at key
      exact not_lt.mp (of_decide_eq_false key)
    · obtain ⟨hrect, -⟩ := hbox.resolve_left hg
      rw [hIe] at key
      have key := not_lt.mp (of_decide_eq_false key)
      exact key.trans (rect_near hb hrect _ _ t)

/-- C105 for molecules made of balls: as for balls, with the total range of the molecule in place of the diameter. -/
theorem C105_polyspheres_partial {P : Packing} {I : Interaction} {data : List SphereData} {v : ℝ} (h : Reachable P I) (hI : polysphere data = .ok I) (hr : PositiveRadii data)
    (hv : HasVolume (Balls3 data) v) (ho : ∀ s ∈ mols P, Orthogonal s.rot) (h0 : P.countTotalOverlaps I false = .ok 0)
    (hbox : P.ng.isSome = true ∨ Rectangular P.box) (hh : I.totalRange ≤ P.box.heights.x ∧ I.totalRange ≤ P.box.heights.y ∧ I.totalRange ≤ P.box.heights.z) (T p : ℝ) :
    ∃ theta, Thermo.packingFraction.calculate P T p v I = .ok [theta] ∧ 0 ≤ theta ∧ theta ≤ 1 := by
  obtain ⟨hP, -⟩ := h.inv
  have hb := hP.q.core.box
  obtain ⟨-, hT, -⟩ := C70_polyspheres hI hr
  have hne : data.map SphereData.position ≠ [] := by
    obtain ⟨d, rest, hd, -⟩ := polysphere_ok hI
    simp [hd]
  have hcs : I.centres = data.map SphereData.position := by
    obtain ⟨d, rest, hd, hIe⟩ := polysphere_ok hI
    rw [hIe]
  have hov : ∀ x y bc, I.overlap x y bc = decide (bc.distance2 x.pos y.pos < (radiusAt data x.idx + radiusAt data y.idx) * (radiusAt data x.idx + radiusAt data y.idx)) := by
    obtain ⟨d, rest, hd, hIe⟩ := polysphere_ok hI
    rw [hIe]; exact fun _ _ _ => rfl
  have hrad : ∀ d ∈ data, 2 * d.radius ≤ I.range := by
    intro d hd
    obtain ⟨d0, rest, hd0, hIe⟩ := polysphere_ok hI
    obtain ⟨k, g⟩ := List.mem_iff_getElem?.mp hd
    have := radius_le_range (d := d0) (rest := rest) (by rw [← hd0]; exact hr) k
    rw [← hd0, radiusAt_of g] at this
    rw [hIe]; show _ ≤ polysphereRange d0 rest
    linarith
  have hsite : ∀ (s : Shape) (d : SphereData), d ∈ data → ∃ x ∈ molSites P.box I s, radiusAt data x.idx = d.radius ∧ ∃ n, x.pos = s.pos + s.rot.mulVec d.position + lattice P.box n := by
    intro s d hd
    obtain ⟨k, g⟩ := List.mem_iff_getElem?.mp hd
    have hk : k < data.length := (List.getElem?_eq_some_iff.mp g).1
    refine ⟨⟨wrap P.box (s.pos + s.rot.mulVec (I.centres.getD k 0)), s.rot, k⟩, ?_, radiusAt_of g, ?_⟩
    · unfold molSites
      rw [if_neg (by rw [hcs]; simpa using (by rintro rfl; simp at hk))]
      exact List.mem_map.mpr ⟨k, List.mem_range.mpr (by rw [hcs, List.length_map]; exact hk), rfl⟩
    · obtain ⟨-, ⟨n, hn⟩, -⟩ := C05_correction hb.make (s.pos + s.rot.mulVec (I.centres.getD k 0))
      refine ⟨n, ?_⟩
      show _ + PBC.getCorrection _ _ = _
      rw [hn, hcs, List.getD_eq_getElem?_getD, List.getElem?_map, g]
      rfl
  have hmem : ∀ i : Fin (mols P).length, (mols P)[i] ∈ mols P := fun i => List.getElem_mem _
  have hvol : ∀ i : Fin (mols P).length, HasVolume (SphereBody data (mols P)[i]) v := by
    intro i
    rw [body_placed data (mols P)[i] (ho _ (hmem i))]
    exact C104_placed hv (ho _ (hmem i)) _
  refine fraction_le h hv.1 (fill hb (n := (mols P).length) (B := fun i => SphereBody data (mols P)[i]) (fun i => ?_) hvol ?_) T p
  · show MeasurableSet (Spec.points (SphereBody data (mols P)[i]))
    rw [body_placed data (mols P)[i] (ho _ (hmem i))]
    exact placed_measurable (balls_measurable data) (ho _ (hmem i)) _
  rintro i j t hne' ⟨q, ⟨d1, m1, h1⟩, ⟨d2, m2, h2⟩⟩
  by_cases hij : i = j
  · subst hij
    have ht : t ≠ 0 := by rcases hne' with h | h; exact absurd rfl h; exact h
    have hfar := lattice_far hb hh.1 hh.2.1 hh.2.2 ht
    have ho' := ho _ (hmem i)
    have near : ∀ (d : SphereData), d ∈ data → ∀ w, Ball ((mols P)[i].pos + (mols P)[i].rot.mulVec d.position) d.radius w → 2 * (w - (mols P)[i].pos).norm < I.totalRange := by
      intro d hd w hw
      have a1 : (w - ((mols P)[i].pos + (mols P)[i].rot.mulVec d.position)).norm < d.radius := (norm_lt_iff (hr d hd)).mpr hw
      have a2 := Domain.norm_add_le' (w - ((mols P)[i].pos + (mols P)[i].rot.mulVec d.position)) ((mols P)[i].rot.mulVec d.position)
      rw [show w - ((mols P)[i].pos + (mols P)[i].rot.mulVec d.position) + (mols P)[i].rot.mulVec d.position = w - (mols P)[i].pos by ext <;> simp <;> ring] at a2
      have a3 : ((mols P)[i].rot.mulVec d.position).norm = d.position.norm := by
        unfold Vec3.norm; rw [orthogonal_norm2 ho']
      have a4 := hT.2 d.position (by rw [hcs]; exact List.mem_map.mpr ⟨d, hd, rfl⟩)
      have a5 := hrad d hd
      linarith
    have n1 := near d1 m1 q h1
    have n2 := near d2 m2 _ h2
    have a2 := Domain.norm_add_le' (q - (mols P)[i].pos) (-(q - lattice P.box t - (mols P)[i].pos))
    rw [show q - (mols P)[i].pos + -(q - lattice P.box t - (mols P)[i].pos) = lattice P.box t by ext <;> simp, Domain.norm_neg'] at a2
    linarith
  · have hs : (mols P)[i.1]? = some (mols P)[i] := List.getElem?_eq_getElem i.2
    have hs' : (mols P)[j.1]? = some (mols P)[j] := List.getElem?_eq_getElem j.2
    obtain ⟨x, hx, rx, nx, ex⟩ := hsite (mols P)[i] d1 m1
    obtain ⟨y, hy, ry, ny, ey⟩ := hsite (mols P)[j] d2 m2
    have h2' : movedBy (lattice P.box t) (Ball ((mols P)[j].pos + (mols P)[j].rot.mulVec d2.position) d2.radius) q := h2
    rw [moved_ball] at h2'
    have hm := (meet_balls (hr d1 m1) (hr d2 m2)).mp ⟨q, h1, h2'⟩
    have key := sites_free h h0 hs hs' (fun e => hij (Fin.ext e)) hx hy
    have e : ∀ n : Vec3 ℤ, n = ⟨t.x + nx.x - ny.x, t.y + nx.y - ny.y, t.z + nx.z - ny.z⟩ → y.pos + lattice P.box n - x.pos =
        (mols P)[j].pos + (mols P)[j].rot.mulVec d2.position + lattice P.box t - ((mols P)[i].pos + (mols P)[i].rot.mulVec d1.position) := by
      rintro n rfl
      rw [ex, ey]
      ext <;> simp [lattice, combo] <;> ring
    have e := e _ rfl
    split_ifs at key with hg
    · have key := key ⟨t.x + nx.x - ny.x, t.y + nx.y - ny.y, t.z + nx.z - ny.z⟩
      rw [hov, decide_eq_false_iff_not, not_lt, hard_distance2, rx, ry, e] at key
      rw [pow_two] at hm
      exact absurd hm (not_lt.mpr key)
    · have hrect := hbox.resolve_left hg
      rw [hov, decide_eq_false_iff_not, not_lt, rx, ry] at key
      have := key.trans (rect_near hb hrect x.pos y.pos ⟨t.x + nx.x - ny.x, t.y + nx.y - ny.y, t.z + nx.z - ny.z⟩)
      rw [e] at this
      rw [pow_two] at hm
      exact absurd hm (not_lt.mpr this)

end Rampack
