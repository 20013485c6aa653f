import Verif.Packing.UpscaleLemmas
import Verif.Packing.WallProps
/-
C18: skipping the check for overlaps when the box gets larger.
-/
namespace Rampack

open Rampack.Spec Rampack.Grid Rampack.Packing

namespace Packing

theorem Box.sides_cols (b : Box) : b.sides = ⟨b.dims.c0, b.dims.c1, b.dims.c2⟩ := by
  simp [Box.sides, Box.relToAbs, Mat3.mulVec, Vec3.dot, Mat3.c0, Mat3.c1, Mat3.c2]

theorem sideUpscaled_smul {a : Vec3 ℝ} (ha : a ≠ 0) {f : ℝ} (h : sideUpscaled a (f • a) = true) : 1 ≤ f ^ 2 := by
  have hn := Vec3.norm2_pos_of_ne ha
  unfold sideUpscaled at h
  simp only [Bool.and_eq_true, Bool.not_eq_true', decide_eq_false_iff_not, not_lt] at h
  have e : a.dot (f • a) = f * a.norm2 := by simp [Vec3.dot, Vec3.norm2]; ring
  have h2 := h.2
  rw [e, show f * a.norm2 * (f * a.norm2) / a.norm2 / a.norm2 = f ^ 2 by field_simp] at h2
  have : (0 : ℝ) < 100 / 2 ^ 52 := by positivity
  linarith

theorem col_ne {b : Box} (hb : b.WF) : b.dims.c0 ≠ 0 ∧ b.dims.c1 ≠ 0 ∧ b.dims.c2 ≠ 0 := by
  have hd : b.dims.det ≠ 0 := hb.det_ne
  refine ⟨fun h => hd ?_, fun h => hd ?_, fun h => hd ?_⟩ <;>
    · have hx := congrArg Vec3.x h; have hy := congrArg Vec3.y h; have hz := congrArg Vec3.z h
      simp only [Mat3.c0, Mat3.c1, Mat3.c2, Vec3.zero_x, Vec3.zero_y, Vec3.zero_z] at hx hy hz
      simp [Mat3.det, hx, hy, hz]

theorem noOverlaps_rescale {b b' : Box} (hb : b.WF) {I : Interaction} {l : List Shape} (hno : NoOverlaps b I l)
    (key : ∀ s ∈ l, ∀ t ∈ l, ∀ n r, t.pos + lattice b n - s.pos = b.dims.mulVec r →
      (t.rescale b b').pos + lattice b' n - (s.rescale b b').pos = b'.dims.mulVec r →
      I.overlap ⟨(s.rescale b b').pos, s.rot, 0⟩ ⟨(t.rescale b b').pos, t.rot, 0⟩ (BC.hard (lattice b' n)) = true →
      I.overlap ⟨s.pos, s.rot, 0⟩ ⟨t.pos, t.rot, 0⟩ (BC.hard (lattice b n)) = true) :
    NoOverlaps b' I (l.map (Shape.rescale b b')) := by
  intro i j s t hs ht hij n
  rw [List.getElem?_map, Option.map_eq_some_iff] at hs ht
  obtain ⟨s, hs, rfl⟩ := hs
  obtain ⟨t, ht, rfl⟩ := ht
  by_contra hc
  simp only [Bool.not_eq_false] at hc
  obtain ⟨r, h1, h2⟩ := rescale_sep (b' := b') hb s t n
  have := key s (List.mem_of_getElem? hs) t (List.mem_of_getElem? ht) n r h1 h2 hc
  rw [hno i j s t hs ht hij n] at this
  cases this

theorem scaled_none {P : Packing} {I : Interaction} (hP : PInv P I) (hI : Contract I) (hc : I.centres = []) (ht : UsesTranslation I)
    (hw : P.hasWall = ⟨false, false, false⟩) {b : Box} (hb : b.WF) (h : NoOverlaps b I ((mols P).map (Shape.rescale P.box b))) :
    ∃ P' e, P.tryScaling I b = .ok (P', e) ∧ e ≠ .posInf ∧ NoOverlaps b I (mols P') ∧ P'.countTotalOverlaps I false = .ok 0 := by
  obtain ⟨as, og, n, K1, e, hP', hK⟩ := tryScaling_ok hP hI hb
  have hm := scaledState_mols P b as og n
  have h' : NoOverlaps b I (mols (P.scaledState b as og n)) := by rw [hm]; exact h
  have h0 := numTotal_zero hP' hI hc ht hw h'
  rw [h0] at hK
  have hK : K1 = 0 := by exact_mod_cast hK
  obtain ⟨K, ek, hK'⟩ := count_exact hP' hI
  rw [h0] at hK'
  have hK' : K = 0 := by exact_mod_cast hK'
  refine ⟨_, _, e, ?_, h', by rw [ek, hK']⟩
  subst hK
  unfold scaleChange
  obtain ⟨K2, -, hK2⟩ := count_exact hP hI
  have hnn : P.overlapCounting = true → ¬ P.numOverlaps < ((0 : ℕ) : Int) := by
    intro hc h
    have h1 := hP.cached hc
    rw [← hK2] at h1
    have : P.numOverlaps = K2 := by exact_mod_cast h1
    omega
  split_ifs with h1 h2 h3 h4 h5 h6 h7 <;> simp
  · exact hnn h2 h4
  · omega

theorem trans1_zero {p q : ℝ} (h1 : q - p ≤ 1 / 2) (h2 : -(1 / 2) ≤ q - p) : PBC.trans1 p q = 0 := by
  unfold PBC.trans1
  have e : PBC.transDown p q 0 = 0 := by
    unfold PBC.transDown; rw [if_neg (by linarith)]
  rw [e]
  unfold PBC.transUp; rw [if_neg (by linarith)]

theorem rescaled_translation {b b' : Box} (hb : b.WF) (hb' : b'.WF) {u v : Vec3 ℝ} {s t : Shape} (hs : s.pos = b.relToAbs u)
    (ht : t.pos = b.relToAbs v) (h : ∀ i, v.get i - u.get i ≤ 1 / 2 ∧ -(1 / 2) ≤ v.get i - u.get i) :
    (s.rescale b b').pos = b'.relToAbs u ∧ (t.rescale b b').pos = b'.relToAbs v ∧
    PBC.getTranslation b' (s.rescale b b').pos (t.rescale b b').pos = 0 := by
  have e1 : (s.rescale b b').pos = b'.relToAbs u := by
    show b'.relToAbs (b.absToRel s.pos) = _; rw [hs, Box.absToRel_relToAbs hb]
  have e2 : (t.rescale b b').pos = b'.relToAbs v := by
    show b'.relToAbs (b.absToRel t.pos) = _; rw [ht, Box.absToRel_relToAbs hb]
  refine ⟨e1, e2, ?_⟩
  unfold PBC.getTranslation
  rw [e1, e2, Box.absToRel_relToAbs hb', Box.absToRel_relToAbs hb']
  simp only
  rw [show PBC.trans1 u.x v.x = 0 from trans1_zero (h 0).1 (h 0).2, show PBC.trans1 u.y v.y = 0 from trans1_zero (h 1).1 (h 1).2,
    show PBC.trans1 u.z v.z = 0 from trans1_zero (h 2).1 (h 2).2]
  exact Mat3.mulVec_zero _

/-- Packings of two molecules. -/
theorem pair_reachable {I : Interaction} (hI : Contract I) {M : Mat3} {b : Box} (hb : Box.make M = .ok b) {s t : Shape}
    (hs : Inside b s.pos) (ht : Inside b t.pos) (hc : I.centres = []) :
    ∃ P, Reachable P I ∧ mols P = [s, t] ∧ P.box = b ∧ P.hasWall = ⟨false, false, false⟩ ∧ P.overlapCounting = false := by
  have hcap : [s, t].length * max 1 I.centres.length < 2 ^ 50 := by simp [hc]
  have hin : ∀ x ∈ [s, t], Inside b x.pos := by
    intro x hx
    simp only [List.mem_cons, List.not_mem_nil, or_false] at hx
    rcases hx with rfl | rfl <;> assumption
  obtain ⟨P, e, h, h1, h2, h3, h4, -⟩ := create_ok hI (Box.make_wf hb).1 (shapes := [s, t]) (by simp) hin hcap 1
  exact ⟨P, .create hI hb (by simp) hin hcap e, h1, h2, h3, h4⟩

/-- The skipped check: overlaps are not noticed. -/
theorem skipped {P : Packing} {I : Interaction} (h : Reachable P I) (hc : I.centres = []) (ht : UsesTranslation I)
    (hcv : I.isConvex = true) (hoff : P.overlapCounting = false) {s t : Shape} (hm : mols P = [s, t])
    {b : Box} (hb : b.WF) (hup : isBoxUpscaled P.box b = true) {u v : Vec3 ℝ} (hs : s.pos = P.box.relToAbs u)
    (ht' : t.pos = P.box.relToAbs v) (hn : ∀ i, v.get i - u.get i ≤ 1 / 2 ∧ -(1 / 2) ≤ v.get i - u.get i)
    (hov : I.overlap ⟨b.relToAbs u, s.rot, 0⟩ ⟨b.relToAbs v, t.rot, 0⟩ (BC.hard 0) = true) :
    ∃ P' e k, P.tryScaling I b = .ok (P', .fin e) ∧ P'.countTotalOverlaps I false = .ok k ∧ 0 < k := by
  obtain ⟨hP, hI⟩ := h.inv
  obtain ⟨as, og, n, K1, e, hP', hK⟩ := tryScaling_ok hP hI hb
  obtain ⟨r1, r2, r3⟩ := rescaled_translation (b' := b) hP.q.core.box hb hs ht' hn
  have hpos : 0 < numTotal (P.scaledState b as og n) I := by
    refine numTotal_pos hP' hI hc ht (i := 0) (j := 1) (s := s.rescale P.box b) (t := t.rescale P.box b) ?_ ?_ (by simp) ?_
    · rw [scaledState_mols, hm]; rfl
    · rw [scaledState_mols, hm]; rfl
    · rw [ht.overlap]
      show I.overlap _ _ (BC.hard (PBC.getTranslation b (s.rescale P.box b).pos (t.rescale P.box b).pos)) = true
      rw [r3, r1, r2]
      exact hov
  obtain ⟨k, ek, hk⟩ := count_exact hP' hI
  rw [← hk] at hpos
  have hch : ∀ de, scaleChange I.hasHard P.overlapCounting (I.isConvex && isBoxUpscaled P.box b) P.numOverlaps K1 de = .fin de := by
    intro de
    unfold scaleChange
    rw [hoff, hcv, hup]
    simp
  rw [hch] at e
  exact ⟨_, _, k, e, ek, by exact_mod_cast hpos⟩

end Packing

/-- C18 for convex bodies: if the box is scaled isotropically and the packing decides that it is only expanded (the check for
overlaps is then skipped for convex shapes), no overlaps appear.
Missing: anisotropic scaling for bodies other than balls, and for balls in sheared boxes; overlaps may appear then
(`C18_rods_violated`, `C18_balls_violated`). Walls. -/
theorem C18_convex_partial {P : Packing} {I : Interaction} (h : Reachable P I) {B : Vec3 ℝ → Prop} (hB : ConvexBodies I B)
    (ht : UsesTranslation I) (hw : P.hasWall = ⟨false, false, false⟩) (ho : ∀ s ∈ mols P, Orthogonal s.rot) {c : ℝ} (hc : 0 < c)
    {b : Box} (hb : Box.make (c • P.box.dims) = .ok b) (hup : isBoxUpscaled P.box b = true)
    (hno : NoOverlaps P.box I (mols P) ∨ P.ng.isSome = true ∧ P.countTotalOverlaps I false = .ok 0) :
    ∃ P' e, P.tryScaling I b = .ok (P', e) ∧ e ≠ .posInf ∧ NoOverlaps b I (mols P') ∧ P'.countTotalOverlaps I false = .ok 0 := by
  obtain ⟨hP, hI⟩ := h.inv
  obtain ⟨hbw, hbd⟩ := Box.make_wf hb
  have hno : NoOverlaps P.box I (mols P) := by
    rcases hno with hno | ⟨hg, h0⟩
    · exact hno
    · obtain ⟨K, ek, hK⟩ := count_exact hP hI
      rw [ek] at h0
      injection h0 with h0
      exact noOverlaps_of_count hP hI hB.single hg (by rw [← hK, h0]; simp)
  have hc1 : 1 ≤ c := by
    have hx : sideUpscaled P.box.dims.c0 (c • P.box.dims.c0) = true := by
      simp only [isBoxUpscaled, Bool.and_eq_true, Box.sides_cols, hbd] at hup
      exact hup.1.1
    have := sideUpscaled_smul (col_ne hP.q.core.box).1 hx
    nlinarith
  refine scaled_none hP hI hB.single ht hw hbw (noOverlaps_rescale hP.q.core.box hno ?_)
  intro s hs t hti n r h1 h2 hov
  rw [hB.overlap _ _ _ (ho s hs) (ho t hti)] at hov ⊢
  obtain ⟨p, q, hp, hq, he⟩ := hov
  have hsc : ∀ v, B v → B (c⁻¹ • v) := by
    intro v hv
    have := hB.convex v 0 c⁻¹ hv hB.middle (by positivity) (inv_le_one_of_one_le₀ hc1)
    convert this using 1
    ext <;> simp
  refine ⟨c⁻¹ • p, c⁻¹ • q, hsc p hp, hsc q hq, ?_⟩
  have hmv : ∀ (R : Mat3) (k : ℝ) (v : Vec3 ℝ), R.mulVec (k • v) = k • R.mulVec v := by
    intro R k v; ext <;> simp [Mat3.mulVec, Vec3.dot] <;> ring
  have hd : b.dims.mulVec r = c • P.box.dims.mulVec r := by
    rw [hbd]; ext <;> simp [Mat3.mulVec, Vec3.dot] <;> ring
  rw [hd, ← h1] at h2
  rw [hmv, hmv]
  have e2 : s.rot.mulVec p - t.rot.mulVec q = c • (t.pos + lattice P.box n - s.pos) := by
    rw [← h2]
    have he : (s.rescale P.box b).pos + s.rot.mulVec p = (t.rescale P.box b).pos + lattice b n + t.rot.mulVec q := he
    rw [sub_eq_sub_iff_add_eq_add, add_comm, he]
  have e3 : c⁻¹ • s.rot.mulVec p - c⁻¹ • t.rot.mulVec q = t.pos + lattice P.box n - s.pos := by
    have : c⁻¹ • s.rot.mulVec p - c⁻¹ • t.rot.mulVec q = c⁻¹ • (s.rot.mulVec p - t.rot.mulVec q) := by
      ext <;> simp <;> ring
    rw [this, e2]
    ext <;> simp <;> field_simp
  rw [sub_eq_sub_iff_add_eq_add] at e3
  rw [add_comm, e3]

/-- C18 for balls: if each side of a rectangular box is scaled and the packing decides that it is only expanded, no overlaps
appear. -/
theorem C18_balls_partial {P : Packing} {I : Interaction} (h : Reachable P I) {d : ℝ} (hB : Balls I d)
    (ht : UsesTranslation I) (hw : P.hasWall = ⟨false, false, false⟩) (hrect : Rectangular P.box) {f : Vec3 ℝ} {M : Mat3}
    {b : Box} (hb : Box.make M = .ok b) (h0 : M.c0 = f.x • P.box.dims.c0) (h1 : M.c1 = f.y • P.box.dims.c1)
    (h2 : M.c2 = f.z • P.box.dims.c2) (hup : isBoxUpscaled P.box b = true)
    (hno : NoOverlaps P.box I (mols P) ∨ P.ng.isSome = true ∧ P.countTotalOverlaps I false = .ok 0) :
    ∃ P' e, P.tryScaling I b = .ok (P', e) ∧ e ≠ .posInf ∧ NoOverlaps b I (mols P') ∧ P'.countTotalOverlaps I false = .ok 0 := by
  obtain ⟨hP, hI⟩ := h.inv
  obtain ⟨hbw, hbd⟩ := Box.make_wf hb
  have hno : NoOverlaps P.box I (mols P) := by
    rcases hno with hno | ⟨hg, h0⟩
    · exact hno
    · obtain ⟨K, ek, hK⟩ := count_exact hP hI
      rw [ek] at h0
      injection h0 with h0
      exact noOverlaps_of_count hP hI hB.single hg (by rw [← hK, h0]; simp)
  simp only [isBoxUpscaled, Bool.and_eq_true, Box.sides_cols, hbd, h0, h1, h2] at hup
  obtain ⟨n0, n1, n2⟩ := col_ne hP.q.core.box
  have fx := sideUpscaled_smul n0 hup.1.1
  have fy := sideUpscaled_smul n1 hup.1.2
  have fz := sideUpscaled_smul n2 hup.2
  refine scaled_none hP hI hB.single ht hw hbw (noOverlaps_rescale hP.q.core.box hno ?_)
  intro s hs t hti n r e1 e2 hov
  rw [hB.overlap] at hov ⊢
  refine lt_of_le_of_lt ?_ hov
  have hd : ∀ p q : Vec3 ℝ, dist2 p q = (q - p).norm2 := by
    intro p q; simp only [dist2, Vec3.norm2, Vec3.dot, Vec3.sub_x, Vec3.sub_y, Vec3.sub_z]; ring
  rw [hd, hd]
  show (t.pos + lattice P.box n - s.pos).norm2 ≤ ((t.rescale P.box b).pos + lattice b n - (s.rescale P.box b).pos).norm2
  rw [e1, e2, hbd]
  have hexp : ∀ A : Mat3, (A.mulVec r).norm2 = r.x ^ 2 * A.c0.norm2 + r.y ^ 2 * A.c1.norm2 + r.z ^ 2 * A.c2.norm2 +
      2 * (r.x * r.y * A.c0.dot A.c1 + r.y * r.z * A.c1.dot A.c2 + r.z * r.x * A.c2.dot A.c0) := by
    intro A
    simp only [Mat3.mulVec, Vec3.norm2, Vec3.dot, Mat3.c0, Mat3.c1, Mat3.c2]; ring
  have hdot : ∀ (k l : ℝ) (u v : Vec3 ℝ), (k • u).dot (l • v) = k * l * u.dot v := by
    intro k l u v; simp [Vec3.dot]; ring
  have hnorm : ∀ (k : ℝ) (u : Vec3 ℝ), (k • u).norm2 = k ^ 2 * u.norm2 := by
    intro k u; simp [Vec3.norm2, Vec3.dot]; ring
  obtain ⟨r1, r2, r3⟩ := hrect
  rw [hexp, hexp, h0, h1, h2, hdot, hdot, hdot, hnorm, hnorm, hnorm, r1, r2, r3]
  have a0 := mul_nonneg (sq_nonneg r.x) (Vec3.norm2_nonneg P.box.dims.c0)
  have a1 := mul_nonneg (sq_nonneg r.y) (Vec3.norm2_nonneg P.box.dims.c1)
  have a2 := mul_nonneg (sq_nonneg r.z) (Vec3.norm2_nonneg P.box.dims.c2)
  nlinarith

theorem ballsI_balls (r total : ℝ) : Balls (ballsI [] r total) (2 * r) :=
  ⟨rfl, fun _ _ _ => by simp [ballsI, BC.hard]⟩

/-- A sheared box. -/
noncomputable def slantDims : Mat3 := ⟨⟨1, 1, 0⟩, ⟨0, 1, 0⟩, ⟨0, 0, 1⟩⟩

/-- The sheared box with all sides extended. -/
noncomputable def slantDims' : Mat3 := ⟨⟨2, 101 / 100, 0⟩, ⟨0, 101 / 100, 0⟩, ⟨0, 0, 101 / 100⟩⟩

theorem make_of_det {M : Mat3} (h : M.det ≠ 0) : Box.make M = .ok ⟨M, M.inverse⟩ := by rw [Box.make, if_neg h]

/-- C18 does not hold for balls in sheared boxes: when each side of a sheared box is extended (by a different factor), two balls
which did not overlap come nearer and overlap, the check is skipped, and the change is not refused. -/
theorem C18_balls_violated : ∃ P I d b f P' e k, Reachable P I ∧ Balls I d ∧ UsesTranslation I ∧ I.isConvex = true ∧
    (∃ M, Box.make M = .ok b ∧ M.c0 = (f : Vec3 ℝ).x • P.box.dims.c0 ∧ M.c1 = f.y • P.box.dims.c1 ∧ M.c2 = f.z • P.box.dims.c2) ∧
    1 < f.x ∧ 1 < f.y ∧ 1 < f.z ∧ NoOverlaps P.box I (mols P) ∧ P.countTotalOverlaps I false = .ok 0 ∧
    P.tryScaling I b = .ok (P', .fin e) ∧ P'.countTotalOverlaps I false = .ok k ∧ 0 < k := by
  have hd : slantDims.det ≠ 0 := by norm_num [slantDims, Mat3.det]
  have hd' : slantDims'.det ≠ 0 := by norm_num [slantDims', Mat3.det]
  have hI := ballsI_contract [] (r := 21 / 100) (by norm_num) 1
  have hin : ∀ u : Vec3 ℝ, (0 ≤ u.x ∧ u.x < 1) → (0 ≤ u.y ∧ u.y < 1) → (0 ≤ u.z ∧ u.z < 1) →
      Inside ⟨slantDims, slantDims.inverse⟩ (Box.relToAbs ⟨slantDims, slantDims.inverse⟩ u) := by
    intro u h1 h2 h3
    refine ⟨u, h1, h2, h3, ?_⟩
    ext <;> simp [Box.relToAbs, combo, Mat3.mulVec, Vec3.dot, Mat3.c0, Mat3.c1, Mat3.c2] <;> ring
  obtain ⟨P, h, hm, hb, hw, hoff⟩ := pair_reachable hI (make_of_det hd)
    (s := ⟨Box.relToAbs ⟨slantDims, slantDims.inverse⟩ ⟨1 / 2, 1 / 4, 1 / 2⟩, 1⟩)
    (t := ⟨Box.relToAbs ⟨slantDims, slantDims.inverse⟩ ⟨3 / 10, 13 / 20, 1 / 2⟩, 1⟩)
    (hin _ (by norm_num) (by norm_num) (by norm_num)) (hin _ (by norm_num) (by norm_num) (by norm_num)) rfl
  have hup : isBoxUpscaled P.box ⟨slantDims', slantDims'.inverse⟩ = true := by
    rw [hb]
    simp only [isBoxUpscaled, Box.sides_cols, sideUpscaled, slantDims, slantDims', Mat3.c0, Mat3.c1, Mat3.c2, Vec3.dot, Vec3.norm2]
    norm_num
  have hno : NoOverlaps P.box (ballsI [] (21 / 100) 1) (mols P) := by
    have key : ∀ n : Vec3 ℤ, ∀ c : ℝ, c = 1 ∨ c = -1 →
        ¬ ((c * (1 / 5) + (n.x + n.y)) ^ 2 + (c * (2 / 5) + n.y) ^ 2 + (n.z : ℝ) ^ 2 < (2 * (21 / 100)) ^ 2) := by
      intro n c hc hlt
      have hz := sq_nonneg (n.z : ℝ)
      have hx := sq_nonneg (c * (1 / 5) + ((n.x : ℝ) + n.y))
      rcases lt_trichotomy n.y 0 with hy | hy | hy
      · have : (n.y : ℝ) ≤ -1 := by exact_mod_cast Int.le_sub_one_of_lt hy
        rcases hc with rfl | rfl <;> nlinarith
      · rw [hy] at hlt hx
        push_cast at hlt hx
        rcases lt_trichotomy n.x 0 with hx' | hx' | hx'
        · have : (n.x : ℝ) ≤ -1 := by exact_mod_cast Int.le_sub_one_of_lt hx'
          rcases hc with rfl | rfl <;> nlinarith
        · rw [hx'] at hlt
          push_cast at hlt
          rcases hc with rfl | rfl <;> nlinarith
        · have : (1 : ℝ) ≤ n.x := by exact_mod_cast hx'
          rcases hc with rfl | rfl <;> nlinarith
      · have : (1 : ℝ) ≤ n.y := by exact_mod_cast hy
        rcases hc with rfl | rfl <;> nlinarith
    rw [hm, hb]
    intro i j s t hs ht hij n
    have hi : i < 2 := by have := (List.getElem?_eq_some_iff.mp hs).1; simpa using this
    have hj : j < 2 := by have := (List.getElem?_eq_some_iff.mp ht).1; simpa using this
    rw [← Bool.not_eq_true, (ballsI_balls (21 / 100) 1).overlap]
    have : (i = 0 ∧ j = 1) ∨ (i = 1 ∧ j = 0) := by omega
    rcases this with ⟨rfl, rfl⟩ | ⟨rfl, rfl⟩
    · simp only [List.getElem?_cons_zero, List.getElem?_cons_succ, Option.some.injEq] at hs ht
      subst hs; subst ht
      refine fun hlt => key n 1 (Or.inl rfl) (lt_of_eq_of_lt ?_ hlt)
      simp [dist2, Box.relToAbs, slantDims, lattice, combo, Mat3.mulVec, Vec3.dot, Mat3.c0, Mat3.c1, Mat3.c2]; ring
    · simp only [List.getElem?_cons_zero, List.getElem?_cons_succ, Option.some.injEq] at hs ht
      subst hs; subst ht
      refine fun hlt => key n (-1) (Or.inr rfl) (lt_of_eq_of_lt ?_ hlt)
      simp [dist2, Box.relToAbs, slantDims, lattice, combo, Mat3.mulVec, Vec3.dot, Mat3.c0, Mat3.c1, Mat3.c2]; ring
  obtain ⟨P', e, k, e1, e2, e3⟩ := skipped h rfl (ballsI_translation _ _ _) rfl hoff hm (Box.make_wf (make_of_det hd')).1 hup
    (u := ⟨1 / 2, 1 / 4, 1 / 2⟩) (v := ⟨3 / 10, 13 / 20, 1 / 2⟩) (by rw [hb]) (by rw [hb])
    (by intro i; fin_cases i <;> norm_num [Vec3.get]) (by
      rw [(ballsI_balls (21 / 100) 1).overlap]
      simp only [dist2, Box.relToAbs, slantDims', Mat3.mulVec, Vec3.dot, Vec3.add_x, Vec3.add_y, Vec3.add_z, Vec3.zero_x, Vec3.zero_y, Vec3.zero_z]
      norm_num)
  obtain ⟨K, ek, hK⟩ := count_exact h.inv.1 h.inv.2
  rw [numTotal_zero h.inv.1 h.inv.2 rfl (ballsI_translation _ _ _) hw hno] at hK
  have hK : K = 0 := by exact_mod_cast hK
  refine ⟨P, _, _, ⟨slantDims', slantDims'.inverse⟩, ⟨2, 101 / 100, 101 / 100⟩, P', e, k, h, ballsI_balls _ _, ballsI_translation _ _ _, rfl,
    ⟨slantDims', make_of_det hd', ?_, ?_, ?_⟩, by norm_num, by norm_num, by norm_num, hno, by rw [ek, hK], e1, e2, e3⟩ <;>
  · rw [hb]; ext <;> simp [slantDims, slantDims', Mat3.c0, Mat3.c1, Mat3.c2]

/-! ### Rods -/

/-- A rod along the diagonal of the xy plane. -/
def rodBody (p : Vec3 ℝ) : Prop := |p.x - p.y| < 1 / 20 ∧ |p.x + p.y| < 1 ∧ |p.z| < 1 / 20

open Classical in
/-- Hard rods. -/
noncomputable def rodsI : Interaction where
  hasHard := true
  hasSoft := false
  isConvex := true
  centres := []
  range := 2
  totalRange := 2
  overlap := fun x y bc => decide (Orthogonal x.rot ∧ Orthogonal y.rot ∧ ∃ p q, rodBody p ∧ rodBody q ∧
    x.pos + x.rot.mulVec p = y.pos + bc.translation x.pos y.pos + y.rot.mulVec q)
  energy := fun _ _ _ => 0
  wall := fun _ _ _ => false

theorem orthogonal_norm2 {R : Mat3} (h : Orthogonal R) (v : Vec3 ℝ) : (R.mulVec v).norm2 = v.norm2 := by
  have e : (R.mulVec v).norm2 = v.dot ((R.transpose * R).mulVec v) := by
    simp only [Vec3.norm2, Mat3.mulVec, Mat3.mul_def, Mat3.mul, Mat3.transpose, Vec3.dot, Mat3.c0, Mat3.c1, Mat3.c2]; ring
  rw [e, h, Mat3.one_mulVec]; rfl

theorem rodBody_norm2 {p : Vec3 ℝ} (h : rodBody p) : p.norm2 ≤ 1 := by
  obtain ⟨h1, h2, h3⟩ := h
  rw [abs_lt] at h1 h2 h3
  simp only [Vec3.norm2, Vec3.dot]
  nlinarith

theorem rodsI_flip (x y : Site) (t : Vec3 ℝ) (p q : Vec3 ℝ) :
    x.pos + x.rot.mulVec p = y.pos + t + y.rot.mulVec q ↔ y.pos + y.rot.mulVec q = x.pos + -t + x.rot.mulVec p := by
  constructor <;> intro h
  · have : y.pos + y.rot.mulVec q = (y.pos + t + y.rot.mulVec q) - t := by abel
    rw [this, ← h]; abel
  · have : x.pos + x.rot.mulVec p = (x.pos + -t + x.rot.mulVec p) + t := by abel
    rw [this, ← h]; abel

theorem rodsI_contract : Contract rodsI where
  range_pos := by norm_num [rodsI]
  overlap_symm := by
    intro s1 s2 t
    simp only [rodsI, BC.hard]
    rw [decide_eq_decide]
    constructor
    · rintro ⟨h1, h2, p, q, hp, hq, he⟩; exact ⟨h2, h1, q, p, hq, hp, (rodsI_flip _ _ _ _ _).mp he⟩
    · rintro ⟨h1, h2, p, q, hp, hq, he⟩; exact ⟨h2, h1, q, p, hq, hp, (rodsI_flip _ _ _ _ _).mpr he⟩
  overlap_symm_pbc := by
    intro m b s1 s2 hb
    have e := (C06_translation hb s1.pos s2.pos).2.2.2.2
    simp only [rodsI, BC.pbc]
    rw [decide_eq_decide, e]
    constructor
    · rintro ⟨h1, h2, p, q, hp, hq, he⟩; exact ⟨h2, h1, q, p, hq, hp, (rodsI_flip _ _ _ _ _).mp he⟩
    · rintro ⟨h1, h2, p, q, hp, hq, he⟩; exact ⟨h2, h1, q, p, hq, hp, (rodsI_flip _ _ _ _ _).mpr he⟩
  overlap_range := by
    intro s1 s2 t h
    simp only [rodsI, BC.hard, decide_eq_true_eq] at h ⊢
    obtain ⟨h1, h2, p, q, hp, hq, he⟩ := h
    have n1 := rodBody_norm2 hp
    have n2 := rodBody_norm2 hq
    rw [← orthogonal_norm2 h1] at n1
    rw [← orthogonal_norm2 h2] at n2
    have ed : s2.pos + t - s1.pos = s1.rot.mulVec p - s2.rot.mulVec q := by
      rw [eq_sub_iff_add_eq, sub_add_eq_add_sub, ← he]; abel
    have e : dist2 s1.pos (s2.pos + t) = (s1.rot.mulVec p - s2.rot.mulVec q).norm2 := by
      rw [← ed]; simp only [dist2, Vec3.norm2, Vec3.dot, Vec3.sub_x, Vec3.sub_y, Vec3.sub_z]; ring
    rw [e]
    simp only [Vec3.norm2, Vec3.dot, Vec3.sub_x, Vec3.sub_y, Vec3.sub_z] at n1 n2 ⊢
    nlinarith [sq_nonneg ((s1.rot.mulVec p).x + (s2.rot.mulVec q).x), sq_nonneg ((s1.rot.mulVec p).y + (s2.rot.mulVec q).y),
      sq_nonneg ((s1.rot.mulVec p).z + (s2.rot.mulVec q).z)]
  energy_symm := by intros; rfl
  energy_symm_pbc := by intros; rfl
  energy_range := by intro _ _ _ h; simp [rodsI] at h
  noHard_overlap := by intro h; simp [rodsI] at h
  noHard_wall := by intros; rfl

theorem rodsI_translation : UsesTranslation rodsI := ⟨fun _ _ _ => rfl, fun _ _ _ => rfl⟩

theorem rodsI_convex : ConvexBodies rodsI rodBody where
  single := rfl
  middle := by norm_num [rodBody]
  convex := by
    intro p q c hp hq h0 h1
    obtain ⟨a1, a2, a3⟩ := hp
    obtain ⟨b1, b2, b3⟩ := hq
    rw [abs_lt] at a1 a2 a3 b1 b2 b3
    have comb : ∀ u v w : ℝ, (-w < u ∧ u < w) → (-w < v ∧ v < w) → |c * u + (1 - c) * v| < w := by
      intro u v w hu hv
      rw [abs_lt]
      constructor
      · by_cases hc : c = 0
        · subst hc; linarith
        · have : 0 < c := lt_of_le_of_ne h0 (Ne.symm hc)
          nlinarith
      · by_cases hc : c = 0
        · subst hc; linarith
        · have : 0 < c := lt_of_le_of_ne h0 (Ne.symm hc)
          nlinarith
    refine ⟨?_, ?_, ?_⟩
    · have := comb _ _ _ a1 b1
      convert this using 2
      simp; ring
    · have := comb _ _ _ a2 b2
      convert this using 2
      simp; ring
    · exact comb _ _ _ a3 b3
  overlap := by
    intro x y t hx hy
    simp only [rodsI, BC.hard, decide_eq_true_eq]
    exact ⟨fun h => h.2.2, fun h => ⟨hx, hy, h⟩⟩

theorem rod_touch {p q : Vec3 ℝ} {d : Vec3 ℝ} (hp : rodBody p) (hq : rodBody q) (h : p - q = d) : |d.x - d.y| < 1 / 10 := by
  obtain ⟨h1, -, -⟩ := hp
  obtain ⟨h2, -, -⟩ := hq
  rw [abs_lt] at h1 h2 ⊢
  rw [← h]
  simp only [Vec3.sub_x, Vec3.sub_y]
  constructor <;> linarith

/-- Two parallel rods in a cube of side 4, not overlapping. -/
theorem rods_reachable : ∃ P, Reachable P rodsI ∧ mols P = [⟨⟨1, 1, 1⟩, 1⟩, ⟨⟨6 / 5, 8 / 5, 1⟩, 1⟩] ∧
    P.box = ⟨Mat3.diag 4 4 4, (Mat3.diag 4 4 4).inverse⟩ ∧ P.hasWall = ⟨false, false, false⟩ ∧ P.overlapCounting = false ∧
    NoOverlaps P.box rodsI (mols P) := by
  have hd : (Mat3.diag 4 4 4).det ≠ 0 := by norm_num [Mat3.diag, Mat3.det]
  have hin : ∀ x y z : ℝ, (0 ≤ x ∧ x < 4) → (0 ≤ y ∧ y < 4) → (0 ≤ z ∧ z < 4) → Inside ⟨Mat3.diag 4 4 4, (Mat3.diag 4 4 4).inverse⟩ ⟨x, y, z⟩ := by
    intro x y z hx hy hz
    refine ⟨⟨x / 4, y / 4, z / 4⟩, ⟨by linarith, by linarith⟩, ⟨by linarith, by linarith⟩, ⟨by linarith, by linarith⟩, ?_⟩
    ext <;> simp [combo, Mat3.diag, Mat3.c0, Mat3.c1, Mat3.c2]
  obtain ⟨P, h, hm, hb, hw, hoff⟩ := pair_reachable rodsI_contract (make_of_det hd) (s := ⟨⟨1, 1, 1⟩, 1⟩) (t := ⟨⟨6 / 5, 8 / 5, 1⟩, 1⟩)
    (hin _ _ _ (by norm_num) (by norm_num) (by norm_num)) (hin _ _ _ (by norm_num) (by norm_num) (by norm_num)) rfl
  refine ⟨P, h, hm, hb, hw, hoff, ?_⟩
  rw [hm, hb]
  intro i j s t hs ht hij n
  have hi : i < 2 := by have := (List.getElem?_eq_some_iff.mp hs).1; simpa using this
  have hj : j < 2 := by have := (List.getElem?_eq_some_iff.mp ht).1; simpa using this
  have key : ∀ c : ℝ, c = 2 / 5 ∨ c = -(2 / 5) → ¬ |c + 4 * ((n.x : ℝ) - n.y)| < 1 / 10 := by
    intro c hc hlt
    rw [abs_lt] at hlt
    rcases lt_trichotomy (n.x - n.y) 0 with h0 | h0 | h0
    · have : ((n.x : ℝ) - n.y) ≤ -1 := by exact_mod_cast Int.le_sub_one_of_lt h0
      rcases hc with rfl | rfl <;> linarith
    · have : ((n.x : ℝ) - n.y) = 0 := by exact_mod_cast h0
      rw [this] at hlt
      rcases hc with rfl | rfl <;> linarith
    · have : (1 : ℝ) ≤ ((n.x : ℝ) - n.y) := by exact_mod_cast h0
      rcases hc with rfl | rfl <;> linarith
  have ho : Orthogonal 1 := one_orthogonal
  rw [← Bool.not_eq_true]
  have : (i = 0 ∧ j = 1) ∨ (i = 1 ∧ j = 0) := by omega
  rcases this with ⟨rfl, rfl⟩ | ⟨rfl, rfl⟩
  · simp only [List.getElem?_cons_zero, List.getElem?_cons_succ, Option.some.injEq] at hs ht
    subst hs; subst ht
    rw [rodsI_convex.overlap _ _ _ ho ho]
    rintro ⟨p, q, hp, hq, he⟩
    simp only [Mat3.one_mulVec] at he
    have hpq : p - q = ⟨1 / 5, 3 / 5, 0⟩ + lattice ⟨Mat3.diag 4 4 4, (Mat3.diag 4 4 4).inverse⟩ n := by
      rw [sub_eq_iff_eq_add]
      have : p = (⟨1, 1, 1⟩ + p) - ⟨1, 1, 1⟩ := by abel
      rw [this, he]
      ext <;> simp <;> ring
    have := rod_touch hp hq hpq
    refine key (-(2 / 5)) (Or.inr rfl) (lt_of_eq_of_lt ?_ this)
    congr 1
    simp [lattice, combo, Mat3.diag, Mat3.c0, Mat3.c1, Mat3.c2]; ring
  · simp only [List.getElem?_cons_zero, List.getElem?_cons_succ, Option.some.injEq] at hs ht
    subst hs; subst ht
    rw [rodsI_convex.overlap _ _ _ ho ho]
    rintro ⟨p, q, hp, hq, he⟩
    simp only [Mat3.one_mulVec] at he
    have hpq : p - q = ⟨-(1 / 5), -(3 / 5), 0⟩ + lattice ⟨Mat3.diag 4 4 4, (Mat3.diag 4 4 4).inverse⟩ n := by
      rw [sub_eq_iff_eq_add]
      have : p = (⟨6 / 5, 8 / 5, 1⟩ + p) - ⟨6 / 5, 8 / 5, 1⟩ := by abel
      rw [this, he]
      ext <;> simp <;> ring
    have := rod_touch hp hq hpq
    refine key (2 / 5) (Or.inl rfl) (lt_of_eq_of_lt ?_ this)
    congr 1
    simp [lattice, combo, Mat3.diag, Mat3.c0, Mat3.c1, Mat3.c2]; ring

/-- The hypotheses of C18 for convex bodies are met by two rods. -/
example : ∃ P I B, ∃ c : ℝ, ∃ b, Reachable P I ∧ ConvexBodies I B ∧ UsesTranslation I ∧ P.hasWall = ⟨false, false, false⟩ ∧
    (∀ s ∈ mols P, Orthogonal s.rot) ∧ 0 < c ∧ Box.make (c • P.box.dims) = .ok b ∧ isBoxUpscaled P.box b = true ∧
    NoOverlaps P.box I (mols P) ∧ (mols P).length = 2 := by
  obtain ⟨P, h, hm, hb, hw, -, hno⟩ := rods_reachable
  have hd : ((2 : ℝ) • P.box.dims).det ≠ 0 := by rw [hb]; simp [Mat3.diag, Mat3.det]
  refine ⟨P, _, _, 2, _, h, rodsI_convex, rodsI_translation, hw, ?_, by norm_num, make_of_det hd, ?_, hno, by rw [hm]; rfl⟩
  · rw [hm]
    intro s hs
    simp only [List.mem_cons, List.not_mem_nil, or_false] at hs
    rcases hs with rfl | rfl <;> exact one_orthogonal
  · rw [hb]
    simp only [isBoxUpscaled, Box.sides_cols, sideUpscaled, Mat3.diag, Mat3.c0, Mat3.c1, Mat3.c2, Vec3.dot, Vec3.norm2,
      Mat3.smul_r0, Mat3.smul_r1, Mat3.smul_r2, Vec3.smul_x, Vec3.smul_y, Vec3.smul_z]
    norm_num

/-- The hypotheses of C18 for balls are met by two balls in the unit cube, stretched differently along the axes. -/
example : ∃ P I d f M b, Reachable P I ∧ Balls I d ∧ UsesTranslation I ∧ P.hasWall = ⟨false, false, false⟩ ∧ Rectangular P.box ∧
    Box.make M = .ok b ∧ M.c0 = (f : Vec3 ℝ).x • P.box.dims.c0 ∧ M.c1 = f.y • P.box.dims.c1 ∧ M.c2 = f.z • P.box.dims.c2 ∧
    isBoxUpscaled P.box b = true ∧ NoOverlaps P.box I (mols P) ∧ (mols P).length = 2 := by
  obtain ⟨P, h, hm, hb, hw, -⟩ := pair_reachable (ballsI_contract [] (r := 1 / 10) (by norm_num) 1) unitBox_ok (s := ⟨⟨1 / 4, 1 / 4, 1 / 4⟩, 1⟩)
    (t := ⟨⟨3 / 4, 3 / 4, 3 / 4⟩, 1⟩) (unitBox_inside (by norm_num) (by norm_num) (by norm_num)) (unitBox_inside (by norm_num) (by norm_num) (by norm_num)) rfl
  have hd : (Mat3.diag 2 3 4).det ≠ 0 := by norm_num [Mat3.diag, Mat3.det]
  refine ⟨P, _, _, ⟨2, 3, 4⟩, _, _, h, ballsI_balls _ _, ballsI_translation _ _ _, hw, ?_, make_of_det hd, ?_, ?_, ?_, ?_, ?_, by rw [hm]; rfl⟩
  · rw [hb]; norm_num [Rectangular, Mat3.diag, Mat3.c0, Mat3.c1, Mat3.c2, Vec3.dot]
  · rw [hb]; ext <;> simp [Mat3.diag, Mat3.c0]
  · rw [hb]; ext <;> simp [Mat3.diag, Mat3.c1]
  · rw [hb]; ext <;> simp [Mat3.diag, Mat3.c2]
  · rw [hb]
    simp only [isBoxUpscaled, Box.sides_cols, sideUpscaled, Mat3.diag, Mat3.c0, Mat3.c1, Mat3.c2, Vec3.dot, Vec3.norm2]
    norm_num
  · rw [hm, hb]
    have key : ∀ (k : ℤ) (c : ℝ), c = 1 / 2 ∨ c = -(1 / 2) → 1 / 4 ≤ (c + (k : ℝ)) ^ 2 := by
      intro k c hc
      rcases lt_trichotomy k 0 with h0 | h0 | h0
      · have : (k : ℝ) ≤ -1 := by exact_mod_cast Int.le_sub_one_of_lt h0
        rcases hc with rfl | rfl <;> nlinarith
      · subst h0; rcases hc with rfl | rfl <;> norm_num
      · have : (1 : ℝ) ≤ k := by exact_mod_cast h0
        rcases hc with rfl | rfl <;> nlinarith
    intro i j s t hs ht hij n
    have hi : i < 2 := by have := (List.getElem?_eq_some_iff.mp hs).1; simpa using this
    have hj : j < 2 := by have := (List.getElem?_eq_some_iff.mp ht).1; simpa using this
    rw [← Bool.not_eq_true, (ballsI_balls (1 / 10) 1).overlap]
    have : (i = 0 ∧ j = 1) ∨ (i = 1 ∧ j = 0) := by omega
    have k1 := key n.x
    have k2 := key n.y
    have k3 := key n.z
    rcases this with ⟨rfl, rfl⟩ | ⟨rfl, rfl⟩
    · simp only [List.getElem?_cons_zero, List.getElem?_cons_succ, Option.some.injEq] at hs ht
      subst hs; subst ht
      intro hlt
      simp [dist2, lattice, combo, Mat3.diag, Mat3.c0, Mat3.c1, Mat3.c2] at hlt
      nlinarith [k1 _ (Or.inl rfl), k2 _ (Or.inl rfl), k3 _ (Or.inl rfl)]
    · simp only [List.getElem?_cons_zero, List.getElem?_cons_succ, Option.some.injEq] at hs ht
      subst hs; subst ht
      intro hlt
      simp [dist2, lattice, combo, Mat3.diag, Mat3.c0, Mat3.c1, Mat3.c2] at hlt
      nlinarith [k1 _ (Or.inr rfl), k2 _ (Or.inr rfl), k3 _ (Or.inr rfl)]

/-- C18 does not hold for convex bodies other than balls, even in rectangular boxes: when the sides of a cube are extended by
different factors, two rods which did not overlap do overlap then, the check is skipped, and the change is not refused. -/
theorem C18_rods_violated : ∃ P I B b f P' e k, Reachable P I ∧ ConvexBodies I B ∧ UsesTranslation I ∧ I.isConvex = true ∧
    (∀ s ∈ mols P, Orthogonal s.rot) ∧ Rectangular P.box ∧
    (∃ M, Box.make M = .ok b ∧ M.c0 = (f : Vec3 ℝ).x • P.box.dims.c0 ∧ M.c1 = f.y • P.box.dims.c1 ∧ M.c2 = f.z • P.box.dims.c2) ∧
    1 < f.x ∧ 1 < f.y ∧ 1 < f.z ∧ NoOverlaps P.box I (mols P) ∧ P.countTotalOverlaps I false = .ok 0 ∧
    P.tryScaling I b = .ok (P', .fin e) ∧ P'.countTotalOverlaps I false = .ok k ∧ 0 < k := by
  obtain ⟨P, h, hm, hb, hw, hoff, hno⟩ := rods_reachable
  have hd : (Mat3.diag 12 (101 / 25) (101 / 25)).det ≠ 0 := by norm_num [Mat3.diag, Mat3.det]
  have ho : Orthogonal 1 := one_orthogonal
  have hup : isBoxUpscaled P.box ⟨Mat3.diag 12 (101 / 25) (101 / 25), (Mat3.diag 12 (101 / 25) (101 / 25)).inverse⟩ = true := by
    rw [hb]
    simp only [isBoxUpscaled, Box.sides_cols, sideUpscaled, Mat3.diag, Mat3.c0, Mat3.c1, Mat3.c2, Vec3.dot, Vec3.norm2]
    norm_num
  obtain ⟨P', e, k, e1, e2, e3⟩ := skipped h rfl rodsI_translation rfl hoff hm (Box.make_wf (make_of_det hd)).1 hup
    (u := ⟨1 / 4, 1 / 4, 1 / 4⟩) (v := ⟨3 / 10, 2 / 5, 1 / 4⟩)
    (by rw [hb]; norm_num [Box.relToAbs, Mat3.diag, Mat3.mulVec, Vec3.dot])
    (by rw [hb]; norm_num [Box.relToAbs, Mat3.diag, Mat3.mulVec, Vec3.dot])
    (by intro i; fin_cases i <;> norm_num [Vec3.get]) (by
      rw [rodsI_convex.overlap _ _ _ ho ho]
      refine ⟨⟨3 / 10, 303 / 1000, 0⟩, ⟨-3 / 10, -303 / 1000, 0⟩, ?_, ?_, ?_⟩
      · simp only [rodBody, abs_lt]; norm_num
      · simp only [rodBody, abs_lt]; norm_num
      · simp only [Mat3.one_mulVec]
        ext <;> norm_num [Box.relToAbs, Mat3.diag, Mat3.mulVec, Vec3.dot])
  obtain ⟨K, ek, hK⟩ := count_exact h.inv.1 h.inv.2
  rw [numTotal_zero h.inv.1 h.inv.2 rfl rodsI_translation hw hno] at hK
  have hK : K = 0 := by exact_mod_cast hK
  refine ⟨P, _, _, ⟨Mat3.diag 12 (101 / 25) (101 / 25), _⟩, ⟨3, 101 / 100, 101 / 100⟩, P', e, k, h, rodsI_convex, rodsI_translation, rfl, ?_, ?_,
    ⟨Mat3.diag 12 (101 / 25) (101 / 25), make_of_det hd, ?_, ?_, ?_⟩, by norm_num, by norm_num, by norm_num, hno, by rw [ek, hK], e1, e2, e3⟩
  · rw [hm]
    intro s hs
    simp only [List.mem_cons, List.not_mem_nil, or_false] at hs
    rcases hs with rfl | rfl <;> exact one_orthogonal
  · rw [hb]; norm_num [Rectangular, Mat3.diag, Mat3.c0, Mat3.c1, Mat3.c2, Vec3.dot]
  all_goals
  · rw [hb]; ext <;> norm_num [Mat3.diag, Mat3.c0, Mat3.c1, Mat3.c2]

end Rampack
