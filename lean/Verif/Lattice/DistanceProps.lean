import Verif.Lattice.DistanceLemmas
import Verif.Packing.Violations
/-
Theorems about the optimisation of distances: C55.
-/
namespace Rampack

open Spec Packing DistanceOptimizer

/-- C55: for every interaction, pair of orientations and direction of sufficient length, the distance returned, if any, is non-overlapping and there is an
overlapping distance which is smaller by at most 10^-12. The call is refused if and only if the interaction has no hard part, molecules with the same centres do
not overlap, or they overlap for all distances 1, 2, 4, ..., 512 in the given direction. -/
theorem C55_pair {I : Interaction} {s1 s2 : Shape} {u v : Vec3 ℝ} {len : ℝ} (hlen : v.norm2 > 1 / 10 ^ 12) (hpos : 0 < len) (hu : u.norm2 = 1) (hv : v = len • u) :
    (∀ d, minimizeForDirection s1 s2 v I = .ok d → ¬ OverlapAt I s1.rot s2.rot (d • u) ∧
      ∃ d', 0 ≤ d' ∧ d' < d ∧ d - d' ≤ precision ∧ OverlapAt I s1.rot s2.rot (d' • u)) ∧
    ((∃ d, minimizeForDirection s1 s2 v I = .ok d) ↔ I.hasHard = true ∧ OverlapAt I s1.rot s2.rot 0 ∧ ∃ k : ℕ, k ≤ 9 ∧ ¬ OverlapAt I s1.rot s2.rot ((2 : ℝ) ^ k • u)) ∧
    ((∃ d, minimizeForDirection s1 s2 v I = .ok d) ∨ ∃ m, minimizeForDirection s1 s2 v I = .throw m) := by
  have hun : u.norm = 1 := by unfold Vec3.norm; rw [hu, Real.sqrt_one]
  have hvn : v.norm = len := by
    have : v.norm2 = len ^ 2 := by
      rw [hv]
      have : (len • u).norm2 = len ^ 2 * u.norm2 := by simp only [Vec3.norm2, Vec3.dot, Vec3.smul_x, Vec3.smul_y, Vec3.smul_z]; ring
      rw [this, hu, mul_one]
    unfold Vec3.norm
    rw [this, Real.sqrt_sq hpos.le]
  have hn : normalized v = u := by
    unfold normalized
    rw [hvn, hv]
    have := hpos.ne'
    ext <;> simp only [Vec3.smul_x, Vec3.smul_y, Vec3.smul_z] <;> field_simp
  have hzero : (0 : ℝ) • u = 0 := by ext <;> simp
  set ov := fun d : ℝ => I.overlapBetweenShapes ⟨0, s1.rot⟩ ⟨d • u, s2.rot⟩ BC.free with hov
  have key : ∀ d, ov d = true ↔ OverlapAt I s1.rot s2.rot (d • u) := fun d => overlapAt_iff
  unfold minimizeForDirection
  rw [decide_eq_true (show v.norm2 > epsilon from hlen), Outcome.require_true, Outcome.ok_bind, hn]
  simp only
  cases hh : I.hasHard with
  | false =>
    have e : ∀ {α : Type} (x : Unit → Outcome α), (Outcome.require false "Expects(interaction.hasHardPart())" >>= x) = .throw "Expects(interaction.hasHardPart())" := fun _ => rfl
    rw [e]
    exact ⟨fun d h => (by cases h), ⟨fun h => (by obtain ⟨_, h⟩ := h; cases h), fun h => (by cases h.1)⟩, Or.inr ⟨_, rfl⟩⟩
  | true =>
    rw [Outcome.require_true, Outcome.ok_bind]
    have e0 : I.overlapBetweenShapes ⟨0, s1.rot⟩ ⟨0, s2.rot⟩ BC.free = ov 0 := by rw [hov]; simp only; rw [hzero]
    rw [e0]
    cases h0 : ov 0 with
    | false =>
      have hno : ¬ OverlapAt I s1.rot s2.rot 0 := by
        rw [← hzero, ← key, h0]
        exact Bool.false_ne_true
      have e : ∀ {α : Type} (x : Unit → Outcome α), (Outcome.require false "Assert(overlapBetweenShapes)" >>= x) = .throw "Assert(overlapBetweenShapes)" := fun _ => rfl
      rw [e]
      exact ⟨fun d h => (by cases h), ⟨fun h => (by obtain ⟨_, h⟩ := h; cases h), fun h => (hno h.2.1).elim⟩, Or.inr ⟨_, rfl⟩⟩
    | true =>
      have hyes : OverlapAt I s1.rot s2.rot 0 := by rw [← hzero, ← key]; exact h0
      rw [Outcome.require_true, Outcome.ok_bind]
      rcases findMax_total (ov := ov) (k := 0) (by omega) with ⟨d, e, j, -, hj, ed⟩ | ⟨⟨m, e⟩, hall⟩
      · rw [e, Outcome.ok_bind]
        have hd := (findMax_ok e).1
        have hdp : 0 < d := by rw [ed]; positivity
        obtain ⟨b1, b2, d', b3, b4, b5, b6⟩ := bisect_ok hdp h0 hd
        refine ⟨?_, ?_, Or.inl ⟨_, rfl⟩⟩
        · intro r hr
          cases hr
          refine ⟨?_, d', b3, b4, b5, (key _).mp b6⟩
          rw [← key, b1]
          exact Bool.false_ne_true
        · refine ⟨fun _ => ⟨rfl, hyes, j, hj, ?_⟩, fun _ => ⟨_, rfl⟩⟩
          rw [← ed, ← key, hd]
          exact Bool.false_ne_true
      · rw [e]
        refine ⟨fun d h => (by cases h), ⟨fun h => (by obtain ⟨_, h⟩ := h; cases h), ?_⟩, Or.inr ⟨m, rfl⟩⟩
        rintro ⟨-, -, k, hk, hk'⟩
        exact (hk' ((key _).mp (hall k (Nat.zero_le _) hk))).elim

/-- C55: if molecules overlap exactly below some contact distance, then the distance returned is the contact distance or larger by at most 10^-12. -/
theorem C55_contact {I : Interaction} {s1 s2 : Shape} {u v : Vec3 ℝ} {len c d : ℝ} (hlen : v.norm2 > 1 / 10 ^ 12) (hpos : 0 < len) (hu : u.norm2 = 1) (hv : v = len • u)
    (hc : ∀ t, 0 ≤ t → (OverlapAt I s1.rot s2.rot (t • u) ↔ t < c)) (h : minimizeForDirection s1 s2 v I = .ok d) : c ≤ d ∧ d ≤ c + precision := by
  obtain ⟨h1, d', h2, h3, h4, h5⟩ := (C55_pair hlen hpos hu hv).1 d h
  rw [hc d (by linarith)] at h1
  rw [hc d' h2] at h5
  exact ⟨not_lt.mp h1, by linarith⟩

/-- C55: the distances for the three axes are the ones for the directions of the axes. -/
theorem C55_axes (I : Interaction) (s1 s2 : Shape) (r : Vec3 ℝ) : minimizeForAxes s1 s2 I = .ok r ↔
    minimizeForDirection s1 s2 ⟨1, 0, 0⟩ I = .ok r.x ∧ minimizeForDirection s1 s2 ⟨0, 1, 0⟩ I = .ok r.y ∧ minimizeForDirection s1 s2 ⟨0, 0, 1⟩ I = .ok r.z := by
  unfold minimizeForAxes
  constructor
  · intro h
    obtain ⟨x, hx, h⟩ := Outcome.bind_eq_ok.mp h
    obtain ⟨y, hy, h⟩ := Outcome.bind_eq_ok.mp h
    obtain ⟨z, hz, h⟩ := Outcome.bind_eq_ok.mp h
    obtain rfl := Outcome.ok_inj.mp h
    exact ⟨hx, hy, hz⟩
  · rintro ⟨hx, hy, hz⟩
    rw [hx, hy, hz]
    rfl

theorem ball_overlap {r : ℝ} (hr : 0 < r) {u : Vec3 ℝ} (hu : u.norm2 = 1) (R1 R2 : Mat3) {t : ℝ} (ht : 0 ≤ t) : OverlapAt (ballsI [] r r) R1 R2 (t • u) ↔ t < 2 * r := by
  have e : dist2 (0 : Vec3 ℝ) (t • u + 0) = t ^ 2 := by
    have : dist2 (0 : Vec3 ℝ) (t • u + 0) = t ^ 2 * u.norm2 := by
      simp only [dist2, Vec3.norm2, Vec3.dot, Vec3.add_x, Vec3.add_y, Vec3.add_z, Vec3.zero_x, Vec3.zero_y, Vec3.zero_z, Vec3.smul_x, Vec3.smul_y, Vec3.smul_z]
      ring
    rw [this, hu, mul_one]
  unfold OverlapAt ballsI
  simp only [BC.free, e, decide_eq_true_eq, true_and, List.getElem?_nil, reduceCtorEq, false_and, exists_const, or_false]
  exact sq_lt_sq₀ ht (by linarith)

/-- Two balls of radius 3: the distance found is between 6 and 6 + 10^-12. -/
example : ∃ d, minimizeForDirection ⟨⟨5, 6, 7⟩, 1⟩ ⟨⟨1, 2, 3⟩, 1⟩ ⟨0, 3, 4⟩ (ballsI [] 3 3) = .ok d ∧ 6 ≤ d ∧ d ≤ 6 + precision := by
  have hu : (⟨0, 3 / 5, 4 / 5⟩ : Vec3 ℝ).norm2 = 1 := by norm_num [Vec3.norm2, Vec3.dot]
  have hv : (⟨0, 3, 4⟩ : Vec3 ℝ) = (5 : ℝ) • (⟨0, 3 / 5, 4 / 5⟩ : Vec3 ℝ) := by ext <;> norm_num
  have hl : (⟨0, 3, 4⟩ : Vec3 ℝ).norm2 > 1 / 10 ^ 12 := by norm_num [Vec3.norm2, Vec3.dot]
  have hb : ∀ t : ℝ, 0 ≤ t → _ := fun t => ball_overlap (r := 3) (by norm_num) hu 1 1 (t := t)
  have hz : OverlapAt (ballsI [] 3 3) 1 1 0 := by
    have := (hb 0 (le_refl _)).mpr (by norm_num)
    rwa [show (0 : ℝ) • (⟨0, 3 / 5, 4 / 5⟩ : Vec3 ℝ) = 0 by ext <;> simp] at this
  obtain ⟨d, hd⟩ := ((C55_pair (I := ballsI [] 3 3) (s1 := ⟨⟨5, 6, 7⟩, 1⟩) (s2 := ⟨⟨1, 2, 3⟩, 1⟩) hl (by norm_num) hu hv).2.1).mpr ⟨rfl, hz, 3, by omega, by
    rw [hb _ (by positivity)]; norm_num⟩
  have := C55_contact hl (by norm_num) hu hv (c := 6) (fun t ht => by rw [hb t ht]; norm_num) hd
  exact ⟨d, hd, this⟩

theorem parse_cases (s : List Char) : (∃ a, parseAxisOrder s = .ok a ∧ ThreeAxes a ∧ s = [axisLetter a.x, axisLetter a.y, axisLetter a.z]) ∨ ∃ m, parseAxisOrder s = .throw m := by
  by_cases h : ∃ a : Vec3 (Fin 3), (a.x ≠ a.y ∧ a.x ≠ a.z ∧ a.y ≠ a.z) ∧ s = [axisLetter a.x, axisLetter a.y, axisLetter a.z]
  · obtain ⟨a, h1, h2⟩ := h
    exact Or.inl ⟨a, ((C42_axes s).1 a).mpr ⟨h1, h2⟩, h1, h2⟩
  · exact Or.inr ((C42_axes s).2 fun a h1 h2 => h ⟨a, h1, h2⟩)

theorem before_iff {a1 a2 a3 : Fin 3} (n12 : a1 ≠ a2) (n13 : a1 ≠ a3) (n23 : a2 ≠ a3) (b c : Fin 3) :
    AxisBefore [axisLetter a1, axisLetter a2, axisLetter a3] b c ↔ (b = a1 ∧ c ≠ a1) ∨ (b = a2 ∧ c = a3) := by
  revert a1 a2 a3 b c
  unfold AxisBefore
  decide

/-- Factors of the sides when axis `a` is optimised and its factor is `k`: the axes which are before it have been optimised already. -/
noncomputable def stageFactors (order : List Char) (f : Vec3 ℝ) (a : Fin 3) (k : ℝ) : Vec3 ℝ :=
  Vec3.ofFn fun b => if b = a then k else if AxisBefore order b a then f.get b else 1

theorem moved_rel {P : Packing} {I : Interaction} (h : PInv P I) {f g : Vec3 ℝ} (hf : Pos f) {b : Box} (hb : Box.make (stretch P.box.dims f) = .ok b) (s : Shape) :
    b.absToRel ((stretch P.box.dims g).mulVec (P.box.absToRel s.pos)) =
      ⟨g.x / f.x * (P.box.absToRel s.pos).x, g.y / f.y * (P.box.absToRel s.pos).y, g.z / f.z * (P.box.absToRel s.pos).z⟩ :=
  rel_of_stretch h.q.core.box.det_ne hf hb _

/-- C55, whole packings: shrinking a packing either is refused or gives a packing without overlaps, which differs from the initial one only by factors of the sides of
the box: orientations are unchanged and so are relative positions, up to a factor 1 + 10^-12. No factor is larger than 1 + 10^-12. Each side is nearly as short as possible when its turn comes: with
a factor smaller by at most 2 * 10^-12 (and sides before it in the order being already shrunk, and the ones after it not yet) the packing has overlaps. -/
theorem C55_shrink {P : Packing} {I : Interaction} (h : Reachable P I) (hR : 0 < I.totalRange) (order : List Char) :
    (∃ m, shrinkPacking P I order = .throw m) ∨
    ∃ P' f, shrinkPacking P I order = .ok P' ∧ Box.make (stretch P.box.dims f) = .ok P'.box ∧ (∀ a, 0 < f.get a ∧ f.get a ≤ 1 + precision) ∧
      P'.countTotalOverlaps I false = .ok 0 ∧ P'.hasWall = P.hasWall ∧
      List.Forall₂ (fun s t => t.rot = s.rot ∧ ∀ a, (P'.box.absToRel t.pos).get a ≤ (P.box.absToRel s.pos).get a ∧
        (P.box.absToRel s.pos).get a ≤ (1 + precision) * (P'.box.absToRel t.pos).get a) (mols P) (mols P') ∧
      ∀ a, ∃ k, 0 < k ∧ k < f.get a ∧ f.get a - k ≤ 2 * precision ∧ OverlapsStretched P I (stageFactors order f a k) := by
  obtain ⟨h0, hI⟩ := h.inv
  unfold shrinkPacking
  cases hh : I.hasHard with
  | false => exact Or.inl ⟨_, rfl⟩
  | true =>
  rw [Outcome.require_true, Outcome.ok_bind]
  by_cases hH : ∀ a, P.box.heights.get a > factorEpsilon * I.totalRange
  swap
  · rw [decide_eq_false hH]; exact Or.inl ⟨_, rfl⟩
  rw [decide_eq_true hH, Outcome.require_true, Outcome.ok_bind]
  obtain ⟨K, -, hK⟩ := count_numTotal h0.q hI
  obtain ⟨n, en, -⟩ := hK true
  rw [en, Outcome.ok_bind]
  by_cases hn : n = 0
  swap
  · rw [decide_eq_false hn]; exact Or.inl ⟨_, rfl⟩
  rw [decide_eq_true hn, Outcome.require_true, Outcome.ok_bind]
  simp only
  change (∃ m, (parseAxisOrder order >>= _) = _) ∨ _
  rcases parse_cases order with ⟨a, ea, ha, rfl⟩ | ⟨m, em⟩
  swap
  · rw [em]; exact Or.inl ⟨_, rfl⟩
  rw [ea, Outcome.ok_bind]
  have hrel : (P.shapes.take P.size).map (fun s => (⟨P.box.absToRel s.pos, s.rot⟩ : Shape)) = relOf P := rfl
  rw [hrel]
  obtain ⟨a1, a2, a3⟩ := a
  obtain ⟨n12, n13, n23⟩ := ha
  simp only at n12 n13 n23 ea ⊢
  have one : Pos ⟨1, 1, 1⟩ := ⟨one_pos, one_pos, one_pos⟩
  have one' : ∀ a, (⟨1, 1, 1⟩ : Vec3 ℝ).get a = 1 := by intro a; match a with | 0 => rfl | 1 => rfl | 2 => rfl
  have hF : 0 < factorEpsilon := lt_trans one_pos factor_gt
  rcases shrinkAxis_ok hI h0 hR one (one' a1) (hH a1) ⟨h0, rfl, rfl⟩ (stretch_one _).symm with ⟨m, e⟩ | ⟨P1, x1, y1, e1, r1, d1, -, -, p1, q1, s1, t1, o1⟩
  · rw [e]; exact Or.inl ⟨_, rfl⟩
  rw [e1, Outcome.ok_bind]
  have y1p : 0 < y1 := lt_trans p1 q1
  obtain ⟨f1, hf1⟩ : ∃ f, f = (⟨1, 1, 1⟩ : Vec3 ℝ).put a1 (y1 * factorEpsilon) := ⟨_, rfl⟩
  have gf1 : ∀ b, f1.get b = if b = a1 then y1 * factorEpsilon else (⟨1, 1, 1⟩ : Vec3 ℝ).get b := fun b => by rw [hf1, Vec3.get_put]
  rw [← hf1] at d1
  have pos1 : Pos f1 := by rw [hf1]; exact one.put (by positivity)
  have f12 : f1.get a2 = 1 := by rw [gf1, if_neg (Ne.symm n12), one']
  rcases shrinkAxis_ok hI h0 hR pos1 f12 (hH a2) r1 d1 with ⟨m, e⟩ | ⟨P2, x2, y2, e2, r2, d2, -, -, p2, q2, s2, t2, o2⟩
  · rw [e]; exact Or.inl ⟨_, rfl⟩
  rw [e2, Outcome.ok_bind]
  have y2p : 0 < y2 := lt_trans p2 q2
  obtain ⟨f2, hf2⟩ : ∃ f, f = f1.put a2 (y2 * factorEpsilon) := ⟨_, rfl⟩
  have gf2 : ∀ b, f2.get b = if b = a2 then y2 * factorEpsilon else f1.get b := fun b => by rw [hf2, Vec3.get_put]
  rw [← hf2] at d2
  have pos2 : Pos f2 := by rw [hf2]; exact pos1.put (by positivity)
  have f23 : f2.get a3 = 1 := by rw [gf2, if_neg (Ne.symm n23), gf1, if_neg (Ne.symm n13), one']
  rcases shrinkAxis_ok hI h0 hR pos2 f23 (hH a3) r2 d2 with ⟨m, e⟩ | ⟨P3, x3, y3, e3, r3, d3, m3, c3, p3, q3, s3, t3, o3⟩
  · rw [e]; exact Or.inl ⟨_, rfl⟩
  have y3p : 0 < y3 := lt_trans p3 q3
  obtain ⟨f3, hf3⟩ : ∃ f, f = f2.put a3 (y3 * factorEpsilon) := ⟨_, rfl⟩
  have gf3 : ∀ b, f3.get b = if b = a3 then y3 * factorEpsilon else f2.get b := fun b => by rw [hf3, Vec3.get_put]
  rw [← hf3] at d3
  have pos3 : Pos f3 := by rw [hf3]; exact pos2.put (by positivity)
  have g1 : f3.get a1 = y1 * factorEpsilon := by rw [gf3, if_neg n13, gf2, if_neg n12, gf1, if_pos rfl]
  have g2 : f3.get a2 = y2 * factorEpsilon := by rw [gf3, if_neg n23, gf2, if_pos rfl]
  have g3 : f3.get a3 = y3 * factorEpsilon := by rw [gf3, if_pos rfl]
  have cover : ∀ b, b = a1 ∨ b = a2 ∨ b = a3 := axes_cover (a := ⟨a1, a2, a3⟩) ⟨n12, n13, n23⟩
  have mk3 : Box.make (stretch P.box.dims f3) = .ok P3.box := by rw [← d3]; exact (by
      have w := r3.inv.q.core.box
      unfold Box.make
      rw [if_neg w.det_ne, ← w.inv_eq])
  have bnd : ∀ {x y : ℝ}, 0 < x → x < y → y ≤ 1 → y - x ≤ epsilon → 0 < y * factorEpsilon ∧ y * factorEpsilon ≤ 1 + precision ∧ x < y * factorEpsilon ∧ y * factorEpsilon - x ≤ 2 * precision := by
    intro x y hx hxy hy he
    have hep := epsilon_pos
    have e1 : factorEpsilon = 1 + epsilon := rfl
    have e2 : precision = epsilon := rfl
    rw [e1, e2]
    exact ⟨mul_pos (by linarith) (by linarith), by nlinarith, by nlinarith, by nlinarith⟩
  refine Or.inr ⟨P3, f3, e3, mk3, ?_, c3, r3.wall, ?_, ?_⟩
  · intro b
    rcases cover b with rfl | rfl | rfl
    · rw [g1]; exact ⟨(bnd p1 q1 s1 t1).1, (bnd p1 q1 s1 t1).2.1⟩
    · rw [g2]; exact ⟨(bnd p2 q2 s2 t2).1, (bnd p2 q2 s2 t2).2.1⟩
    · rw [g3]; exact ⟨(bnd p3 q3 s3 t3).1, (bnd p3 q3 s3 t3).2.1⟩
  · rw [m3]
    unfold moved
    rw [List.forall₂_map_right_iff, List.forall₂_same]
    intro s hs
    refine ⟨rfl, ?_⟩
    rw [moved_rel h0 pos3 mk3]
    obtain ⟨⟨w1, -⟩, ⟨w3, -⟩, w5, -⟩ := relOf_ok h0 ⟨P.box.absToRel s.pos, s.rot⟩ (List.mem_map.mpr ⟨s, hs, rfl⟩)
    simp only at w1 w3 w5
    have ratio : ∀ b, (f2.put a3 y3).get b / f3.get b ≤ 1 ∧ 1 ≤ (1 + precision) * ((f2.put a3 y3).get b / f3.get b) := by
      intro b
      have pb : 0 < f3.get b := pos_iff.mp pos3 b
      have e1 : (1 : ℝ) + precision = factorEpsilon := rfl
      rw [e1, ← mul_div_assoc, div_le_one pb, one_le_div pb, gf3, Vec3.get_put]
      have := factor_gt
      split_ifs
      · exact ⟨by nlinarith, by nlinarith⟩
      · have pb2 : 0 < f2.get b := pos_iff.mp pos2 b
        exact ⟨le_refl _, by nlinarith⟩
    have fin : ∀ {k r : ℝ}, k ≤ 1 → 1 ≤ (1 + precision) * k → 0 ≤ r → k * r ≤ r ∧ r ≤ (1 + precision) * (k * r) := by
      intro k r hk hk' hr
      exact ⟨by nlinarith, by nlinarith⟩
    intro b
    match b with
    | 0 => exact fin (ratio 0).1 (ratio 0).2 w1
    | 1 => exact fin (ratio 1).1 (ratio 1).2 w3
    | 2 => exact fin (ratio 2).1 (ratio 2).2 w5
  · have hord : ∀ b c, AxisBefore [axisLetter a1, axisLetter a2, axisLetter a3] b c ↔ (b = a1 ∧ c ≠ a1) ∨ (b = a2 ∧ c = a3) := before_iff n12 n13 n23
    intro b
    rcases cover b with rfl | rfl | rfl
    · refine ⟨x1, p1, ?_⟩
      rw [g1]
      refine ⟨(bnd p1 q1 s1 t1).2.2.1, (bnd p1 q1 s1 t1).2.2.2, ?_⟩
      convert o1 using 1
      refine Vec3.ext_get fun c => ?_
      unfold stageFactors
      rw [Vec3.get_ofFn, Vec3.get_put, one']
      by_cases hc : c = b
      · rw [if_pos hc, if_pos hc]
      · rw [if_neg hc, if_neg hc, if_neg (by rw [hord]; tauto)]
    · refine ⟨x2, p2, ?_⟩
      rw [g2]
      refine ⟨(bnd p2 q2 s2 t2).2.2.1, (bnd p2 q2 s2 t2).2.2.2, ?_⟩
      convert o2 using 1
      refine Vec3.ext_get fun c => ?_
      unfold stageFactors
      rw [Vec3.get_ofFn, Vec3.get_put]
      by_cases hc : c = b
      · rw [if_pos hc, if_pos hc]
      · rw [if_neg hc, if_neg hc]
        rcases cover c with rfl | rfl | rfl
        · rw [if_pos (by rw [hord]; tauto), g1, gf1, if_pos rfl]
        · exact (hc rfl).elim
        · rw [if_neg (by rw [hord]; tauto), gf1, if_neg (Ne.symm n13), one']
    · refine ⟨x3, p3, ?_⟩
      rw [g3]
      refine ⟨(bnd p3 q3 s3 t3).2.2.1, (bnd p3 q3 s3 t3).2.2.2, ?_⟩
      convert o3 using 1
      refine Vec3.ext_get fun c => ?_
      unfold stageFactors
      rw [Vec3.get_ofFn, Vec3.get_put]
      by_cases hc : c = b
      · rw [if_pos hc, if_pos hc]
      · rw [if_neg hc, if_neg hc]
        rcases cover c with rfl | rfl | rfl
        · rw [if_pos (by rw [hord]; tauto), g1, gf2, if_neg n12, gf1, if_pos rfl]
        · rw [if_pos (by rw [hord]; tauto), g2, gf2, if_pos rfl]
        · exact (hc rfl).elim

/-- A packing which may be shrunk: two balls, all heights are larger than the range. -/
example : ∃ P I, Reachable P I ∧ 0 < I.totalRange ∧ I.hasHard = true ∧ (∀ a, P.box.heights.get a > (1 + precision) * I.totalRange) ∧ P.size = 2 := by
  obtain ⟨P, h, -, hb, -, -, -, -, hs⟩ := two_reachable [] (by simp) (r := 1 / 20) (by norm_num) (by norm_num) (1 / 10) 1
  refine ⟨P, _, h, by norm_num [ballsI], rfl, ?_, hs⟩
  rw [hb]
  have hu : unitBox.heights = ⟨1, 1, 1⟩ := by
    rw [Box.heights, unitBox_volume, unitBox_sides]
    norm_num [Vec3.cross, Vec3.norm, Vec3.norm2, Vec3.dot]
  intro a
  match a with
  | 0 => simp [hu, ballsI, precision]; norm_num
  | 1 => simp [hu, ballsI, precision]; norm_num
  | 2 => simp [hu, ballsI, precision]; norm_num

end Rampack
