import Verif.Frontend.ShapeClassesLemmas
/-
What the matchers of shapes read: the classes with sizes.
-/
namespace Rampack.ShapeExpr

open Pyon Pyon.Spec Rampack.Input Rampack.Input.Spec Rampack.ShapeExpr.Spec Rampack.Shapes

variable {conv : ℚ → Option ℝ}

theorem discard {α : Type} {x : Outcome α} : (do let _ ← x; Outcome.ok ()) = .ok () ↔ ∃ m, x = .ok m := by
  constructor
  · intro h
    obtain ⟨m, h, -⟩ := Outcome.bind_eq_ok.mp h
    exact ⟨m, h⟩
  · rintro ⟨m, rfl⟩
    rfl

theorem made_ok {s : Species} {v : Any ℝ V} : (made s).map Any.value = .ok v ↔ s.check = .ok () ∧ v = .value (.object (.species s)) := by
  unfold made
  cases h : s.check with
  | ok u => simp [construct, ok_bind', ok_pure', ok_map', eq_comm]
  | _ => constructor <;> (intro h; simp [construct, Except.map, bind, Except.bind] at h)

theorem sphere_class (hconv : Rampack.Spec.RoundsIntegers conv) : ∃ c, createSphere conv = .ok c ∧ c.name = "sphere".toList ∧
    Interprets c.toMatcher (fun n s => ∃ a b r i, Call n "sphere" [("r", none), ("interaction", hardNode)] [a, b] ∧ IsPositive a r ∧ IsInteraction b i ∧ s = .sphere r i)
      (fun s => .object (.species s)) := by
  obtain ⟨i, ei, ri⟩ := interaction_reads
  refine ⟨_, by rw [createSphere, ei, Outcome.ok_bind, optional_ok (parse_hard hconv) (hard_run ri)]; rfl, rfl, fun n v => ?_⟩
  rw [class_run (.required (.optional (hard_run ri) .nil)) rfl (by decide) rfl rfl]
  simp only [exists_read positiveFloat_reads, exists_read ri, exists_unread]
  eval_shape
  simp only [made_ok]
  constructor
  · rintro ⟨a, r, g1, b, i, g2, g3, -, -, rfl⟩
    exact ⟨_, ⟨a, b, r, i, g3, g1, g2, rfl⟩, rfl⟩
  · rintro ⟨_, ⟨a, b, r, i, g3, g1, g2, rfl⟩, rfl⟩
    refine ⟨a, r, g1, b, i, g2, g3, by simp [Satisfied], discard.mpr ?_, rfl⟩
    unfold Shapes.sphere
    rw [decide_eq_true (show r > 0 from g1.2)]
    exact ⟨_, rfl⟩

theorem kmer_class (hconv : Rampack.Spec.RoundsIntegers conv) : ∃ c, createKmer conv = .ok c ∧ c.name = "kmer".toList ∧
    Interprets c.toMatcher (fun n s => ∃ a b c d k r distance i, Call n "kmer" [("k", none), ("r", none), ("distance", none), ("interaction", hardNode)] [a, b, c, d] ∧
      IsMany a k ∧ IsPositive b r ∧ IsPositive c distance ∧ IsInteraction d i ∧ s = .kmer k r distance i) (fun s => .object (.species s)) := by
  obtain ⟨i, ei, ri⟩ := interaction_reads
  refine ⟨_, by rw [createKmer, ei, Outcome.ok_bind, optional_ok (parse_hard hconv) (hard_run ri)]; rfl, rfl, fun n v => ?_⟩
  rw [class_run (.required (.required (.required (.optional (hard_run ri) .nil)))) rfl (by decide) rfl rfl]
  simp only [exists_read positiveFloat_reads, exists_read many_sizes, exists_read ri, exists_unread]
  eval_shape
  simp only [made_ok]
  constructor
  · rintro ⟨a, k, g1, b, r, g2, c, d, g3, e, i, g4, g5, -, -, rfl⟩
    exact ⟨_, ⟨a, b, c, e, k, r, d, i, g5, g1, g2, g3, g4, rfl⟩, rfl⟩
  · rintro ⟨_, ⟨a, b, c, e, k, r, d, i, g5, g1, g2, g3, g4, rfl⟩, rfl⟩
    exact ⟨a, k, g1, b, r, g2, c, d, g3, e, i, g4, g5, by simp [Satisfied], discard.mpr ((C103_kmer k r d).1.mpr ⟨g1.2, g2.2, g3.2⟩), rfl⟩

theorem banana_class (hconv : Rampack.Spec.RoundsIntegers conv) : ∃ c, createBanana conv = .ok c ∧ c.name = "polysphere_banana".toList ∧
    Interprets c.toMatcher (fun n s => ∃ a b c d e k r arcR A i,
      Call n "polysphere_banana" [("sphere_n", none), ("sphere_r", none), ("arc_r", none), ("arc_angle", none), ("interaction", hardNode)] [a, b, c, d, e] ∧
      IsMany a k ∧ IsPositive b r ∧ IsPositive c arcR ∧ r ≤ arcR ∧ IsPositive d A ∧ A < 2 * Real.pi ∧ IsInteraction e i ∧ s = .polysphereBanana arcR A k r i)
      (fun s => .object (.species s)) := by
  obtain ⟨i, ei, ri⟩ := interaction_reads
  refine ⟨_, by rw [createBanana, ei, Outcome.ok_bind, optional_ok (parse_hard hconv) (hard_run ri)]; rfl, rfl, fun n v => ?_⟩
  rw [class_run (.required (.required (.required (.required (.optional (hard_run ri) .nil))))) rfl (by decide) rfl rfl]
  simp only [exists_read positiveFloat_reads, exists_read many_sizes, exists_read (angle_reads _), exists_read ri, exists_unread]
  eval_shape
  simp only [made_ok]
  constructor
  · rintro ⟨a, k, g1, b, r, g2, c, R, g3, d, A, g4, e, i, g5, g6, -, g7, rfl⟩
    obtain ⟨h1, h2, -, -, h3⟩ := (C106_spheres R A k r).1.mp (discard.mp g7)
    exact ⟨_, ⟨a, b, c, d, e, k, r, R, A, i, g6, g1, g2, g3, h3, ⟨g4.1, h1⟩, h2, g5, rfl⟩, rfl⟩
  · rintro ⟨_, ⟨a, b, c, d, e, k, r, R, A, i, g6, g1, g2, g3, h3, h1, h2, g5, rfl⟩, rfl⟩
    exact ⟨a, k, g1, b, r, g2, c, R, g3, d, A, ⟨h1.1, h1.2.le, h2⟩, e, i, g5, g6, by simp [Satisfied],
      discard.mpr ((C106_spheres R A k r).1.mpr ⟨h1.2, h2, g1.2, g2.2, h3⟩), rfl⟩

theorem zero_nonNegative : nonNegativeFloat.run (.int 0) = .matched (.value (.real ((0 : Int) : ℝ)) : Any ℝ V) :=
  (nonNegative_reads _ _).mpr ⟨_, ⟨.inr ⟨0, rfl, rfl⟩, by norm_num⟩, rfl⟩

theorem one_run : (size [intPositive]).run (.int 1) = .matched (.value (.size 1) : Any ℝ V) :=
  (count_reads _ _).mpr ⟨1, ⟨rfl, by omega⟩, rfl⟩

theorem lollipop_class (hconv : Rampack.Spec.RoundsIntegers conv) : ∃ c, createLollipop conv = .ok c ∧ c.name = "polysphere_lollipop".toList ∧
    Interprets c.toMatcher (fun n s => ∃ a b c d e k stickR tipR p q,
      Call n "polysphere_lollipop" [("sphere_n", none), ("stick_r", none), ("tip_r", none), ("stick_penetration", some (.int 0)), ("tip_penetration", some (.int 0))]
        [a, b, c, d, e] ∧ IsMany a k ∧ IsPositive b stickR ∧ IsPositive c tipR ∧ IsNonNegative d p ∧ p < 2 * stickR ∧ IsNonNegative e q ∧ q < 2 * stickR ∧ q < 2 * tipR ∧
        s = .polysphereLollipop k stickR tipR p q) (fun s => .object (.species s)) := by
  refine ⟨_, by rw [createLollipop, optional_ok (parse_0 hconv) zero_nonNegative, Outcome.ok_bind, optional_ok (parse_0 hconv) zero_nonNegative]; rfl, rfl, fun n v => ?_⟩
  rw [class_run (.required (.required (.required (.optional zero_nonNegative (.optional zero_nonNegative .nil))))) rfl (by decide) rfl rfl]
  simp only [exists_read positiveFloat_reads, exists_read many_sizes, exists_read nonNegative_reads, exists_unread]
  eval_shape
  simp only [made_ok, satisfied_two, stickFilter, penetrationFilter]
  eval_shape
  simp only [decide_eq_true_eq]
  constructor
  · rintro ⟨a, k, g1, b, r, g2, c, t, g3, d, p, g4, e, q, g5, g6, -, g7, rfl⟩
    obtain ⟨-, -, -, h1, h2, h3⟩ := (C103_lollipop k r t p q).1.mp (discard.mp g7)
    exact ⟨_, ⟨a, b, c, d, e, k, r, t, p, q, g6, g1, g2, g3, g4, h1, g5, h2, h3, rfl⟩, rfl⟩
  · rintro ⟨_, ⟨a, b, c, d, e, k, r, t, p, q, g6, g1, g2, g3, g4, h1, g5, h2, h3, rfl⟩, rfl⟩
    exact ⟨a, k, g1, b, r, g2, c, t, g3, d, p, g4, e, q, g5, g6, ⟨h1, by rcases min_cases r t with h | h <;> rw [h.1] <;> assumption⟩,
      discard.mpr ((C103_lollipop k r t p q).1.mpr ⟨g1.2, g2.2, g3.2, h1, h2, h3⟩), rfl⟩

theorem wedge_class (hconv : Rampack.Spec.RoundsIntegers conv) : ∃ c, createSphereWedge conv = .ok c ∧ c.name = "polysphere_wedge".toList ∧
    Interprets c.toMatcher (fun n s => ∃ a b c d k bottomR topR p,
      Call n "polysphere_wedge" [("sphere_n", none), ("bottom_r", none), ("top_r", none), ("penetration", some (.int 0))] [a, b, c, d] ∧ IsMany a k ∧
      IsPositive b bottomR ∧ IsPositive c topR ∧ IsNonNegative d p ∧ p < 2 * bottomR ∧ p < 2 * topR ∧ s = .polysphereWedge k bottomR topR p)
      (fun s => .object (.species s)) := by
  refine ⟨_, by rw [createSphereWedge, optional_ok (parse_0 hconv) zero_nonNegative]; rfl, rfl, fun n v => ?_⟩
  rw [class_run (.required (.required (.required (.optional zero_nonNegative .nil)))) rfl (by decide) rfl rfl]
  simp only [exists_read positiveFloat_reads, exists_read many_sizes, exists_read nonNegative_reads, exists_unread]
  eval_shape
  simp only [made_ok, penetrationFilter]
  eval_shape
  simp only [decide_eq_true_eq]
  constructor
  · rintro ⟨a, k, g1, b, r, g2, c, t, g3, d, p, g4, g6, -, g7, rfl⟩
    obtain ⟨-, -, -, h1, h2⟩ := (C103_wedge k r t p).1.mp (discard.mp g7)
    exact ⟨_, ⟨a, b, c, d, k, r, t, p, g6, g1, g2, g3, g4, h1, h2, rfl⟩, rfl⟩
  · rintro ⟨_, ⟨a, b, c, d, k, r, t, p, g6, g1, g2, g3, g4, h1, h2, rfl⟩, rfl⟩
    exact ⟨a, k, g1, b, r, g2, c, t, g3, d, p, g4, g6, by rcases min_cases r t with h | h <;> rw [h.1] <;> assumption,
      discard.mpr ((C103_wedge k r t p).1.mpr ⟨g1.2, g2.2, g3.2, h1, h2⟩), rfl⟩

theorem spherocylinder_class : ∃ c, createSpherocylinder = .ok c ∧ c.name = "spherocylinder".toList ∧
    Interprets c.toMatcher (fun n s => ∃ a b l r, Call n "spherocylinder" [("l", none), ("r", none)] [a, b] ∧ IsPositive a l ∧ IsPositive b r ∧ s = .spherocylinder l r)
      (fun s => .object (.species s)) := by
  refine ⟨_, rfl, rfl, fun n v => ?_⟩
  rw [class_run (.required (.required .nil)) rfl (by decide) rfl rfl]
  simp only [exists_read positiveFloat_reads, exists_unread]
  eval_shape
  simp only [made_ok]
  constructor
  · rintro ⟨a, l, g1, b, r, g2, g3, -, -, rfl⟩
    exact ⟨_, ⟨a, b, l, r, g3, g1, g2, rfl⟩, rfl⟩
  · rintro ⟨_, ⟨a, b, l, r, g3, g1, g2, rfl⟩, rfl⟩
    refine ⟨a, l, g1, b, r, g2, g3, by simp [Satisfied], discard.mpr ?_, rfl⟩
    unfold Shapes.spherocylinder
    rw [decide_eq_true (show l ≥ 0 from g1.2.le), decide_eq_true (show r > 0 from g2.2)]
    exact ⟨_, rfl⟩

theorem validated {R A r : ℝ} {k : Nat} (hR : 0 < R) (hA : 0 < A) (hB : A < 2 * Real.pi) (hk : 2 ≤ k) (hr : 0 < r) : Banana.basicValidation R A k r = .ok () := by
  unfold Banana.basicValidation
  rw [decide_eq_true (show R > 0 from hR), decide_eq_true (show A > 0 from hA), decide_eq_true hB, decide_eq_true (show k ≥ 2 from hk), decide_eq_true (show r > 0 from hr)]
  rfl

theorem rod_banana_class (hconv : Rampack.Spec.RoundsIntegers conv) : ∃ c, createRodBanana conv = .ok c ∧ c.name = "polyspherocylinder_banana".toList ∧
    Interprets c.toMatcher (fun n s => ∃ a b c d e k parts r arcR A,
      Call n "polyspherocylinder_banana" [("segment_n", none), ("sc_r", none), ("arc_r", none), ("arc_angle", none), ("subdivisions", some (.int 1))] [a, b, c, d, e] ∧
      IsMany a k ∧ IsPositive b r ∧ IsPositive c arcR ∧ IsPositive d A ∧ A < Real.pi ∧ IsCount e parts ∧
      (k = 2 ∨ r ≤ arcR * Real.cos (A / k / 2) * (1 + 1 / 10 ^ 12)) ∧ s = .polyspherocylinderBanana arcR A k r parts) (fun s => .object (.species s)) := by
  refine ⟨_, by rw [createRodBanana, optional_ok (parse_1 hconv) one_run]; rfl, rfl, fun n v => ?_⟩
  rw [class_run (.required (.required (.required (.required (.optional one_run .nil))))) rfl (by decide) rfl rfl]
  simp only [exists_read positiveFloat_reads, exists_read many_sizes, exists_read (angle_reads _), exists_read count_reads, exists_unread]
  eval_shape
  simp only [made_ok, satisfied_two, openFilter, outsideFilter]
  eval_shape
  constructor
  · rintro ⟨a, k, g1, b, r, g2, c, R, g3, d, A, g4, e, parts, g5, g6, -, g7, rfl⟩
    obtain ⟨⟨-, h1, -, -⟩, h2, -, -⟩ := (C106_rods_partial R A k r parts).1.mp (discard.mp g7)
    exact ⟨_, ⟨a, b, c, d, e, k, parts, r, R, A, g6, g1, g2, g3, ⟨g4.1, h1⟩, g4.2.2, g5, h2, rfl⟩, rfl⟩
  · rintro ⟨_, ⟨a, b, c, d, e, k, parts, r, R, A, g6, g1, g2, g3, h1, h2, g5, h3, rfl⟩, rfl⟩
    have hpi := Real.pi_pos
    have hv := validated (k := k) g3.2 h1.2 (by linarith) g1.2 g2.2
    refine ⟨a, k, g1, b, r, g2, c, R, g3, d, A, ⟨h1.1, h1.2.le, h2⟩, e, parts, g5, g6, ⟨?_, ?_⟩, discard.mpr ((C106_rods_partial R A k r parts).1.mpr
      ⟨⟨g3.2, h1.2, by linarith, g1.2, g2.2⟩, h3, .inl h2.le, g5.2⟩), rfl⟩
    · unfold Banana.isArcOpen
      rw [hv, Outcome.ok_bind, if_pos h2.le]
      rfl
    · by_cases hk : k = 2
      · rw [if_pos hk]
      · rw [if_neg hk]
        unfold Banana.isArcOriginOutside
        rw [hv, Outcome.ok_bind, decide_eq_true (h3.resolve_left hk)]
        rfl

theorem smooth_class (hconv : Rampack.Spec.RoundsIntegers conv) : ∃ c, createSmoothWedge conv = .ok c ∧ c.name = "smooth_wedge".toList ∧
    Interprets c.toMatcher (fun n s => ∃ a b c d parts l bottomR topR,
      Call n "smooth_wedge" [("l", none), ("bottom_r", none), ("top_r", none), ("subdivisions", some (.int 1))] [a, b, c, d] ∧ IsPositive a l ∧ IsPositive b bottomR ∧
      IsPositive c topR ∧ IsCount d parts ∧ |bottomR - topR| ≤ l ∧ (2 ≤ parts → |bottomR - topR| < l) ∧ s = .smoothWedge bottomR topR l parts)
      (fun s => .object (.species s)) := by
  refine ⟨_, by rw [createSmoothWedge, optional_ok (parse_1 hconv) one_run]; rfl, rfl, fun n v => ?_⟩
  rw [class_run (.required (.required (.required (.optional one_run .nil)))) rfl (by decide) rfl rfl]
  simp only [exists_read positiveFloat_reads, exists_read count_reads, exists_unread]
  eval_shape
  simp only [made_ok, lengthFilter]
  eval_shape
  simp only [decide_eq_true_eq, ge_iff_le]
  constructor
  · rintro ⟨a, l, g1, b, R, g2, c, r, g3, d, parts, g4, g5, -, g7, rfl⟩
    obtain ⟨-, -, -, h1, h2⟩ := (C104_smooth R r l parts).1.mp (discard.mp g7)
    exact ⟨_, ⟨a, b, c, d, parts, l, R, r, g5, g1, g2, g3, g4, h1, h2, rfl⟩, rfl⟩
  · rintro ⟨_, ⟨a, b, c, d, parts, l, R, r, g5, g1, g2, g3, g4, h1, h2, rfl⟩, rfl⟩
    exact ⟨a, l, g1, b, R, g2, c, r, g3, d, parts, g4, g5, h1, discard.mpr ((C104_smooth R r l parts).1.mpr ⟨g2.2, g3.2, g1.2, h1, h2⟩), rfl⟩

theorem polyhedral_class (hconv : Rampack.Spec.RoundsIntegers conv) : ∃ c, createPolyhedralWedge conv = .ok c ∧ c.name = "polyhedral_wedge".toList ∧
    Interprets c.toMatcher (fun n s => ∃ a b c d e g parts bx bz tx ty l,
      Call n "polyhedral_wedge" [("bottom_ax", none), ("bottom_ay", none), ("top_ax", none), ("top_ay", none), ("l", none), ("subdivisions", some (.int 1))]
        [a, b, c, d, e, g] ∧ IsNonNegative a bx ∧ IsNonNegative b bz ∧ IsNonNegative c tx ∧ IsNonNegative d ty ∧ ((0 < tx ∧ 0 < bz) ∨ (0 < ty ∧ 0 < bx)) ∧
      IsPositive e l ∧ IsCount g parts ∧ s = .polyhedralWedge bx bz tx ty l parts) (fun s => .object (.species s)) := by
  refine ⟨_, by rw [createPolyhedralWedge, optional_ok (parse_1 hconv) one_run]; rfl, rfl, fun n v => ?_⟩
  rw [class_run (.required (.required (.required (.required (.required (.optional one_run .nil)))))) rfl (by decide) rfl rfl]
  simp only [exists_read positiveFloat_reads, exists_read nonNegative_reads, exists_read count_reads, exists_unread]
  eval_shape
  simp only [made_ok, boxyFilter]
  eval_shape
  simp only [decide_eq_true_eq]
  constructor
  · rintro ⟨a, bx, g1, b, bz, g2, c, tx, g3, d, ty, g4, e, l, g5, g, parts, g6, g7, -, g8, rfl⟩
    obtain ⟨-, h1⟩ := (C104_polyhedral g1.2 g2.2 g3.2 g4.2 l parts).1.mp (discard.mp g8)
    exact ⟨_, ⟨a, b, c, d, e, g, parts, bx, bz, tx, ty, l, g7, g1, g2, g3, g4, h1, g5, g6, rfl⟩, rfl⟩
  · rintro ⟨_, ⟨a, b, c, d, e, g, parts, bx, bz, tx, ty, l, g7, g1, g2, g3, g4, h1, g5, g6, rfl⟩, rfl⟩
    exact ⟨a, bx, g1, b, bz, g2, c, tx, g3, d, ty, g4, e, l, g5, g, parts, g6, g7, h1.imp (fun h => ⟨h.1.ne', h.2.ne'⟩) (fun h => ⟨h.1.ne', h.2.ne'⟩),
      discard.mpr ((C104_polyhedral g1.2 g2.2 g3.2 g4.2 l parts).1.mpr ⟨g5.2, h1⟩), rfl⟩

end Rampack.ShapeExpr
