import Verif.Frontend.ShapeExprSpec
import Verif.Frontend.ObservLemmas
/-
What the matchers of convex bodies read.
-/
namespace Rampack.ShapeExpr

open Pyon Pyon.Spec Rampack.Input Rampack.Input.Spec Rampack.ShapeExpr.Spec
open Rampack.Observ (satisfied_two)

variable {conv : ℚ → Option ℝ}

/-- Evaluation of conversions and filters on known arguments. -/
macro "eval_shape" : tactic => `(tactic| simp only [ClassMatcher.mapTo, pairs, get_cons, String.reduceEq, if_true, if_false, reduceIte, ok_bind', ok_map',
  ok_pure', asText, asFlag, asReal, asSize, asVec, asVecs, asAxis, asPoints, asInteraction, asSpheres, asRods, asConvex, satisfied_one, Except.ok.injEq])

theorem parse_zeros (hconv : Rampack.Spec.RoundsIntegers conv) : Pyon.parse conv "[0, 0, 0]".toList = .ok (.array [.int 0, .int 0, .int 0]) := by
  have h1 : Rampack.Spec.intText 0 = ['0'] := by
    rw [Rampack.Spec.intText, if_neg (by decide), show (0 : Int).natAbs = 0 from rfl, Rampack.Spec.decimalText]; decide
  have := C45_canonical (lit := fun _ => []) (v := .array [.int 0, .int 0, .int 0]) hconv (.array (by
    intro v hv
    fin_cases hv <;> exact .int (by unfold Rampack.Spec.InLong; decide)))
  simp only [Rampack.Spec.canonical, Rampack.Spec.canonicals, h1] at this
  exact this

theorem vec_reads : Interprets vec IsVec (fun v => .object (.vec v)) := by
  intro n v
  unfold vec
  change (ArrayMatcher.run _ n) = _ ↔ _
  rw [C78_array]
  constructor
  · rintro ⟨ns, vs, rfl, ⟨h1, h2⟩, h3⟩
    rw [satisfied_one] at h2
    simp only [arraySize, Except.ok.injEq, decide_eq_true_eq] at h2
    obtain ⟨x, y, z, rfl⟩ := List.length_eq_three.mp h2
    cases h1 with
    | cons ha h1 =>
      cases h1 with
      | cons hb h1 =>
        cases h1 with
        | cons hc h1 =>
          cases h1 with
          | nil =>
            obtain ⟨p, hp, rfl⟩ := (float_reads _ _).mp ha
            obtain ⟨q, hq, rfl⟩ := (float_reads _ _).mp hb
            obtain ⟨r, hr, rfl⟩ := (float_reads _ _).mp hc
            simp only [asVector, asReal, ok_bind', ok_pure', ok_map', Except.ok.injEq] at h3
            exact ⟨⟨p, q, r⟩, ⟨_, _, _, rfl, hp, hq, hr⟩, h3.symm⟩
  · rintro ⟨⟨p, q, r⟩, ⟨a, b, c, rfl, hp, hq, hr⟩, rfl⟩
    exact ⟨[a, b, c], [.value (.real p), .value (.real q), .value (.real r)], rfl, ⟨.cons ((float_reads _ _).mpr ⟨p, hp, rfl⟩)
      (.cons ((float_reads _ _).mpr ⟨q, hq, rfl⟩) (.cons ((float_reads _ _).mpr ⟨r, hr, rfl⟩) .nil)), satisfied_one.mpr rfl⟩, rfl⟩

theorem zero_run : vec.run (.array [.int 0, .int 0, .int 0]) = .matched (.value (.object (.vec ⟨((0 : Int) : ℝ), ((0 : Int) : ℝ), ((0 : Int) : ℝ)⟩)) : Any ℝ V) :=
  (vec_reads _ _).mpr ⟨_, ⟨_, _, _, rfl, .inr ⟨0, rfl, rfl⟩, .inr ⟨0, rfl, rfl⟩, .inr ⟨0, rfl, rfl⟩⟩, rfl⟩

/-! ### Blocks -/

theorem point_reads : ∃ c, createPoint = .ok c ∧ c.name = "point".toList ∧
    Interprets c.toMatcher (fun n g => ∃ a pos, Call n "point" [("pos", none)] [a] ∧ IsVec a pos ∧ g = .point pos) (fun g => .object (.convex g)) := by
  refine ⟨_, rfl, rfl, fun n v => ?_⟩
  rw [class_run (.required .nil) rfl (by decide) rfl rfl]
  simp only [exists_read vec_reads, exists_unread]
  eval_shape
  constructor
  · rintro ⟨a, x, g1, g2, -, rfl⟩
    exact ⟨_, ⟨a, x, g2, g1, rfl⟩, rfl⟩
  · rintro ⟨s, ⟨a, x, g2, g1, rfl⟩, rfl⟩
    exact ⟨a, x, g1, g2, by simp [Satisfied], rfl⟩

theorem block1_reads (hconv : Rampack.Spec.RoundsIntegers conv) (name x : String) (make : ℝ → Block) (hname : name.toList ≠ [])
    (hn : [x, "pos", "rot"].Nodup) : ∃ c, createBlock1 conv name x make = .ok c ∧ c.name = name.toList ∧
    Interprets c.toMatcher (fun n g => IsBlock1 n name x make g) (fun g => .object (.convex g)) := by
  have e1 : x ≠ "pos" := by rintro rfl; simp at hn
  have e2 : x ≠ "rot" := by rintro rfl; simp at hn
  refine ⟨_, by rw [createBlock1, optional_ok (parse_zeros hconv) zero_run, Outcome.ok_bind, optional_ok (parse_zeros hconv) zero_run, Outcome.ok_bind, createClass, if_neg hname]; rfl,
    rfl, fun n v => ?_⟩
  rw [class_run (.required (.optional zero_run (.optional zero_run .nil))) rfl (by exact hn) rfl rfl]
  simp only [exists_read vec_reads, exists_read positiveFloat_reads, exists_unread]
  simp only [e1, e2, ClassMatcher.mapTo, pairs, get_cons]
  eval_shape
  constructor
  · rintro ⟨a, x, g1, b, pos, g2, c, rot, g3, g4, -, rfl⟩
    exact ⟨_, ⟨g4, g1, g2, g3⟩, rfl⟩
  · rintro ⟨_, ⟨g4, g1, g2, g3⟩, rfl⟩
    exact ⟨_, _, g1, _, _, g2, _, _, g3, g4, by simp [Satisfied], rfl⟩

theorem block2_reads (hconv : Rampack.Spec.RoundsIntegers conv) (name x y : String) (valid : ℝ → ℝ → Bool) (make : ℝ → ℝ → Block) (hname : name.toList ≠ [])
    (hn : [x, y, "pos", "rot"].Nodup) : ∃ c, createBlock2 conv name x y valid make = .ok c ∧ c.name = name.toList ∧
    Interprets c.toMatcher (fun n g => IsBlock2 n name x y (fun s t => valid s t = true) make g) (fun g => .object (.convex g)) := by
  have e1 : x ≠ "pos" := by rintro rfl; simp at hn
  have e2 : x ≠ "rot" := by rintro rfl; simp at hn
  have e3 : y ≠ "pos" := by rintro rfl; simp at hn
  have e4 : y ≠ "rot" := by rintro rfl; simp at hn
  have e5 : x ≠ y := by rintro rfl; simp at hn
  refine ⟨_, by rw [createBlock2, optional_ok (parse_zeros hconv) zero_run, Outcome.ok_bind, optional_ok (parse_zeros hconv) zero_run, Outcome.ok_bind, createClass, if_neg hname]; rfl,
    rfl, fun n v => ?_⟩
  rw [class_run (.required (.required (.optional zero_run (.optional zero_run .nil)))) rfl (by exact hn) rfl rfl]
  simp only [exists_read vec_reads, exists_read positiveFloat_reads, exists_unread]
  simp only [e1, e2, e3, e4, e5, ClassMatcher.mapTo, pairs, get_cons, satisfied_one, sizesFilter]
  eval_shape
  constructor
  · rintro ⟨a, x, g1, a', y, g1', b, pos, g2, c, rot, g3, g4, g5, rfl⟩
    exact ⟨_, ⟨g4, g1, g1', g5, g2, g3⟩, rfl⟩
  · rintro ⟨_, ⟨g4, g1, g1', g5, g2, g3⟩, rfl⟩
    exact ⟨_, _, g1, _, _, g1', _, _, g2, _, _, g3, g4, g5, rfl⟩

theorem block3_reads (hconv : Rampack.Spec.RoundsIntegers conv) (name x y z : String) (make : ℝ → ℝ → ℝ → Block) (hname : name.toList ≠ [])
    (hn : [x, y, z, "pos", "rot"].Nodup) : ∃ c, createBlock3 conv name x y z make = .ok c ∧ c.name = name.toList ∧
    Interprets c.toMatcher (fun n g => IsBlock3 n name x y z make g) (fun g => .object (.convex g)) := by
  have e1 : x ≠ "pos" := by rintro rfl; simp at hn
  have e2 : x ≠ "rot" := by rintro rfl; simp at hn
  have e3 : y ≠ "pos" := by rintro rfl; simp at hn
  have e4 : y ≠ "rot" := by rintro rfl; simp at hn
  have e5 : x ≠ y := by rintro rfl; simp at hn
  have e6 : x ≠ z := by rintro rfl; simp at hn
  have e7 : y ≠ z := by rintro rfl; simp at hn
  have e8 : z ≠ "pos" := by rintro rfl; simp at hn
  have e9 : z ≠ "rot" := by rintro rfl; simp at hn
  refine ⟨_, by rw [createBlock3, optional_ok (parse_zeros hconv) zero_run, Outcome.ok_bind, optional_ok (parse_zeros hconv) zero_run, Outcome.ok_bind, createClass, if_neg hname]; rfl,
    rfl, fun n v => ?_⟩
  rw [class_run (.required (.required (.required (.optional zero_run (.optional zero_run .nil))))) rfl (by exact hn) rfl rfl]
  simp only [exists_read vec_reads, exists_read positiveFloat_reads, exists_unread]
  simp only [e1, e2, e3, e4, e5, e6, e7, e8, e9, ClassMatcher.mapTo, pairs, get_cons]
  eval_shape
  constructor
  · rintro ⟨a, x, g1, a', y, g1', a'', z, g1'', b, pos, g2, c, rot, g3, g4, -, rfl⟩
    exact ⟨_, ⟨g4, g1, g1', g1'', g2, g3⟩, rfl⟩
  · rintro ⟨_, ⟨g4, g1, g1', g1'', g2, g3⟩, rfl⟩
    exact ⟨_, _, g1, _, _, g1', _, _, g1'', _, _, g2, _, _, g3, g4, by simp [Satisfied], rfl⟩

theorem ball_reads (hconv : Rampack.Spec.RoundsIntegers conv) : ∃ c, createBallBlock conv = .ok c ∧ c.name = "sphere".toList ∧
    Interprets c.toMatcher (fun n g => ∃ a b r pos, Call n "sphere" [("r", none), ("pos", zeros)] [a, b] ∧ IsPositive a r ∧ IsVec b pos ∧ g = .block (.sphere r) pos 0)
      (fun g => .object (.convex g)) := by
  refine ⟨_, by rw [createBallBlock, optional_ok (parse_zeros hconv) zero_run]; rfl, rfl, fun n v => ?_⟩
  rw [class_run (.required (.optional zero_run .nil)) rfl (by decide) rfl rfl]
  simp only [exists_read vec_reads, exists_read positiveFloat_reads, exists_unread]
  eval_shape
  constructor
  · rintro ⟨a, r, g1, b, pos, g2, g3, -, rfl⟩
    exact ⟨_, ⟨a, b, r, pos, g3, g1, g2, rfl⟩, rfl⟩
  · rintro ⟨s, ⟨a, b, r, pos, g3, g1, g2, rfl⟩, rfl⟩
    exact ⟨a, r, g1, b, pos, g2, g3, by simp [Satisfied], rfl⟩

/-! ### Compositions -/

section

variable {m : Matcher ℝ V} {R : Node ℝ → Convex → Prop} (hm : Interprets m R (fun g => .object (.convex g)))

include hm

theorem diff_reads : ∃ c, createDiff m = .ok c ∧ c.name = "diff".toList ∧
    Interprets c.toMatcher (fun n g => ∃ a b g1 g2, Call n "diff" [("g1", none), ("g2", none)] [a, b] ∧ R a g1 ∧ R b g2 ∧ g = .diff g1 g2)
      (fun g => .object (.convex g)) := by
  refine ⟨_, rfl, rfl, fun n v => ?_⟩
  rw [class_run (.required (.required .nil)) rfl (by decide) rfl rfl]
  simp only [exists_read hm, exists_unread]
  eval_shape
  constructor
  · rintro ⟨a, x, g1, b, y, g2, g3, -, rfl⟩
    exact ⟨_, ⟨a, b, x, y, g3, g1, g2, rfl⟩, rfl⟩
  · rintro ⟨s, ⟨a, b, x, y, g3, g1, g2, rfl⟩, rfl⟩
    exact ⟨a, x, g1, b, y, g2, g3, by simp [Satisfied], rfl⟩

omit hm in
theorem mapM_convex {l : List Convex} : (l.map fun g => (Any.value (.object (.convex g)) : Any ℝ V)).mapM asConvex = .ok l := by
  induction l with
  | nil => rfl
  | cons x l ih => rw [List.map_cons, List.mapM_cons, ih]; rfl

theorem many_reads (name : String) (hname : name.toList ≠ []) (make : List Convex → Convex) : ∃ c, createMany name m make = .ok c ∧ c.name = name.toList ∧
    Interprets c.toMatcher (fun n g => ∃ ns gs, n = .dataclass name.toList ns [] ∧ List.Forall₂ R ns gs ∧ 2 ≤ ns.length ∧ g = make gs)
      (fun g => .object (.convex g)) := by
  refine ⟨_, by rw [createMany, createClass, if_neg hname]; rfl, rfl, fun n v => ?_⟩
  rw [variadic_run rfl rfl rfl]
  constructor
  · rintro ⟨ns, as, rfl, ⟨h1, h2⟩, -, h4⟩
    obtain ⟨gs, hg, rfl⟩ := (forall₂_reads hm _ _).mp h1
    simp only [ClassMatcher.mapTo, mapM_convex, ok_bind', ok_map', ok_pure', Except.ok.injEq] at h4
    rw [satisfied_one] at h2
    simp only [arraySizeAtLeast, Except.ok.injEq, decide_eq_true_eq, List.length_map] at h2
    exact ⟨_, ⟨ns, gs, rfl, hg, by rw [hg.length_eq]; exact h2, rfl⟩, h4.symm⟩
  · rintro ⟨g, ⟨ns, gs, rfl, hg, hl, rfl⟩, rfl⟩
    refine ⟨ns, _, rfl, ⟨(forall₂_reads hm _ _).mpr ⟨gs, hg, rfl⟩, satisfied_one.mpr ?_⟩, by simp [ClassMatcher.mapTo, Satisfied], ?_⟩
    · rw [hg.length_eq] at hl
      simp only [arraySizeAtLeast, List.length_map, decide_eq_true hl]
    · simp only [ClassMatcher.mapTo, mapM_convex, ok_bind', ok_map', ok_pure']

theorem script_step (hconv : Rampack.Spec.RoundsIntegers conv) : ∃ c, createScript conv m = .ok c ∧
    Interprets c.toMatcher (IsConvexOf R) (fun g => .object (.convex g)) := by
  obtain ⟨c1, e1, n1, r1⟩ := point_reads
  obtain ⟨c2, e2, n2, r2⟩ := block1_reads hconv "segment" "l" .segment (by decide) (by decide)
  obtain ⟨c3, e3, n3, r3⟩ := block2_reads hconv "rectangle" "ax" "ay" (fun _ _ => true) .rectangle (by decide) (by decide)
  obtain ⟨c4, e4, n4, r4⟩ := block3_reads hconv "cuboid" "ax" "ay" "az" .cuboid (by decide) (by decide)
  obtain ⟨c5, e5, n5, r5⟩ := block1_reads hconv "disk" "r" .disk (by decide) (by decide)
  obtain ⟨c6, e6, n6, r6⟩ := ball_reads hconv
  obtain ⟨c7, e7, n7, r7⟩ := block2_reads hconv "ellipse" "rx" "ry" (fun _ _ => true) .ellipse (by decide) (by decide)
  obtain ⟨c8, e8, n8, r8⟩ := block3_reads hconv "ellipsoid" "rx" "ry" "rz" .ellipsoid (by decide) (by decide)
  obtain ⟨c9, e9, n9, r9⟩ := block2_reads hconv "saucer" "r" "l" (fun r l => @decide (l ≤ 2 * r) (Classical.propDecidable _)) .saucer (by decide) (by decide)
  obtain ⟨c10, e10, n10, r10⟩ := block2_reads hconv "football" "r" "l" (fun r l => @decide (l ≥ 2 * r) (Classical.propDecidable _)) .football (by decide) (by decide)
  obtain ⟨c11, e11, n11, r11⟩ := many_reads hm "sum" (by decide) .sum
  obtain ⟨c12, e12, n12, r12⟩ := diff_reads hm
  obtain ⟨c13, e13, n13, r13⟩ := many_reads hm "wrap" (by decide) .wrap
  refine ⟨_, by rw [createScript, e1, createSegment, e2, createRectangle, e3, createCuboid, e4, createDisk, e5, e6, createEllipse, e7, createEllipsoid, e8, createSaucer, e9,
    createFootball, e10, e11, e12, e13]; rfl, fun n v => ?_⟩
  refine Iff.trans (alternative_reads (heads := ["point", "segment", "rectangle", "cuboid", "disk", "sphere", "ellipse", "ellipsoid", "saucer", "football", "sum", "diff",
    "wrap"].map fun s => Head.named s.toList)
    (by exact ⟨⟨⟨⟨⟨⟨⟨⟨⟨⟨⟨⟨trivial, trivial⟩, trivial⟩, trivial⟩, trivial⟩, trivial⟩, trivial⟩, trivial⟩, trivial⟩, trivial⟩, trivial⟩, trivial⟩, trivial⟩)
    (by exact .cons (takes_class n1) (.cons (takes_class n2) (.cons (takes_class n3) (.cons (takes_class n4) (.cons (takes_class n5) (.cons (takes_class n6)
      (.cons (takes_class n7) (.cons (takes_class n8) (.cons (takes_class n9) (.cons (takes_class n10) (.cons (takes_class n11) (.cons (takes_class n12)
      (.cons (takes_class n13) .nil))))))))))))) (heads_nodup (by decide))) ?_
  simp only [options, List.cons_append, List.nil_append, List.mem_cons, List.not_mem_nil, or_false, exists_eq_or_imp, exists_eq_left, r1 n v, r2 n v, r3 n v, r4 n v,
    r5 n v, r6 n v, r7 n v, r8 n v, r9 n v, r10 n v, r11 n v, r12 n v, r13 n v, decide_eq_true_eq, ge_iff_le]
  constructor
  · rintro (⟨s, ⟨a, x, h1, h2, rfl⟩, rfl⟩ | ⟨s, h, rfl⟩ | ⟨s, ⟨h1, h2, h3, -, h4, h5⟩, rfl⟩ | ⟨s, h, rfl⟩ | ⟨s, h, rfl⟩ | ⟨s, ⟨a, b, r, pos, h1, h2, h3, rfl⟩, rfl⟩ |
      ⟨s, ⟨h1, h2, h3, -, h4, h5⟩, rfl⟩ | ⟨s, h, rfl⟩ | ⟨s, h, rfl⟩ | ⟨s, h, rfl⟩ | ⟨s, ⟨ns, gs, rfl, h1, h2, rfl⟩, rfl⟩ | ⟨s, ⟨a, b, x, y, h1, h2, h3, rfl⟩, rfl⟩ |
      ⟨s, ⟨ns, gs, rfl, h1, h2, rfl⟩, rfl⟩)
    · exact ⟨_, .point h1 h2, rfl⟩
    · exact ⟨_, .segment h, rfl⟩
    · exact ⟨_, .rectangle ⟨h1, h2, h3, trivial, h4, h5⟩, rfl⟩
    · exact ⟨_, .cuboid h, rfl⟩
    · exact ⟨_, .disk h, rfl⟩
    · exact ⟨_, .sphere h1 h2 h3, rfl⟩
    · exact ⟨_, .ellipse ⟨h1, h2, h3, trivial, h4, h5⟩, rfl⟩
    · exact ⟨_, .ellipsoid h, rfl⟩
    · exact ⟨_, .saucer h, rfl⟩
    · exact ⟨_, .football h, rfl⟩
    · exact ⟨_, .sum h1 h2, rfl⟩
    · exact ⟨_, .diff h1 h2 h3, rfl⟩
    · exact ⟨_, .wrap h1 h2, rfl⟩
  · rintro ⟨s, h, rfl⟩
    cases h with
    | point h1 h2 => exact .inl ⟨_, ⟨_, _, h1, h2, rfl⟩, rfl⟩
    | segment h => exact .inr (.inl ⟨_, h, rfl⟩)
    | rectangle h => obtain ⟨h1, h2, h3, -, h4, h5⟩ := h; exact .inr (.inr (.inl ⟨_, ⟨h1, h2, h3, trivial, h4, h5⟩, rfl⟩))
    | cuboid h => exact .inr (.inr (.inr (.inl ⟨_, h, rfl⟩)))
    | disk h => exact .inr (.inr (.inr (.inr (.inl ⟨_, h, rfl⟩))))
    | sphere h1 h2 h3 => exact .inr (.inr (.inr (.inr (.inr (.inl ⟨_, ⟨_, _, _, _, h1, h2, h3, rfl⟩, rfl⟩)))))
    | ellipse h => obtain ⟨h1, h2, h3, -, h4, h5⟩ := h; exact .inr (.inr (.inr (.inr (.inr (.inr (.inl ⟨_, ⟨h1, h2, h3, trivial, h4, h5⟩, rfl⟩))))))
    | ellipsoid h => exact .inr (.inr (.inr (.inr (.inr (.inr (.inr (.inl ⟨_, h, rfl⟩)))))))
    | saucer h => exact .inr (.inr (.inr (.inr (.inr (.inr (.inr (.inr (.inl ⟨_, h, rfl⟩))))))))
    | football h => exact .inr (.inr (.inr (.inr (.inr (.inr (.inr (.inr (.inr (.inl ⟨_, h, rfl⟩)))))))))
    | sum h1 h2 => exact .inr (.inr (.inr (.inr (.inr (.inr (.inr (.inr (.inr (.inr (.inl ⟨_, ⟨_, _, rfl, h1, h2, rfl⟩, rfl⟩))))))))))
    | diff h1 h2 h3 => exact .inr (.inr (.inr (.inr (.inr (.inr (.inr (.inr (.inr (.inr (.inr (.inl ⟨_, ⟨_, _, _, _, h1, h2, h3, rfl⟩, rfl⟩)))))))))))
    | wrap h1 h2 => exact .inr (.inr (.inr (.inr (.inr (.inr (.inr (.inr (.inr (.inr (.inr (.inr (⟨_, ⟨_, _, rfl, h1, h2, rfl⟩, rfl⟩))))))))))))

end

/-! ### Recursion -/

/-- Convex bodies with this many levels of composition. -/
def IsConvexAt : Nat → Node ℝ → Convex → Prop
  | 0 => IsConvexOf fun _ _ => False
  | k + 1 => IsConvexOf (IsConvexAt k)

theorem script_reads (hconv : Rampack.Spec.RoundsIntegers conv) (k : Nat) : ∃ c, script conv k = .ok c ∧
    Interprets c.toMatcher (IsConvexAt k) (fun g => .object (.convex g)) := by
  induction k with
  | zero => exact script_step (m := unattached) (fun n v => ⟨fun h => by simp [unattached] at h, fun ⟨_, h, _⟩ => h.elim⟩) hconv
  | succ k ih =>
    obtain ⟨c, e, r⟩ := ih
    obtain ⟨c', e', r'⟩ := script_step (m := recursive c.toMatcher) (R := IsConvexAt k) (fun n v => by rw [← r n v]; rfl) hconv
    exact ⟨c', by rw [script, e, Outcome.ok_bind, e'], r'⟩

theorem call_smaller {n : Node ℝ} {name : String} {sig : List (String × Option (Node ℝ))} {args : List (Node ℝ)} (h : Call n name sig args)
    (hs : ∀ s ∈ sig, s.2 = none) {a : Node ℝ} (ha : a ∈ args) : sizeOf a < sizeOf n := by
  obtain ⟨ps, ks, rfl, -, -, hl, hargs⟩ := h
  obtain ⟨i, hi, rfl⟩ := List.getElem_of_mem ha
  have hi' : i < sig.length := by omega
  have := hargs i sig[i].1 sig[i].2 args[i] (List.getElem?_eq_getElem hi') (List.getElem?_eq_getElem hi)
  rw [Node.dataclass.sizeOf_spec]
  rcases this with ⟨h1, -⟩ | ⟨-, h1⟩ | ⟨-, -, h1⟩
  · have := List.sizeOf_lt_of_mem (List.mem_of_getElem? h1)
    omega
  · obtain ⟨p, s, e, -⟩ := h1
    have hm : ((sig[i].1.toList, args[i]) : Text × Node ℝ) ∈ ks := by rw [e]; simp
    have := List.sizeOf_lt_of_mem hm
    rw [Prod.mk.sizeOf_spec] at this
    omega
  · rw [hs _ (List.getElem_mem hi')] at h1
    cases h1

theorem IsConvexOf.mono {R R' : Node ℝ → Convex → Prop} {n : Node ℝ} {g : Convex} (h : IsConvexOf R n g) (hR : ∀ n' g', sizeOf n' < sizeOf n → R n' g' → R' n' g') :
    IsConvexOf R' n g := by
  have many : ∀ {name : Text} {ns : List (Node ℝ)} {gs : List Convex}, (∀ n' g', sizeOf n' < sizeOf (Node.dataclass name ns []) → R n' g' → R' n' g') →
      List.Forall₂ R ns gs → List.Forall₂ R' ns gs := by
    intro name ns gs hR h
    rw [List.forall₂_iff_get] at h ⊢
    refine ⟨h.1, fun i h1 h2 => hR _ _ ?_ (h.2 i h1 h2)⟩
    have := List.sizeOf_lt_of_mem (List.get_mem ns ⟨i, h1⟩)
    rw [Node.dataclass.sizeOf_spec]
    omega
  cases h with
  | point h1 h2 => exact .point h1 h2
  | segment h => exact .segment h
  | rectangle h => exact .rectangle h
  | cuboid h => exact .cuboid h
  | disk h => exact .disk h
  | sphere h1 h2 h3 => exact .sphere h1 h2 h3
  | ellipse h => exact .ellipse h
  | ellipsoid h => exact .ellipsoid h
  | saucer h => exact .saucer h
  | football h => exact .football h
  | sum h1 h2 => exact .sum (many hR h1) h2
  | diff h1 h2 h3 =>
    exact .diff h1 (hR _ _ (call_smaller h1 (by simp) (by simp)) h2) (hR _ _ (call_smaller h1 (by simp) (by simp)) h3)
  | wrap h1 h2 => exact .wrap (many hR h1) h2

theorem convexAt_sound (k : Nat) {n : Node ℝ} {g : Convex} (h : IsConvexAt k n g) : IsConvex n g := by
  induction k generalizing n g with
  | zero => exact .mk (IsConvexOf.mono h fun _ _ _ h => h.elim)
  | succ k ih => exact .mk (IsConvexOf.mono h fun _ _ _ h => ih h)

theorem convexAt_complete (k : Nat) {n : Node ℝ} {g : Convex} (hk : sizeOf n ≤ k) (h : IsConvex n g) : IsConvexAt k n g := by
  induction k generalizing n g with
  | zero =>
    obtain ⟨h⟩ := h
    exact IsConvexOf.mono h fun _ _ h _ => by omega
  | succ k ih =>
    obtain ⟨h⟩ := h
    exact IsConvexOf.mono h fun _ _ h h' => ih (by omega) h'

theorem scriptMatcher_reads (hconv : Rampack.Spec.RoundsIntegers conv) : Interprets (scriptMatcher conv) IsConvex (fun g => .object (.convex g)) := by
  intro n v
  obtain ⟨c, e, r⟩ := script_reads hconv (sizeOf n)
  simp only [scriptMatcher, e]
  rw [r n v]
  constructor
  · rintro ⟨g, h, rfl⟩
    exact ⟨g, convexAt_sound _ h, rfl⟩
  · rintro ⟨g, h, rfl⟩
    exact ⟨g, convexAt_complete _ le_rfl h, rfl⟩

end Rampack.ShapeExpr
