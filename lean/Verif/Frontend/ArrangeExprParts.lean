import Verif.Frontend.ArrangeExprLemmas
/-
What the matchers of transformations and of partial filling read.
-/
namespace Rampack.ArrangeExpr

open Pyon Pyon.Spec Rampack.Input Rampack.Input.Spec Rampack.Arrange Rampack.ShapeExpr.Spec Rampack.ArrangeExpr.Spec
open Rampack.Spec (axisLetter documentedSites ProperCount ProperDim)

variable {conv : ℚ → Option ℝ}

theorem construct_iff {α : Type} {x : Outcome α} {a : α} : construct x = .ok a ↔ x = .ok a := by
  cases x with
  | ok b => simp [construct]
  | _ => exact ⟨fun h => (by cases h), fun h => (by cases h)⟩

theorem made_iff {α : Type} {x : Outcome α} {f : α → V} {v : Any ℝ V} :
    (Except.map Any.value (construct x >>= fun a => (.ok (f a) : Except String V))) = .ok v ↔ ∃ a, x = .ok a ∧ .value (f a) = v := by
  cases x with
  | ok b =>
    constructor
    · intro h
      cases h
      exact ⟨b, rfl, rfl⟩
    · rintro ⟨a, h, rfl⟩
      cases h
      rfl
  | _ => exact ⟨fun h => (by cases h), fun ⟨_, h, _⟩ => (by cases h)⟩

/-! ### The axis of random rotations -/

/-- The axis before it is made a unit vector. -/
inductive Direction : Node ℝ → Randomizing.Axis → Prop where
  | vector {n : Node ℝ} {v : Vec3 ℝ} : IsVec n v → 1 / 10 ^ 20 < v.norm2 → Direction n (.vector v)
  | x : Direction (.string "x".toList) (.vector ⟨1, 0, 0⟩)
  | y : Direction (.string "y".toList) (.vector ⟨0, 1, 0⟩)
  | z : Direction (.string "z".toList) (.vector ⟨0, 0, 1⟩)
  | primary : Direction (.string "primary".toList) .primary
  | secondary : Direction (.string "secondary".toList) .secondary
  | auxiliary : Direction (.string "auxiliary".toList) .auxiliary
  | random : Direction (.string "random".toList) .random

theorem array_run {n : Node ℝ} {v : Any ℝ V} : aroundArray.run n = .matched v ↔ ∃ u, IsVec n u ∧ 1 / 10 ^ 20 < u.norm2 ∧ v = .value (.object (.around (.vector u))) := by
  unfold aroundArray
  rw [three_reads float_reads]
  simp only [satisfied_one, hasNorm, asThree, asReal, ok_bind', ok_pure', ok_map', Except.ok.injEq, decide_eq_true_eq, gt_iff_lt]
  constructor
  · rintro ⟨a, b, c, x, y, z, rfl, h1, h2, h3, h4, h⟩
    exact ⟨⟨x, y, z⟩, ⟨a, b, c, rfl, h1, h2, h3⟩, h4, h.symm⟩
  · rintro ⟨⟨x, y, z⟩, ⟨a, b, c, rfl, h1, h2, h3⟩, h4, rfl⟩
    exact ⟨a, b, c, x, y, z, rfl, h1, h2, h3, h4, rfl⟩

theorem around_reads : Interprets around.toMatcher Direction (fun a => .object (.around a)) := by
  intro n v
  have hs : Sound (V := V) (F := ℝ) around := ⟨⟨sound_array, sound_string⟩, sound_string⟩
  unfold around at hs ⊢
  rw [(C79_first_partial hs).1]
  simp only [options, List.cons_append, List.nil_append]
  rw [first_cons (by simp), first_cons (by simp), first_cons (by simp), array_run]
  unfold aroundString aroundRandom
  simp only [string_run, satisfied_one, anyOf, Except.ok.injEq, List.any_cons, List.any_nil, Bool.or_false, Bool.or_eq_true, decide_eq_true_eq]
  constructor
  · rintro (⟨u, h1, h2, rfl⟩ | ⟨-, ⟨s, rfl, h, e⟩ | ⟨-, ⟨s, rfl, rfl, rfl⟩ | ⟨-, ⟨p, m, s, h, -⟩⟩⟩⟩)
    · exact ⟨_, .vector h1 h2, rfl⟩
    · rcases h with rfl | rfl | rfl | rfl | rfl | rfl
      · exact ⟨_, .x, by cases e; rfl⟩
      · exact ⟨_, .y, by cases e; rfl⟩
      · exact ⟨_, .z, by cases e; rfl⟩
      · exact ⟨_, .primary, by cases e; rfl⟩
      · exact ⟨_, .secondary, by cases e; rfl⟩
      · exact ⟨_, .auxiliary, by cases e; rfl⟩
    · exact ⟨_, .random, rfl⟩
    · simp at h
  · rintro ⟨g, h, rfl⟩
    cases h with
    | vector h1 h2 => exact .inl ⟨_, h1, h2, rfl⟩
    | x => exact .inr ⟨⟨_, rfl⟩, .inl ⟨_, rfl, by simp, rfl⟩⟩
    | y => exact .inr ⟨⟨_, rfl⟩, .inl ⟨_, rfl, by simp, rfl⟩⟩
    | z => exact .inr ⟨⟨_, rfl⟩, .inl ⟨_, rfl, by simp, rfl⟩⟩
    | primary => exact .inr ⟨⟨_, rfl⟩, .inl ⟨_, rfl, by simp, rfl⟩⟩
    | secondary => exact .inr ⟨⟨_, rfl⟩, .inl ⟨_, rfl, by simp, rfl⟩⟩
    | auxiliary => exact .inr ⟨⟨_, rfl⟩, .inl ⟨_, rfl, by simp, rfl⟩⟩
    | random => exact .inr ⟨⟨_, rfl⟩, .inr ⟨⟨_, rfl⟩, .inl ⟨_, rfl, rfl, rfl⟩⟩⟩

theorem unit_axis {v : Vec3 ℝ} (h : 1 / 10 ^ 20 < v.norm2) {a : Randomizing.Axis} :
    Randomizing.mkAxis (.vector v) = .ok a ↔ ∃ (u : Vec3 ℝ) (r : ℝ), 0 < r ∧ v = r • u ∧ u.norm2 = 1 ∧ a = .vector u := by
  have h0 : 0 < v.norm2 := lt_trans (by positivity) h
  have hr : 0 < v.norm := Real.sqrt_pos.mpr h0
  have key : Randomizing.mkAxis (.vector v) = .ok (.vector ⟨v.x / v.norm, v.y / v.norm, v.z / v.norm⟩) := by
    rw [Randomizing.mkAxis, show decide (v.norm2 > 1 / 10 ^ 20) = true from decide_eq_true h]
    simp only [Outcome.require_true, Outcome.ok_bind, normalize, if_neg hr.ne']
    rfl
  rw [key]
  constructor
  · intro e
    injection e with e
    refine ⟨_, v.norm, hr, ?_, ?_, e.symm⟩
    · ext <;> simp <;> field_simp
    · exact Rampack.normalize_ok (v := v) (by rw [normalize, if_neg hr.ne'])
  · rintro ⟨u, r, h1, rfl, h2, rfl⟩
    have e : (r • u : Vec3 ℝ).norm = r := by
      have : (r • u : Vec3 ℝ).norm2 = r ^ 2 := by
        have : (r • u : Vec3 ℝ).norm2 = r ^ 2 * u.norm2 := by simp [Vec3.norm2, Vec3.dot]; ring
        rw [this, h2, mul_one]
      rw [Vec3.norm, this, Real.sqrt_sq h1.le]
    rw [e]
    congr 2
    ext <;> simp [h1.ne']

theorem axis_unit {u : Vec3 ℝ} (hu : u.norm2 = 1) : Randomizing.mkAxis (.vector u) = .ok (.vector u) :=
  (unit_axis (by rw [hu]; norm_num)).mpr ⟨u, 1, one_pos, by ext <;> simp, hu, rfl⟩

theorem direction_around {n : Node ℝ} {u : Randomizing.Axis} : (∃ a, Direction n a ∧ Randomizing.mkAxis a = .ok u) ↔ IsAround n u := by
  have hx : (⟨1, 0, 0⟩ : Vec3 ℝ).norm2 = 1 := by simp [Vec3.norm2, Vec3.dot]
  have hy : (⟨0, 1, 0⟩ : Vec3 ℝ).norm2 = 1 := by simp [Vec3.norm2, Vec3.dot]
  have hz : (⟨0, 0, 1⟩ : Vec3 ℝ).norm2 = 1 := by simp [Vec3.norm2, Vec3.dot]
  constructor
  · rintro ⟨a, h, e⟩
    cases h with
    | vector h1 h2 =>
      obtain ⟨u, r, h3, h4, h5, rfl⟩ := (unit_axis h2).mp e
      exact .vector h1 h2 h3 h4 h5
    | x => rw [axis_unit hx] at e; cases e; exact .x
    | y => rw [axis_unit hy] at e; cases e; exact .y
    | z => rw [axis_unit hz] at e; cases e; exact .z
    | primary => cases e; exact .primary
    | secondary => cases e; exact .secondary
    | auxiliary => cases e; exact .auxiliary
    | random => cases e; exact .random
  · intro h
    cases h with
    | vector h1 h2 h3 h4 h5 => exact ⟨_, .vector h1 h2, (unit_axis h2).mpr ⟨_, _, h3, h4, h5, rfl⟩⟩
    | x => exact ⟨_, .x, axis_unit hx⟩
    | y => exact ⟨_, .y, axis_unit hy⟩
    | z => exact ⟨_, .z, axis_unit hz⟩
    | primary => exact ⟨_, .primary, rfl⟩
    | secondary => exact ⟨_, .secondary, rfl⟩
    | auxiliary => exact ⟨_, .auxiliary, rfl⟩
    | random => exact ⟨_, .random, rfl⟩

/-! ### Transformations -/

theorem optimizeCell_reads (hconv : Rampack.Spec.RoundsIntegers conv) : ∃ c, createOptimizeCell conv = .ok c ∧ c.name = "optimize_cell".toList ∧
    Interprets c.toMatcher (fun n t => ∃ a b x s, Call n "optimize_cell" [("spacing", none), ("axis_order", some (.string "xyz".toList))] [a, b] ∧
      IsPositive a x ∧ IsOrder b s ∧ t = .optimizeCell x s) (fun t => .object (.transformation t)) := by
  have h1 : axisOrder.run (.string "xyz".toList) = .matched (.value (.text "xyz".toList) : Any ℝ V) :=
    (order_reads _ _).mpr ⟨_, ⟨rfl, 0, 1, 2, by decide, rfl⟩, rfl⟩
  refine ⟨_, by rw [createOptimizeCell, optional_ok (Observ.parse_xyz hconv) h1]; rfl, rfl, fun n v => ?_⟩
  rw [class_run (.required (.optional h1 .nil)) rfl (by decide) rfl rfl]
  simp only [exists_read positiveFloat_reads, exists_read order_reads, exists_unread]
  eval_arr
  simp only [made_iff]
  constructor
  · rintro ⟨a, x, g1, b, s, g2, g3, -, -, -, rfl⟩
    exact ⟨_, ⟨a, b, x, s, g3, g1, g2, rfl⟩, rfl⟩
  · rintro ⟨t, ⟨a, b, x, s, g3, g1, g2, rfl⟩, rfl⟩
    obtain ⟨o, ho⟩ := order_parse g2
    exact ⟨a, x, g1, b, s, g2, g3, by simp [Satisfied], o, ho, rfl⟩

theorem optimizeLayers_reads : ∃ c, createOptimizeLayers = .ok c ∧ c.name = "optimize_layers".toList ∧
    Interprets c.toMatcher (fun n t => ∃ a b x axis, Call n "optimize_layers" [("spacing", none), ("axis", none)] [a, b] ∧ IsPositive a x ∧ IsAxis b axis ∧
      t = .optimizeLayers x axis) (fun t => .object (.transformation t)) := by
  refine ⟨_, rfl, rfl, fun n v => ?_⟩
  rw [class_run (.required (.required .nil)) rfl (by decide) rfl rfl]
  simp only [exists_read positiveFloat_reads, exists_read axis_reads, exists_unread]
  eval_arr
  constructor
  · rintro ⟨a, x, g1, b, s, g2, g3, -, rfl⟩
    exact ⟨_, ⟨a, b, x, s, g3, g1, g2, rfl⟩, rfl⟩
  · rintro ⟨t, ⟨a, b, x, s, g3, g1, g2, rfl⟩, rfl⟩
    exact ⟨a, x, g1, b, s, g2, g3, by simp [Satisfied], rfl⟩

theorem columnar_reads : ∃ c, createColumnar = .ok c ∧ c.name = "columnar".toList ∧
    Interprets c.toMatcher (fun n t => ∃ a b axis seed, Call n "columnar" [("axis", none), ("seed", none)] [a, b] ∧ IsAxis a axis ∧ IsWrapped b seed ∧
      t = .columnar axis seed) (fun t => .object (.transformation t)) := by
  refine ⟨_, rfl, rfl, fun n v => ?_⟩
  rw [class_run (.required (.required .nil)) rfl (by decide) rfl rfl]
  simp only [exists_read wrapped_reads, exists_read axis_reads, exists_unread]
  eval_arr
  constructor
  · rintro ⟨a, x, g1, b, s, g2, g3, -, rfl⟩
    exact ⟨_, ⟨a, b, x, s, g3, g1, g2, rfl⟩, rfl⟩
  · rintro ⟨t, ⟨a, b, x, s, g3, g1, g2, rfl⟩, rfl⟩
    exact ⟨a, x, g1, b, s, g2, g3, by simp [Satisfied], rfl⟩

theorem flip_reads : ∃ c, createRandomizeFlip = .ok c ∧ c.name = "randomize_flip".toList ∧
    Interprets c.toMatcher (fun n t => ∃ a seed, Call n "randomize_flip" [("seed", none)] [a] ∧ IsWrapped a seed ∧ t = .randomizeFlip seed)
      (fun t => .object (.transformation t)) := by
  refine ⟨_, rfl, rfl, fun n v => ?_⟩
  rw [class_run (.required .nil) rfl (by decide) rfl rfl]
  simp only [exists_read wrapped_reads, exists_unread]
  eval_arr
  constructor
  · rintro ⟨a, x, g1, g3, -, rfl⟩
    exact ⟨_, ⟨a, x, g3, g1, rfl⟩, rfl⟩
  · rintro ⟨t, ⟨a, x, g3, g1, rfl⟩, rfl⟩
    exact ⟨a, x, g1, g3, by simp [Satisfied], rfl⟩

theorem layerRotate_reads : ∃ c, createLayerRotate = .ok c ∧ c.name = "layer_rotate".toList ∧
    Interprets c.toMatcher (fun n t => ∃ a b c d layer axis x alternating,
      Call n "layer_rotate" [("layer_axis", none), ("rot_axis", none), ("rot_angle", none), ("alternating", none)] [a, b, c, d] ∧ IsAxis a layer ∧ IsAxis b axis ∧
      IsNumber c x ∧ d = .boolean alternating ∧ t = .layerRotate layer axis (x / 180 * Real.pi) alternating) (fun t => .object (.transformation t)) := by
  refine ⟨_, rfl, rfl, fun n v => ?_⟩
  rw [class_run (.required (.required (.required (.required .nil)))) rfl (by decide) rfl rfl]
  simp only [exists_read axis_reads, exists_read float_reads, exists_read boolean_reads, exists_unread]
  eval_arr
  have e : ∀ x : ℝ, Real.pi * x / 180 = x / 180 * Real.pi := fun x => by ring
  simp only [e]
  constructor
  · rintro ⟨a, x, g1, b, y, g2, c, z, g3, d, w, g4, g5, -, rfl⟩
    exact ⟨_, ⟨a, b, c, d, x, y, z, w, g5, g1, g2, g3, g4, rfl⟩, rfl⟩
  · rintro ⟨t, ⟨a, b, c, d, x, y, z, w, g5, g1, g2, g3, g4, rfl⟩, rfl⟩
    exact ⟨a, x, g1, b, y, g2, c, z, g3, d, w, g4, g5, by simp [Satisfied], rfl⟩

theorem parse_random (hconv : Rampack.Spec.RoundsIntegers conv) : Pyon.parse conv "\"random\"".toList = .ok (.string "random".toList) :=
  C45_canonical (lit := fun _ => []) (v := .string "random".toList) hconv .string

theorem rotation_reads (hconv : Rampack.Spec.RoundsIntegers conv) : ∃ c, createRandomizeRotation conv = .ok c ∧ c.name = "randomize_rotation".toList ∧
    Interprets c.toMatcher (fun n t => ∃ a b seed axis, Call n "randomize_rotation" [("seed", none), ("axis", some (.string "random".toList))] [a, b] ∧
      IsWrapped a seed ∧ IsAround b axis ∧ t = .randomizeRotation seed axis) (fun t => .object (.transformation t)) := by
  have h1 : around.toMatcher.run (.string "random".toList) = .matched (.value (.object (.around .random)) : Any ℝ V) :=
    (around_reads _ _).mpr ⟨_, .random, rfl⟩
  refine ⟨_, by rw [createRandomizeRotation, optional_ok (parse_random hconv) h1]; rfl, rfl, fun n v => ?_⟩
  rw [class_run (.required (.optional h1 .nil)) rfl (by decide) rfl rfl]
  simp only [exists_read wrapped_reads, exists_read around_reads, exists_unread]
  eval_arr
  simp only [made_iff]
  constructor
  · rintro ⟨a, x, g1, b, s, g2, g3, -, u, hu, rfl⟩
    exact ⟨_, ⟨a, b, x, u, g3, g1, direction_around.mp ⟨s, g2, hu⟩, rfl⟩, rfl⟩
  · rintro ⟨t, ⟨a, b, x, u, g3, g1, g2, rfl⟩, rfl⟩
    obtain ⟨s, g2, hu⟩ := direction_around.mpr g2
    exact ⟨a, x, g1, b, s, g2, g3, by simp [Satisfied], u, hu, rfl⟩

theorem transformations_reads (hconv : Rampack.Spec.RoundsIntegers conv) : ∃ m, createTransformations conv = .ok m ∧
    Interprets m (ListOf IsTransformation) (fun l => .object (.transformations l)) := by
  obtain ⟨c1, e1, n1, r1⟩ := optimizeCell_reads hconv
  obtain ⟨c2, e2, n2, r2⟩ := optimizeLayers_reads
  obtain ⟨c3, e3, n3, r3⟩ := columnar_reads
  obtain ⟨c4, e4, n4, r4⟩ := flip_reads
  obtain ⟨c5, e5, n5, r5⟩ := layerRotate_reads
  obtain ⟨c6, e6, n6, r6⟩ := rotation_reads hconv
  refine ⟨_, by rw [createTransformations, e1, Outcome.ok_bind, e2, Outcome.ok_bind, e3, Outcome.ok_bind, e4, Outcome.ok_bind, e5, Outcome.ok_bind, e6]; rfl, ?_⟩
  have rt : Interprets (Choice.join (.join (.join (.join (.join (.dataclass c1) (.dataclass c2)) (.dataclass c3)) (.dataclass c4)) (.dataclass c5)) (.dataclass c6)).toMatcher
      IsTransformation (fun t => .object (.transformation t)) := by
    intro n v
    refine Iff.trans (alternative_reads (heads := [.named "optimize_cell".toList, .named "optimize_layers".toList, .named "columnar".toList, .named "randomize_flip".toList,
      .named "layer_rotate".toList, .named "randomize_rotation".toList]) (by simp [Sound])
      (by exact .cons (takes_class n1) (.cons (takes_class n2) (.cons (takes_class n3) (.cons (takes_class n4) (.cons (takes_class n5) (.cons (takes_class n6) .nil))))))
      (by simp)) ?_
    simp only [options, List.cons_append, List.nil_append, List.mem_cons, List.not_mem_nil, or_false, exists_eq_or_imp, exists_eq_left, r1 n v, r2 n v, r3 n v, r4 n v, r5 n v, r6 n v]
    constructor
    · rintro (⟨t, ⟨a, b, x, y, h, h1, h2, rfl⟩, rfl⟩ | ⟨t, ⟨a, b, x, y, h, h1, h2, rfl⟩, rfl⟩ | ⟨t, ⟨a, b, x, y, h, h1, h2, rfl⟩, rfl⟩ | ⟨t, ⟨a, x, h, h1, rfl⟩, rfl⟩ |
        ⟨t, ⟨a, b, c, d, x, y, z, w, h, h1, h2, h3, h4, rfl⟩, rfl⟩ | ⟨t, ⟨a, b, x, y, h, h1, h2, rfl⟩, rfl⟩)
      · exact ⟨_, .optimizeCell h h1 h2, rfl⟩
      · exact ⟨_, .optimizeLayers h h1 h2, rfl⟩
      · exact ⟨_, .columnar h h1 h2, rfl⟩
      · exact ⟨_, .randomizeFlip h h1, rfl⟩
      · exact ⟨_, .layerRotate h h1 h2 h3 h4, rfl⟩
      · exact ⟨_, .randomizeRotation h h1 h2, rfl⟩
    · rintro ⟨t, h, rfl⟩
      cases h with
      | optimizeCell h h1 h2 => exact .inl ⟨_, ⟨_, _, _, _, h, h1, h2, rfl⟩, rfl⟩
      | optimizeLayers h h1 h2 => exact .inr (.inl ⟨_, ⟨_, _, _, _, h, h1, h2, rfl⟩, rfl⟩)
      | columnar h h1 h2 => exact .inr (.inr (.inl ⟨_, ⟨_, _, _, _, h, h1, h2, rfl⟩, rfl⟩))
      | randomizeFlip h h1 => exact .inr (.inr (.inr (.inl ⟨_, ⟨_, _, h, h1, rfl⟩, rfl⟩)))
      | layerRotate h h1 h2 h3 h4 => exact .inr (.inr (.inr (.inr (.inl ⟨_, ⟨_, _, _, _, _, _, _, _, h, h1, h2, h3, h4, rfl⟩, rfl⟩))))
      | randomizeRotation h h1 h2 => exact .inr (.inr (.inr (.inr (.inr ⟨_, ⟨_, _, _, _, h, h1, h2, rfl⟩, rfl⟩))))
  intro n v
  have := vector_reads rt (as := asTransformation) (fun x => rfl) (filters := []) (P := fun _ => True) (by intro l; simp [Satisfied]) (w := fun l => .object (.transformations l)) n v
  rw [this]
  simp only [and_true]

/-! ### Partial filling -/

/-- An order of axes, or none. -/
def MaybeOrder (n : Node ℝ) (s : Text) : Prop := (n = .string "auto".toList ∧ s = "auto".toList) ∨ IsOrder n s

theorem maybeOrder_reads : Interprets (Choice.join (.other axisOrderAuto) (.other axisOrder)).toMatcher MaybeOrder (.text : Text → V) := by
  intro n v
  have hs : Sound (V := V) (F := ℝ) (Choice.join (.other axisOrderAuto) (.other axisOrder)) := ⟨sound_string, sound_string⟩
  rw [(C79_first_partial hs).1]
  simp only [options, List.cons_append, List.nil_append]
  rw [first_cons (by simp), first_cons (by simp), order_reads n v]
  have hr : axisOrderAuto.run n = .matched v ↔ n = .string "auto".toList ∧ v = .value (.text "auto".toList) := by
    unfold axisOrderAuto
    simp only [string_run, satisfied_one, anyOf, Except.ok.injEq, List.any_cons, List.any_nil, Bool.or_false, decide_eq_true_eq]
    constructor
    · rintro ⟨s, rfl, rfl, rfl⟩
      exact ⟨rfl, rfl⟩
    · rintro ⟨rfl, rfl⟩
      exact ⟨_, rfl, rfl, rfl⟩
  rw [hr]
  constructor
  · rintro (⟨h1, rfl⟩ | ⟨-, ⟨s, h, rfl⟩ | ⟨-, ⟨p, m, s, h, -⟩⟩⟩)
    · exact ⟨_, .inl ⟨h1, rfl⟩, rfl⟩
    · exact ⟨_, .inr h, rfl⟩
    · simp at h
  · rintro ⟨s, (⟨rfl, rfl⟩ | h), rfl⟩
    · exact .inl ⟨rfl, rfl⟩
    · refine .inr ⟨?_, .inl ⟨_, h, rfl⟩⟩
      obtain ⟨rfl, a, b, c, -, rfl⟩ := h
      refine ⟨.condition, ?_⟩
      have : ¬ [axisLetter a, axisLetter b, axisLetter c] = "auto".toList := fun e => by simpa using congrArg List.length e
      simp only [axisOrderAuto, matcherString, finish, checkFilters, anyOf, List.any_cons, List.any_nil, decide_eq_false this]
      rfl

theorem serial_reads (hconv : Rampack.Spec.RoundsIntegers conv) : ∃ c, createSerial conv = .ok c ∧ c.name = "serial".toList ∧
    Interprets c.toMatcher (fun n f => ∃ a b k s, Call n "serial" [("n_shapes", none), ("axis_order", some (.string "auto".toList))] [a, b] ∧ IsCount a k ∧
      ((b = .string "auto".toList ∧ f = .auto k) ∨ (IsOrder b s ∧ f = .serial k s))) (fun t => .object (.filling t)) := by
  have h1 : (Choice.join (.other axisOrderAuto) (.other axisOrder)).toMatcher.run (.string "auto".toList) = .matched (.value (.text "auto".toList) : Any ℝ V) :=
    (maybeOrder_reads _ _).mpr ⟨_, .inl ⟨rfl, rfl⟩, rfl⟩
  refine ⟨_, by rw [createSerial, optional_ok (parse_auto hconv) h1]; rfl, rfl, fun n v => ?_⟩
  rw [class_run (.required (.optional h1 .nil)) rfl (by decide) rfl rfl]
  simp only [exists_read count_reads, exists_read maybeOrder_reads, exists_unread]
  eval_arr
  have hl : ∀ {b : Node ℝ} {s : Text}, IsOrder b s → ¬ s = "auto".toList := by
    rintro b s ⟨-, a, b, c, -, rfl⟩ e
    simpa using congrArg List.length e
  constructor
  · rintro ⟨a, k, g1, b, s, g2, g3, -, e⟩
    rcases g2 with ⟨rfl, rfl⟩ | g2
    · rw [if_pos rfl] at e
      cases e
      exact ⟨_, ⟨a, _, k, [], g3, g1, .inl ⟨rfl, rfl⟩⟩, rfl⟩
    · rw [if_neg (hl g2)] at e
      obtain ⟨o, -, rfl⟩ := made_iff.mp e
      exact ⟨_, ⟨a, b, k, s, g3, g1, .inr ⟨g2, rfl⟩⟩, rfl⟩
  · rintro ⟨t, ⟨a, b, k, s, g3, g1, (⟨rfl, rfl⟩ | ⟨g2, rfl⟩)⟩, rfl⟩
    · exact ⟨a, k, g1, _, _, .inl ⟨rfl, rfl⟩, g3, by simp [Satisfied], by rw [if_pos rfl]; rfl⟩
    · obtain ⟨o, ho⟩ := order_parse g2
      exact ⟨a, k, g1, b, s, .inr g2, g3, by simp [Satisfied], by rw [if_neg (hl g2)]; exact made_iff.mpr ⟨o, ho, rfl⟩⟩

theorem random_reads : ∃ c, createRandom = .ok c ∧ c.name = "random".toList ∧
    Interprets c.toMatcher (fun n f => ∃ a b k seed, Call n "random" [("n_shapes", none), ("seed", none)] [a, b] ∧ IsCount a k ∧ IsWrapped b seed ∧
      f = .random k seed) (fun t => .object (.filling t)) := by
  refine ⟨_, rfl, rfl, fun n v => ?_⟩
  rw [class_run (.required (.required .nil)) rfl (by decide) rfl rfl]
  simp only [exists_read wrapped_reads, exists_read count_reads, exists_unread]
  eval_arr
  constructor
  · rintro ⟨a, x, g1, b, s, g2, g3, -, rfl⟩
    exact ⟨_, ⟨a, b, x, s, g3, g1, g2, rfl⟩, rfl⟩
  · rintro ⟨t, ⟨a, b, x, s, g3, g1, g2, rfl⟩, rfl⟩
    exact ⟨a, x, g1, b, s, g2, g3, by simp [Satisfied], rfl⟩

theorem filling_reads (hconv : Rampack.Spec.RoundsIntegers conv) : ∃ c, createFillPartially conv = .ok c ∧
    Interprets c.toMatcher IsFilling (fun f => .object (.filling f)) := by
  obtain ⟨c1, e1, n1, r1⟩ := serial_reads hconv
  obtain ⟨c2, e2, n2, r2⟩ := random_reads
  refine ⟨_, by rw [createFillPartially, e1, Outcome.ok_bind, e2]; rfl, fun n v => ?_⟩
  refine Iff.trans (alternative_reads (heads := [.named "serial".toList, .named "random".toList]) (by simp [Sound])
      (by exact .cons (takes_class n1) (.cons (takes_class n2) .nil)) (by simp)) ?_
  simp only [options, List.cons_append, List.nil_append, List.mem_cons, List.not_mem_nil, or_false, exists_eq_or_imp, exists_eq_left, r1 n v, r2 n v]
  constructor
  · rintro (⟨t, ⟨a, b, k, s, h, h1, (⟨rfl, rfl⟩ | ⟨h2, rfl⟩)⟩, rfl⟩ | ⟨t, ⟨a, b, x, y, h, h1, h2, rfl⟩, rfl⟩)
    · exact ⟨_, .auto h h1, rfl⟩
    · exact ⟨_, .serial h h1 h2, rfl⟩
    · exact ⟨_, .random h h1 h2, rfl⟩
  · rintro ⟨t, h, rfl⟩
    cases h with
    | auto h h1 => exact .inl ⟨_, ⟨_, _, _, [], h, h1, .inl ⟨rfl, rfl⟩⟩, rfl⟩
    | serial h h1 h2 => exact .inl ⟨_, ⟨_, _, _, _, h, h1, .inr ⟨h2, rfl⟩⟩, rfl⟩
    | random h h1 h2 => exact .inr ⟨_, ⟨_, _, _, _, h, h1, h2, rfl⟩, rfl⟩

end Rampack.ArrangeExpr
