import Verif.Frontend.ArrangeExprSpec
import Verif.Frontend.ShapeExprLemmas
import Verif.Frontend.ObservWhole
import Verif.Lattice.ArrangePackProps
/-
What the matchers of parts of arrangements read.
-/
namespace Rampack.ArrangeExpr

open Pyon Pyon.Spec Rampack.Input Rampack.Input.Spec Rampack.Arrange Rampack.ShapeExpr.Spec Rampack.ArrangeExpr.Spec
open Rampack.Observ (satisfied_two)
open Rampack.Spec (axisLetter documentedSites ProperCount ProperDim)

variable {conv : ℚ → Option ℝ}

/-- Evaluation of conversions and filters on known arguments. -/
macro "eval_arr" : tactic => `(tactic| simp only [ClassMatcher.mapTo, pairs, get_cons, String.reduceEq, if_true, if_false, reduceIte, ok_bind', ok_map',
  ok_pure', asText, asFlag, asReal, asSize, asAxis, asCells, asRow, asRotation, asMolecule, asMolecules, asCell, asDim, asAround, asTransformation, asTransformations,
  asFilling, satisfied_one, Except.ok.injEq])

/-! ### Three elements -/

theorem three_reads {α : Type} {m : Matcher ℝ V} {R : Node ℝ → α → Prop} {wrap : α → V} (hm : Interprets m R wrap)
    {fs : List (List (Any ℝ V) → Except String Bool)} {g : List (Any ℝ V) → Except String (Any ℝ V)} {n : Node ℝ} {v : Any ℝ V} :
    (ArrayMatcher.toMatcher ⟨some m, arraySize 3 :: fs, g⟩).run n = .matched v ↔ ∃ a b c x y z, n = .array [a, b, c] ∧ R a x ∧ R b y ∧ R c z ∧
      Satisfied fs [.value (wrap x), .value (wrap y), .value (wrap z)] ∧ g [.value (wrap x), .value (wrap y), .value (wrap z)] = .ok v := by
  change (ArrayMatcher.run _ n) = _ ↔ _
  rw [C78_array]
  constructor
  · rintro ⟨ns, vs, rfl, ⟨h1, h2⟩, h3⟩
    have h2' := h2 (arraySize 3) (by simp)
    simp only [arraySize, Except.ok.injEq, decide_eq_true_eq] at h2'
    obtain ⟨x, y, z, rfl⟩ := List.length_eq_three.mp h2'
    cases h1 with
    | cons ha h1 =>
      cases h1 with
      | cons hb h1 =>
        cases h1 with
        | cons hc h1 =>
          cases h1 with
          | nil =>
            obtain ⟨p, hp, rfl⟩ := (hm _ _).mp ha
            obtain ⟨q, hq, rfl⟩ := (hm _ _).mp hb
            obtain ⟨r, hr, rfl⟩ := (hm _ _).mp hc
            exact ⟨_, _, _, p, q, r, rfl, hp, hq, hr, fun f hf => h2 f (by simp [hf]), h3⟩
  · rintro ⟨a, b, c, p, q, r, rfl, hp, hq, hr, hs, hg⟩
    refine ⟨[a, b, c], [.value (wrap p), .value (wrap q), .value (wrap r)], rfl, ⟨.cons ((hm _ _).mpr ⟨p, hp, rfl⟩)
      (.cons ((hm _ _).mpr ⟨q, hq, rfl⟩) (.cons ((hm _ _).mpr ⟨r, hr, rfl⟩) .nil)), ?_⟩, hg⟩
    intro f hf
    rcases List.mem_cons.mp hf with rfl | hf
    · rfl
    · exact hs f hf

theorem pos_reads : Interprets pos IsVec (fun v => .object (.row v)) := by
  intro n v
  unfold pos
  rw [three_reads float_reads]
  constructor
  · rintro ⟨a, b, c, x, y, z, rfl, h1, h2, h3, -, h⟩
    simp only [asThree, asReal, ok_bind', ok_pure', ok_map', Except.ok.injEq] at h
    exact ⟨⟨x, y, z⟩, ⟨_, _, _, rfl, h1, h2, h3⟩, h.symm⟩
  · rintro ⟨⟨x, y, z⟩, ⟨a, b, c, rfl, h1, h2, h3⟩, rfl⟩
    exact ⟨a, b, c, x, y, z, rfl, h1, h2, h3, by simp [Satisfied], rfl⟩

theorem rotationOf_eq (v : Vec3 ℝ) : rotationOf v = Mat3.rotation (v.x / 180 * Real.pi) (v.y / 180 * Real.pi) (v.z / 180 * Real.pi) := by
  unfold rotationOf
  congr 1 <;> ring

theorem rot_reads : Interprets rot IsOrientation (fun v => .object (.rotation v)) := by
  intro n v
  unfold rot
  rw [three_reads float_reads]
  constructor
  · rintro ⟨a, b, c, x, y, z, rfl, h1, h2, h3, -, h⟩
    simp only [asThree, asReal, ok_bind', ok_pure', ok_map', Except.ok.injEq] at h
    exact ⟨_, ⟨⟨x, y, z⟩, ⟨_, _, _, rfl, h1, h2, h3⟩, rotationOf_eq _⟩, h.symm⟩
  · rintro ⟨_, ⟨⟨x, y, z⟩, ⟨a, b, c, rfl, h1, h2, h3⟩, rfl⟩, rfl⟩
    refine ⟨a, b, c, x, y, z, rfl, h1, h2, h3, by simp [Satisfied], ?_⟩
    rw [← rotationOf_eq]
    rfl

theorem rot_zero : rot.run (.array [.int 0, .int 0, .int 0]) = .matched (.value (.object (.rotation (rotationOf ⟨((0 : Int) : ℝ), ((0 : Int) : ℝ), ((0 : Int) : ℝ)⟩)) : V)) :=
  (rot_reads _ _).mpr ⟨_, ⟨_, ⟨_, _, _, rfl, .inr ⟨0, rfl, rfl⟩, .inr ⟨0, rfl, rfl⟩, .inr ⟨0, rfl, rfl⟩⟩, rotationOf_eq _⟩, rfl⟩

/-! ### Numbers and letters -/

theorem cells_reads : Interprets nCells.toMatcher IsCells (fun k => .object (.cells k)) := by
  intro n v
  unfold nCells
  refine Iff.trans (alternative_reads (heads := [.number, .array]) (by exact ⟨sound_int, sound_array⟩) (by exact .cons takes_int (.cons takes_array .nil)) (by simp)) ?_
  have hc : (matcherInt [intPositive] (fun i => .ok (.value (.object (.cells ⟨Input.toSize i, Input.toSize i, Input.toSize i⟩))))).run n = .matched v ↔
      ∃ k, IsCount n k ∧ v = .value (.object (.cells ⟨k, k, k⟩)) := count_run (X := Object) (g := fun k => .object (.cells ⟨k, k, k⟩))
  simp only [options, List.cons_append, List.nil_append, List.mem_cons, List.not_mem_nil, or_false, exists_eq_or_imp, exists_eq_left, hc, three_reads count_reads]
  constructor
  · rintro (⟨k, hk, rfl⟩ | ⟨a, b, c, x, y, z, rfl, h1, h2, h3, -, h⟩)
    · exact ⟨_, .one hk, rfl⟩
    · simp only [asThree, asSize, ok_bind', ok_pure', ok_map', Except.ok.injEq] at h
      exact ⟨_, .three h1 h2 h3, h.symm⟩
  · rintro ⟨k, h, rfl⟩
    cases h with
    | one h => exact .inl ⟨_, h, rfl⟩
    | three h1 h2 h3 => exact .inr ⟨_, _, _, _, _, _, rfl, h1, h2, h3, by simp [Satisfied], rfl⟩

theorem axis_reads : Interprets axis IsAxis (fun a => .object (.axis a)) := by
  intro n v
  unfold axis
  rw [string_run]
  simp only [satisfied_one, anyOf, Except.ok.injEq, List.any_cons, List.any_nil, Bool.or_false, Bool.or_eq_true, decide_eq_true_eq]
  constructor
  · rintro ⟨s, rfl, rfl | rfl | rfl, h⟩
    · exact ⟨0, rfl, by cases h; rfl⟩
    · exact ⟨1, rfl, by cases h; rfl⟩
    · exact ⟨2, rfl, by cases h; rfl⟩
  · rintro ⟨a, h, rfl⟩
    unfold IsAxis at h
    fin_cases a
    · exact ⟨_, h, .inl rfl, rfl⟩
    · exact ⟨_, h, .inr (.inl rfl), rfl⟩
    · exact ⟨_, h, .inr (.inr rfl), rfl⟩

theorem letter_index {c : Char} (h : c ∈ "xyz".toList) : ∃ a, c = axisLetter a := by
  have : c = 'x' ∨ c = 'y' ∨ c = 'z' := by simpa using h
  rcases this with rfl | rfl | rfl
  · exact ⟨0, rfl⟩
  · exact ⟨1, rfl⟩
  · exact ⟨2, rfl⟩

theorem letter_mem (a : Fin 3) : axisLetter a ∈ "xyz".toList := by fin_cases a <;> decide

theorem letter_inj {a b : Fin 3} (h : axisLetter a = axisLetter b) : a = b := by
  fin_cases a <;> fin_cases b <;> first | rfl | (exfalso; revert h; decide)

theorem order_reads : Interprets axisOrder IsOrder .text := by
  intro n v
  unfold axisOrder
  rw [string_run]
  constructor
  · rintro ⟨s, rfl, h, e⟩
    have h1 := h onlyAxes (by simp)
    have h2 := h uniqueCharacters (by simp)
    have h3 := h (textLength 3) (by simp)
    simp only [onlyAxes, uniqueCharacters, textLength, Except.ok.injEq, decide_eq_true_eq, List.all_eq_true, List.contains_iff_mem] at h1 h2 h3
    obtain ⟨x, y, z, rfl⟩ := List.length_eq_three.mp h3
    obtain ⟨a, rfl⟩ := letter_index (h1 x (by simp))
    obtain ⟨b, rfl⟩ := letter_index (h1 y (by simp))
    obtain ⟨c, rfl⟩ := letter_index (h1 z (by simp))
    cases e
    refine ⟨_, ⟨rfl, a, b, c, ⟨?_, ?_, ?_⟩, rfl⟩, rfl⟩ <;> rintro rfl <;> simp at h2
  · rintro ⟨s, ⟨rfl, a, b, c, ⟨h1, h2, h3⟩, rfl⟩, rfl⟩
    refine ⟨_, rfl, ?_, rfl⟩
    intro f hf
    simp only [List.mem_cons, List.not_mem_nil, or_false] at hf
    rcases hf with rfl | rfl | rfl
    · simp only [onlyAxes, Except.ok.injEq, List.all_eq_true, List.contains_iff_mem]
      intro x hx
      simp only [List.mem_cons, List.not_mem_nil, or_false] at hx
      rcases hx with rfl | rfl | rfl <;> exact letter_mem _
    · simp only [uniqueCharacters, Except.ok.injEq, decide_eq_true_eq, List.nodup_cons, List.mem_cons, List.not_mem_nil, or_false, not_or, not_false_eq_true, List.nodup_nil,
        and_true]
      exact ⟨⟨fun e => h1 (letter_inj e), fun e => h2 (letter_inj e)⟩, fun e => h3 (letter_inj e)⟩
    · rfl

theorem order_parse {n : Node ℝ} {s : Text} (h : IsOrder n s) : ∃ a, parseAxisOrder s = .ok a := by
  obtain ⟨-, a, b, c, h, rfl⟩ := h
  exact ⟨_, parse_letters (a := ⟨a, b, c⟩) h⟩

/-! ### Cells -/

theorem cubic_reads (name : String) (cell : CellType) (hname : name.toList ≠ []) : ∃ c, createCubic name cell = .ok c ∧ c.name = name.toList ∧
    Interprets c.toMatcher (fun n c => Call n name [] [] ∧ c = cell) (fun g => .object (.cell g)) := by
  refine ⟨_, by rw [createCubic, createClass, if_neg hname]; rfl, rfl, fun n v => ?_⟩
  rw [class_run .nil rfl (by simp) rfl rfl]
  simp only [exists_unread]
  eval_arr
  constructor
  · rintro ⟨g, -, rfl⟩
    exact ⟨_, ⟨g, rfl⟩, rfl⟩
  · rintro ⟨s, ⟨g, rfl⟩, rfl⟩
    exact ⟨g, by simp [Satisfied], rfl⟩

theorem layered_reads (name : String) (cell : Fin 3 → CellType) (hname : name.toList ≠ []) : ∃ c, createLayered name cell = .ok c ∧ c.name = name.toList ∧
    Interprets c.toMatcher (fun n c => ∃ a axis, Call n name [("axis", none)] [a] ∧ IsAxis a axis ∧ c = cell axis) (fun g => .object (.cell g)) := by
  refine ⟨_, by rw [createLayered, createClass, if_neg hname]; rfl, rfl, fun n v => ?_⟩
  rw [class_run (.required .nil) rfl (by simp) rfl rfl]
  simp only [exists_read axis_reads, exists_unread]
  eval_arr
  constructor
  · rintro ⟨a, x, g1, g2, -, rfl⟩
    exact ⟨_, ⟨a, x, g2, g1, rfl⟩, rfl⟩
  · rintro ⟨s, ⟨a, x, g2, g1, rfl⟩, rfl⟩
    exact ⟨a, x, g1, g2, by simp [Satisfied], rfl⟩

theorem molecule_reads (hconv : Rampack.Spec.RoundsIntegers conv) : ∃ c, createMolecule conv = .ok c ∧ Interprets c.toMatcher IsMolecule (fun g => .object (.shape g)) := by
  refine ⟨_, by rw [createMolecule, optional_ok (ShapeExpr.parse_zeros hconv) rot_zero]; rfl, fun n v => ?_⟩
  rw [class_run (name := "shape") (.required (.optional rot_zero .nil)) rfl (by decide) rfl rfl]
  simp only [exists_read pos_reads, exists_read rot_reads, exists_unread]
  eval_arr
  constructor
  · rintro ⟨a, x, g1, b, m, g2, g3, -, rfl⟩
    exact ⟨⟨x, m⟩, ⟨a, b, g3, g1, g2⟩, rfl⟩
  · rintro ⟨⟨x, m⟩, ⟨a, b, g3, g1, g2⟩, rfl⟩
    exact ⟨a, x, g1, b, m, g2, g3, by simp [Satisfied], rfl⟩

theorem custom_reads (hconv : Rampack.Spec.RoundsIntegers conv) : ∃ c, createCustom conv = .ok c ∧ c.name = "custom".toList ∧
    Interprets c.toMatcher (fun n c => ∃ a l, Call n "custom" [("shapes", none)] [a] ∧ (ListOf IsMolecule a l ∧ l ≠ []) ∧ c = .custom l) (fun g => .object (.cell g)) := by
  obtain ⟨m, em, rm⟩ := molecule_reads hconv
  refine ⟨_, by rw [createCustom, em, Outcome.ok_bind]; rfl, rfl, fun n v => ?_⟩
  have rs := vector_reads rm (as := asMolecule) (fun x => rfl) (filters := [arrayNonEmpty]) (P := fun l => l ≠ [])
    (by intro l; simp [satisfied_one, arrayNonEmpty]) (w := fun l => .object (.shapes l))
  rw [class_run (.required .nil) rfl (by simp) rfl rfl]
  simp only [exists_read rs, exists_unread]
  eval_arr
  constructor
  · rintro ⟨a, x, g1, g2, -, rfl⟩
    exact ⟨_, ⟨a, x, g2, g1, rfl⟩, rfl⟩
  · rintro ⟨s, ⟨a, x, g2, g1, rfl⟩, rfl⟩
    exact ⟨a, x, g1, g2, by simp [Satisfied], rfl⟩

theorem cell_reads (hconv : Rampack.Spec.RoundsIntegers conv) : ∃ c, createCell conv = .ok c ∧ Interprets c.toMatcher IsCell (fun g => .object (.cell g)) := by
  obtain ⟨c1, e1, n1, r1⟩ := cubic_reads "sc" .sc (by decide)
  obtain ⟨c2, e2, n2, r2⟩ := cubic_reads "bcc" .bcc (by decide)
  obtain ⟨c3, e3, n3, r3⟩ := cubic_reads "fcc" .fcc (by decide)
  obtain ⟨c4, e4, n4, r4⟩ := layered_reads "hcp" .hcp (by decide)
  obtain ⟨c5, e5, n5, r5⟩ := layered_reads "hexagonal" .hexagonal (by decide)
  obtain ⟨c6, e6, n6, r6⟩ := custom_reads hconv
  refine ⟨_, by rw [createCell, e1, Outcome.ok_bind, e2, Outcome.ok_bind, e3, Outcome.ok_bind, e4, Outcome.ok_bind, e5, Outcome.ok_bind, e6]; rfl, fun n v => ?_⟩
  refine Iff.trans (alternative_reads (heads := [.named "sc".toList, .named "bcc".toList, .named "fcc".toList, .named "hcp".toList, .named "hexagonal".toList, .named "custom".toList])
    (by simp [Sound]) (by exact .cons (takes_class n1) (.cons (takes_class n2) (.cons (takes_class n3) (.cons (takes_class n4) (.cons (takes_class n5) (.cons (takes_class n6) .nil))))))
    (by simp)) ?_
  simp only [options, List.cons_append, List.nil_append, List.mem_cons, List.not_mem_nil, or_false, exists_eq_or_imp, exists_eq_left, r1 n v, r2 n v, r3 n v, r4 n v, r5 n v, r6 n v]
  constructor
  · rintro (⟨g, ⟨h, rfl⟩, rfl⟩ | ⟨g, ⟨h, rfl⟩, rfl⟩ | ⟨g, ⟨h, rfl⟩, rfl⟩ | ⟨g, ⟨a, x, h, h1, rfl⟩, rfl⟩ | ⟨g, ⟨a, x, h, h1, rfl⟩, rfl⟩ | ⟨g, ⟨a, l, h, ⟨h1, h2⟩, rfl⟩, rfl⟩)
    · exact ⟨_, .sc h, rfl⟩
    · exact ⟨_, .bcc h, rfl⟩
    · exact ⟨_, .fcc h, rfl⟩
    · exact ⟨_, .hcp h h1, rfl⟩
    · exact ⟨_, .hexagonal h h1, rfl⟩
    · exact ⟨_, .custom h h1 h2, rfl⟩
  · rintro ⟨g, h, rfl⟩
    cases h with
    | sc h => exact .inl ⟨_, ⟨h, rfl⟩, rfl⟩
    | bcc h => exact .inr (.inl ⟨_, ⟨h, rfl⟩, rfl⟩)
    | fcc h => exact .inr (.inr (.inl ⟨_, ⟨h, rfl⟩, rfl⟩))
    | hcp h h1 => exact .inr (.inr (.inr (.inl ⟨_, ⟨_, _, h, h1, rfl⟩, rfl⟩)))
    | hexagonal h h1 => exact .inr (.inr (.inr (.inr (.inl ⟨_, ⟨_, _, h, h1, rfl⟩, rfl⟩))))
    | custom h h1 h2 => exact .inr (.inr (.inr (.inr (.inr ⟨_, ⟨_, _, h, ⟨h1, h2⟩, rfl⟩, rfl⟩))))

/-! ### Dimensions -/

theorem lengths_run {n : Node ℝ} {v : Any ℝ V} : dimLengths.run n = .matched v ↔ ∃ a b c x y z, n = .array [a, b, c] ∧ IsPositive a x ∧ IsPositive b y ∧
    IsPositive c z ∧ v = .value (.object (.dim (.lengths ⟨x, y, z⟩))) := by
  unfold dimLengths
  rw [three_reads positiveFloat_reads]
  constructor
  · rintro ⟨a, b, c, x, y, z, rfl, h1, h2, h3, -, h⟩
    simp only [asThree, asReal, ok_bind', ok_pure', ok_map', Except.ok.injEq] at h
    exact ⟨a, b, c, x, y, z, rfl, h1, h2, h3, h.symm⟩
  · rintro ⟨a, b, c, x, y, z, rfl, h1, h2, h3, rfl⟩
    exact ⟨a, b, c, x, y, z, rfl, h1, h2, h3, by simp [Satisfied], rfl⟩

theorem vectors_run {n : Node ℝ} {v : Any ℝ V} : dimVectors.run n = .matched v ↔ ∃ a b c x y z, n = .array [a, b, c] ∧ IsVec a x ∧ IsVec b y ∧
    IsVec c z ∧ 1 / 10 ^ 8 < |Mat3.det ⟨x, y, z⟩| ∧ v = .value (.object (.dim (.vectors ⟨x, y, z⟩))) := by
  unfold dimVectors
  rw [three_reads pos_reads]
  simp only [satisfied_one, hasVolume, asMatrix, asThree, asRow, ok_bind', ok_pure', ok_map', Except.ok.injEq, decide_eq_true_eq]
  constructor
  · rintro ⟨a, b, c, x, y, z, rfl, h1, h2, h3, h4, h⟩
    exact ⟨a, b, c, x, y, z, rfl, h1, h2, h3, h4, h.symm⟩
  · rintro ⟨a, b, c, x, y, z, rfl, h1, h2, h3, h4, rfl⟩
    exact ⟨a, b, c, x, y, z, rfl, h1, h2, h3, h4, rfl⟩

theorem dim_reads : Interprets cellDim.toMatcher IsDim (fun d => .object (.dim d)) := by
  intro n v
  have hs : Sound (V := V) (F := ℝ) cellDim := ⟨⟨sound_float, sound_array⟩, sound_array⟩
  unfold cellDim at hs ⊢
  rw [(C79_first_partial hs).1]
  simp only [options, List.cons_append, List.nil_append]
  have hd : dimNumber.run n = .matched v ↔ ∃ x, IsPositive n x ∧ v = .value (.object (.dim (.number x))) := by
    unfold dimNumber
    rw [float_run]
    simp only [satisfied_one, isPositive, Except.ok.injEq, decide_eq_true_eq, IsPositive, gt_iff_lt, and_assoc]
    simp only [eq_comm]
  rw [first_cons (by simp), first_cons (by simp), first_cons (by simp), hd, lengths_run, vectors_run]
  constructor
  · rintro (⟨x, h, rfl⟩ | ⟨-, ⟨a, b, c, x, y, z, rfl, h1, h2, h3, rfl⟩ | ⟨-, ⟨a, b, c, x, y, z, rfl, h1, h2, h3, h4, rfl⟩ | ⟨-, ⟨p, m, s, h, -⟩⟩⟩⟩)
    · exact ⟨_, .number h, rfl⟩
    · exact ⟨_, .lengths h1 h2 h3, rfl⟩
    · exact ⟨_, .vectors h1 h2 h3 h4, rfl⟩
    · simp at h
  · rintro ⟨g, h, rfl⟩
    cases h with
    | number h => exact .inl ⟨_, h, rfl⟩
    | lengths h1 h2 h3 => exact .inr ⟨⟨_, rfl⟩, .inl ⟨_, _, _, _, _, _, rfl, h1, h2, h3, rfl⟩⟩
    | vectors h1 h2 h3 h4 =>
      refine .inr ⟨⟨_, rfl⟩, .inr ⟨?_, .inl ⟨_, _, _, _, _, _, rfl, h1, h2, h3, h4, rfl⟩⟩⟩
      obtain ⟨a, b, c, rfl, -⟩ := h1
      exact ⟨_, rfl⟩

end Rampack.ArrangeExpr
