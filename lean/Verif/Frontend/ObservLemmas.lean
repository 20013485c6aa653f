import Verif.Frontend.ObservSpec
import Verif.Frontend.InputMoves
/-
What the matchers of parts of observables read.
-/
namespace Rampack.Observ

open Pyon Pyon.Spec Rampack.Input Rampack.Input.Spec Rampack.Observ.Spec

variable {conv : ℚ → Option ℝ}

/-- Evaluation of conversions and filters on known arguments. -/
macro "eval_obs" : tactic => `(tactic| simp only [ClassMatcher.mapTo, pairs, get_cons, String.reduceEq, if_true, if_false, reduceIte, ok_bind', ok_map',
  ok_pure', asText, asFlag, asReal, asSize, asAxis, asFunction, asPairFn, asTracker, asBinning, asNorm, asWavenumbers, asRanks, asInt, asHkl, asAxisIndex,
  asRange, asScoped, satisfied_one, Except.ok.injEq])

/-! ### Default values -/

section

variable (hconv : Rampack.Spec.RoundsIntegers conv)

include hconv

theorem parse_false : Pyon.parse conv "False".toList = .ok (.boolean false) :=
  C45_canonical (lit := fun _ => []) (v := .boolean false) hconv .boolean

theorem parse_center : Pyon.parse conv "\"o\"".toList = .ok (.string "o".toList) :=
  C45_canonical (lit := fun _ => []) (v := .string "o".toList) hconv .string

theorem parse_unit : Pyon.parse conv "\"unit\"".toList = .ok (.string "unit".toList) :=
  C45_canonical (lit := fun _ => []) (v := .string "unit".toList) hconv .string

theorem parse_avg : Pyon.parse conv "\"avg_count\"".toList = .ok (.string "avg_count".toList) :=
  C45_canonical (lit := fun _ => []) (v := .string "avg_count".toList) hconv .string

theorem parse_xyz : Pyon.parse conv "\"xyz\"".toList = .ok (.string "xyz".toList) :=
  C45_canonical (lit := fun _ => []) (v := .string "xyz".toList) hconv .string

theorem parse_const : Pyon.parse conv "const".toList = .ok (.dataclass "const".toList [] []) :=
  C45_parses_partial hconv ⟨[], "const".toList, [], .nil, .name ⟨'c', "onst".toList, rfl, by unfold Rampack.Spec.Letter; decide⟩ (by unfold Rampack.Spec.Reserved; decide), .inl .nil, by simp⟩

end

/-! ### Keywords -/

theorem keyword_run {name : String} {x : Object} {n : Node ℝ} {v : Any ℝ V} :
    (keyword name x).run n = .matched v ↔ n = .string name.toList ∧ v = .value (.object x) := by
  unfold keyword
  rw [string_run]
  simp only [satisfied_one, Except.ok.injEq, decide_eq_true_eq]
  constructor
  · rintro ⟨s, rfl, rfl, rfl⟩
    exact ⟨rfl, rfl⟩
  · rintro ⟨rfl, rfl⟩
    exact ⟨_, rfl, rfl, rfl⟩

theorem keyword_fails {name : String} {x : Object} (n : Node ℝ) (h : ¬ n = .string name.toList) : Fails n (keyword name x) := by
  cases n with
  | string s =>
    refine ⟨.condition, ?_⟩
    have : ¬ s = name.toList := fun e => h (by rw [e])
    simp only [keyword, matcherString, finish, checkFilters, decide_eq_false this]
    rfl
  | _ => exact ⟨_, rfl⟩

theorem none_fails {g : Except String (Any ℝ V)} (n : Node ℝ) (h : ¬ n = .none) : Fails n (matcherNone g) := by
  cases n <;> first | exact ⟨_, rfl⟩ | exact absurd rfl h

theorem shapeAxis_reads : Interprets shapeAxis.toMatcher IsShapeAxis (fun a => .object (.axis a)) := by
  intro n v
  unfold shapeAxis
  have hs : Sound (V := V) (F := ℝ) shapeAxis := ⟨⟨sound_string, sound_string⟩, sound_string⟩
  unfold shapeAxis at hs
  rw [(C79_first_partial hs).1, first_apart (ts := [(· = .string "primary".toList), (· = .string "secondary".toList), (· = .string "auxiliary".toList)])
    (by exact .cons keyword_fails (.cons keyword_fails (.cons keyword_fails .nil)))
    (by
      simp only [List.pairwise_cons, List.mem_cons, List.not_mem_nil, or_false, forall_eq_or_imp, forall_eq, false_imp_iff, implies_true, List.Pairwise.nil, and_true]
      exact ⟨⟨apart (by decide) _ rfl, apart (by decide) _ rfl⟩, apart (by decide) _ rfl⟩)]
  simp only [options, List.cons_append, List.nil_append, List.mem_cons, List.not_mem_nil, or_false, exists_eq_or_imp, exists_eq_left, keyword_run]
  constructor
  · rintro (⟨rfl, rfl⟩ | ⟨rfl, rfl⟩ | ⟨rfl, rfl⟩)
    · exact ⟨_, .primary, rfl⟩
    · exact ⟨_, .secondary, rfl⟩
    · exact ⟨_, .auxiliary, rfl⟩
  · rintro ⟨x, (_ | _ | _), rfl⟩
    · exact .inl ⟨rfl, rfl⟩
    · exact .inr (.inl ⟨rfl, rfl⟩)
    · exact .inr (.inr ⟨rfl, rfl⟩)

theorem densityNorm_reads : Interprets densityNorm.toMatcher IsDensityNorm (fun a => .object (.norm a)) := by
  intro n v
  have hs : Sound (V := V) (F := ℝ) densityNorm := ⟨sound_string, sound_string⟩
  unfold densityNorm at hs ⊢
  rw [(C79_first_partial hs).1, first_apart (ts := [(· = .string "avg_count".toList), (· = .string "unit".toList)])
    (by exact .cons keyword_fails (.cons keyword_fails .nil))
    (by
      simp only [List.pairwise_cons, List.mem_cons, List.not_mem_nil, or_false, forall_eq, false_imp_iff, implies_true, List.Pairwise.nil, and_true]
      exact apart (by decide) _ rfl)]
  simp only [options, List.cons_append, List.nil_append, List.mem_cons, List.not_mem_nil, or_false, exists_eq_or_imp, exists_eq_left, keyword_run]
  constructor
  · rintro (⟨rfl, rfl⟩ | ⟨rfl, rfl⟩)
    · exact ⟨_, .avgCount, rfl⟩
    · exact ⟨_, .unit, rfl⟩
  · rintro ⟨x, (_ | _), rfl⟩
    · exact .inl ⟨rfl, rfl⟩
    · exact .inr ⟨rfl, rfl⟩

theorem evolutionNorm_reads : Interprets evolutionNorm.toMatcher IsEvolutionNorm (fun a => .object (.norm a)) := by
  intro n v
  have hs : Sound (V := V) (F := ℝ) evolutionNorm := ⟨⟨⟨sound_none, sound_string⟩, sound_string⟩, sound_string⟩
  unfold evolutionNorm at hs ⊢
  rw [(C79_first_partial hs).1, first_apart (ts := [(· = .none), (· = .string "avg_count".toList), (· = .string "pdf".toList), (· = .string "unit".toList)])
    (by exact .cons none_fails (.cons keyword_fails (.cons keyword_fails (.cons keyword_fails .nil))))
    (by
      simp only [List.pairwise_cons, List.mem_cons, List.not_mem_nil, or_false, forall_eq_or_imp, forall_eq, false_imp_iff, implies_true, List.Pairwise.nil, and_true]
      exact ⟨⟨by simp, by simp, by simp⟩, ⟨apart (by decide) _ rfl, apart (by decide) _ rfl⟩, apart (by decide) _ rfl⟩)]
  simp only [options, List.cons_append, List.nil_append, List.mem_cons, List.not_mem_nil, or_false, exists_eq_or_imp, exists_eq_left, keyword_run, none_run,
    Except.ok.injEq]
  constructor
  · rintro (⟨rfl, rfl⟩ | ⟨rfl, rfl⟩ | ⟨rfl, rfl⟩ | ⟨rfl, rfl⟩)
    · exact ⟨_, .none, rfl⟩
    · exact ⟨_, .avgCount, rfl⟩
    · exact ⟨_, .pdf, rfl⟩
    · exact ⟨_, .unit, rfl⟩
  · rintro ⟨x, (_ | _ | _ | _), rfl⟩
    · exact .inl ⟨rfl, rfl⟩
    · exact .inr (.inl ⟨rfl, rfl⟩)
    · exact .inr (.inr (.inl ⟨rfl, rfl⟩))
    · exact .inr (.inr (.inr ⟨rfl, rfl⟩))

/-! ### Literals -/

theorem point_reads : Interprets namedPoint IsText .text := fun _ _ => text_run

theorem atLeast_run {k : Nat} {g : Nat → V} {n : Node ℝ} {v : Any ℝ V} :
    (matcherInt [intAtLeast k] (fun i => .ok (.value (g (toSize i))))).run n = .matched v ↔ ∃ j : Nat, (n = .int j ∧ k ≤ j) ∧ v = .value (g j) := by
  rw [int_run]
  simp only [satisfied_one, intAtLeast, Except.ok.injEq, decide_eq_true_eq]
  constructor
  · rintro ⟨i, rfl, hi, rfl⟩
    have := toSize_of_nonneg (i := i) (by omega)
    exact ⟨toSize i, ⟨by rw [this], by omega⟩, rfl⟩
  · rintro ⟨j, ⟨rfl, hk⟩, rfl⟩
    refine ⟨j, rfl, by omega, ?_⟩
    have := toSize_of_nonneg (i := (j : Int)) (by omega)
    rw [show toSize (j : Int) = j by omega]

theorem bins_reads : Interprets bins IsBins .size := fun _ _ => atLeast_run (k := 2) (g := .size)

theorem maybeBins_reads : Interprets maybeBins.toMatcher IsMaybeBins .size := by
  intro n v
  unfold maybeBins
  refine Iff.trans (alternative_reads (heads := [.number, .none]) (by exact ⟨sound_int, sound_none⟩) (by exact .cons takes_int (.cons takes_none .nil)) (by simp)) ?_
  simp only [options, List.cons_append, List.nil_append, List.mem_cons, List.not_mem_nil, or_false, exists_eq_or_imp, exists_eq_left, bins_reads n v, none_run,
    Except.ok.injEq]
  constructor
  · rintro (⟨x, h1, rfl⟩ | ⟨rfl, rfl⟩)
    · exact ⟨x, .some h1, rfl⟩
    · exact ⟨1, .none, rfl⟩
  · rintro ⟨m, _ | h, rfl⟩
    · exact .inr ⟨rfl, rfl⟩
    · exact .inl ⟨m, h, rfl⟩

theorem mapM_sizes {l : List Nat} : (l.map fun x => (Any.value (.size x) : Any ℝ V)).mapM asSize = .ok l := by
  induction l with
  | nil => rfl
  | cons x l ih => rw [List.map_cons, List.mapM_cons, ih]; rfl

theorem mapM_ints {l : List Int} : (l.map fun x => (Any.value (.object (.int x)) : Any ℝ V)).mapM asInt = .ok l := by
  induction l with
  | nil => rfl
  | cons x l ih => rw [List.map_cons, List.mapM_cons, ih]; rfl

theorem satisfied_two {β : Type} {f g : β → Except String Bool} {a : β} : Satisfied [f, g] a ↔ f a = .ok true ∧ g a = .ok true := by simp [Satisfied]

theorem wavenumbers_reads : Interprets positiveWavenumbers IsWavenumbers (fun l => .object (.wavenumbers l)) := by
  refine (vector_reads size_reads (as := asSize) (fun x => rfl) (filters := [arraySize 3, anyPositive]) (P := fun l => l.length = 3 ∧ ∃ k ∈ l, k ≠ 0) ?_
    (w := fun l => .object (.wavenumbers l)))
  intro l
  rw [satisfied_two]
  simp only [arraySize, anyPositive, mapM_sizes, ok_map', List.length_map, Except.ok.injEq, decide_eq_true_eq, List.any_eq_true, gt_iff_lt, Nat.pos_iff_ne_zero]

theorem int32_reads : Interprets (matcherInt [] (fun i => .ok (.value (.object (.int (toInt i)))))) IsInt32 (fun i => (.object (.int i) : V)) := by
  intro n v
  rw [int_run]
  constructor
  · rintro ⟨i, rfl, -, h⟩
    cases h
    exact ⟨_, ⟨i, rfl, rfl⟩, rfl⟩
  · rintro ⟨j, ⟨i, rfl, rfl⟩, rfl⟩
    exact ⟨i, rfl, by simp [Satisfied], rfl⟩

theorem hkl_reads : Interprets nonzeroWavenumbers IsHkl (fun l => .object (.hkl l)) := by
  refine (vector_reads int32_reads (as := asInt) (fun x => rfl) (filters := [arraySize 3, anyNonzero]) (P := fun l => l.length = 3 ∧ ∃ k ∈ l, k ≠ 0) ?_
    (w := fun l => .object (.hkl l)))
  intro l
  rw [satisfied_two]
  simp only [arraySize, anyNonzero, mapM_ints, ok_map', List.length_map, Except.ok.injEq, decide_eq_true_eq, List.any_eq_true, bne_iff_ne]

theorem ranks_reads : Interprets ranks.toMatcher IsRanks (fun l => .object (.ranks l)) := by
  intro n v
  unfold ranks
  have hr : Interprets (X := Object) (size [intAtLeast 3]) IsRank .size := fun _ _ => atLeast_run (k := 3) (g := .size)
  have hv := vector_reads hr (as := asSize) (fun x => rfl) (filters := [arrayNonEmpty]) (P := fun l => l ≠ [])
    (by intro l; simp [satisfied_one, arrayNonEmpty]) (w := fun l => .object (.ranks l))
  refine Iff.trans (alternative_reads (heads := [.number, .array]) (by exact ⟨sound_int, sound_array⟩) (by exact .cons takes_int (.cons takes_array .nil)) (by simp)) ?_
  have h1 := atLeast_run (k := 3) (g := fun k => .object (.ranks [k])) (n := n) (v := v)
  simp only [options, List.cons_append, List.nil_append, List.mem_cons, List.not_mem_nil, or_false, exists_eq_or_imp, exists_eq_left, hv n v]
  constructor
  · rintro (h | ⟨l, ⟨g1, g2⟩, rfl⟩)
    · obtain ⟨k, g, rfl⟩ := h1.mp h
      exact ⟨[k], .single g, rfl⟩
    · exact ⟨l, .all g1 g2, rfl⟩
  · rintro ⟨l, (g | ⟨g1, g2⟩), rfl⟩
    · exact .inl (h1.mpr ⟨_, g, rfl⟩)
    · exact .inr ⟨l, ⟨g1, g2⟩, rfl⟩

theorem maxHkl_reads : Interprets maxHkl.toMatcher IsMaxHkl (fun l => .object (.wavenumbers l)) := by
  intro n v
  unfold maxHkl
  refine Iff.trans (alternative_reads (heads := [.number, .array]) (by exact ⟨sound_int, sound_array⟩) (by exact .cons takes_int (.cons takes_array .nil)) (by simp)) ?_
  have h1 := count_run (X := Object) (g := fun k => .object (.wavenumbers [k, k, k])) (n := n) (v := v)
  simp only [options, List.cons_append, List.nil_append, List.mem_cons, List.not_mem_nil, or_false, exists_eq_or_imp, exists_eq_left, wavenumbers_reads n v]
  constructor
  · rintro (h | ⟨l, g1, rfl⟩)
    · obtain ⟨k, g, rfl⟩ := h1.mp h
      exact ⟨_, .single g, rfl⟩
    · exact ⟨l, .all g1, rfl⟩
  · rintro ⟨l, (g | g), rfl⟩
    · exact .inl (h1.mpr ⟨_, g, rfl⟩)
    · exact .inr ⟨l, g, rfl⟩

theorem range_reads : Interprets functionRange (fun n (r : ℝ × ℝ) => IsRange n r.1 r.2) (fun r => .object (.range r.1 r.2)) := by
  intro n v
  unfold functionRange
  change (ArrayMatcher.run _ n) = _ ↔ _
  rw [C78_array]
  constructor
  · rintro ⟨ns, vs, rfl, ⟨h1, h2⟩, h3⟩
    obtain ⟨hs, hi⟩ := satisfied_two.mp h2
    simp only [arraySize, Except.ok.injEq, decide_eq_true_eq] at hs
    obtain ⟨x, y, rfl⟩ := List.length_eq_two.mp hs
    cases h1 with
    | cons ha h1 =>
      cases h1 with
      | cons hb h1 =>
        cases h1 with
        | nil =>
          obtain ⟨p, hp, rfl⟩ := (float_reads _ _).mp ha
          obtain ⟨q, hq, rfl⟩ := (float_reads _ _).mp hb
          simp only [increasing, asReal, ok_bind', ok_pure', Except.ok.injEq, decide_eq_true_eq] at hi
          simp only [makeRange, asReal, ok_bind', ok_pure', Except.ok.injEq] at h3
          exact ⟨(p, q), ⟨_, _, rfl, hp, hq, hi⟩, h3.symm⟩
  · rintro ⟨⟨p, q⟩, ⟨a, b, rfl, hp, hq, hi⟩, rfl⟩
    refine ⟨[a, b], [.value (.real p), .value (.real q)], rfl, ⟨.cons ((float_reads _ _).mpr ⟨p, hp, rfl⟩) (.cons ((float_reads _ _).mpr ⟨q, hq, rfl⟩) .nil),
      satisfied_two.mpr ⟨rfl, ?_⟩⟩, rfl⟩
    have hi : p < q := hi
    simp only [increasing, asReal, ok_bind', ok_pure', decide_eq_true hi]

theorem comp_reads : Interprets axisComp (fun n s => n = .string s ∧ (s = "x".toList ∨ s = "y".toList ∨ s = "z".toList ∨ s = "xyz".toList)) .text := by
  intro n v
  unfold axisComp
  rw [string_run]
  simp only [satisfied_one, Except.ok.injEq, List.any_cons, List.any_nil, Bool.or_false, Bool.or_eq_true, decide_eq_true_eq]
  constructor
  · rintro ⟨s, h1, h2, h3⟩
    exact ⟨s, ⟨h1, h2⟩, h3.symm⟩
  · rintro ⟨s, ⟨h1, h2⟩, h3⟩
    exact ⟨s, h1, h2, h3.symm⟩

theorem linearAxis_reads : Interprets linearAxis IsBoxAxis (fun k => .object (.direction k)) := by
  intro n v
  unfold linearAxis
  rw [string_run]
  simp only [satisfied_one, Except.ok.injEq, List.any_cons, List.any_nil, Bool.or_false, Bool.or_eq_true, decide_eq_true_eq]
  have e1 : letterIndex "x".toList = .ok (.value (.object (.direction 0))) := rfl
  have e2 : letterIndex "y".toList = .ok (.value (.object (.direction 1))) := rfl
  have e3 : letterIndex "z".toList = .ok (.value (.object (.direction 2))) := rfl
  constructor
  · rintro ⟨s, rfl, (rfl | rfl | rfl), h3⟩
    · rw [e1] at h3; cases h3; exact ⟨_, .x, rfl⟩
    · rw [e2] at h3; cases h3; exact ⟨_, .y, rfl⟩
    · rw [e3] at h3; cases h3; exact ⟨_, .z, rfl⟩
  · rintro ⟨s, (_ | _ | _), rfl⟩
    · exact ⟨_, rfl, .inl rfl, e1⟩
    · exact ⟨_, rfl, .inr (.inl rfl), e2⟩
    · exact ⟨_, rfl, .inr (.inr rfl), e3⟩

/-! ### Functions -/

theorem constFn_reads (hconv : Rampack.Spec.RoundsIntegers conv) : ∃ c, createConst conv = .ok c ∧ c.name = "const".toList ∧
    Interprets c.toMatcher (fun n f => ∃ a x, Call n "const" [("value", some (.int 1))] [a] ∧ IsNumber a x ∧ f = .const x) (fun f => .object (.function f)) := by
  have h1 : float.run (.int 1) = .matched (.value (.real ((1 : Int) : ℝ)) : Any ℝ V) := (float_reads _ _).mpr ⟨_, .inr ⟨1, rfl, rfl⟩, rfl⟩
  refine ⟨_, by rw [createConst, optional_ok (parse_1 hconv) h1]; rfl, rfl, fun n v => ?_⟩
  rw [class_run (.optional h1 .nil) rfl (by decide) rfl rfl]
  simp only [exists_read float_reads, exists_unread]
  eval_obs
  constructor
  · rintro ⟨a, x, g1, g2, -, rfl⟩
    exact ⟨_, ⟨a, x, g2, g1, rfl⟩, rfl⟩
  · rintro ⟨s, ⟨a, x, g2, g1, rfl⟩, rfl⟩
    exact ⟨a, x, g1, g2, by simp [Satisfied], rfl⟩

theorem axisFn_reads (hconv : Rampack.Spec.RoundsIntegers conv) : ∃ c, createAxis conv = .ok c ∧ c.name = "axis".toList ∧
    Interprets c.toMatcher (fun n f => ∃ a b w, Call n "axis" [("which", none), ("comp", some (.string "xyz".toList))] [a, b] ∧ IsShapeAxis a w ∧ IsComponent w b f)
      (fun f => .object (.function f)) := by
  have h1 : axisComp.run (.string "xyz".toList) = .matched (.value (.text "xyz".toList) : Any ℝ V) := (comp_reads _ _).mpr ⟨_, ⟨rfl, by simp⟩, rfl⟩
  refine ⟨_, by rw [createAxis, optional_ok (parse_xyz hconv) h1]; rfl, rfl, fun n v => ?_⟩
  rw [class_run (.required (.optional h1 .nil)) rfl (by decide) rfl rfl]
  simp only [exists_read shapeAxis_reads, exists_read comp_reads, exists_unread]
  eval_obs
  have e1 : ∀ w, makeAxis w "x".toList = .ok (.coordinate w 0) := fun w => rfl
  have e2 : ∀ w, makeAxis w "y".toList = .ok (.coordinate w 1) := fun w => rfl
  have e3 : ∀ w, makeAxis w "z".toList = .ok (.coordinate w 2) := fun w => rfl
  have e4 : ∀ w, makeAxis w "xyz".toList = .ok (.axis w) := fun w => rfl
  constructor
  · rintro ⟨a, w, g1, b, s, ⟨rfl, g2⟩, g3, -, g4⟩
    rcases g2 with rfl | rfl | rfl | rfl
    · rw [e1] at g4; cases g4; exact ⟨_, ⟨a, _, w, g3, g1, .x⟩, rfl⟩
    · rw [e2] at g4; cases g4; exact ⟨_, ⟨a, _, w, g3, g1, .y⟩, rfl⟩
    · rw [e3] at g4; cases g4; exact ⟨_, ⟨a, _, w, g3, g1, .z⟩, rfl⟩
    · rw [e4] at g4; cases g4; exact ⟨_, ⟨a, _, w, g3, g1, .xyz⟩, rfl⟩
  · rintro ⟨f, ⟨a, b, w, g3, g1, g2⟩, rfl⟩
    cases g2 with
    | x => exact ⟨a, w, g1, _, _, ⟨rfl, by simp⟩, g3, by simp [Satisfied], by rw [e1]; rfl⟩
    | y => exact ⟨a, w, g1, _, _, ⟨rfl, by simp⟩, g3, by simp [Satisfied], by rw [e2]; rfl⟩
    | z => exact ⟨a, w, g1, _, _, ⟨rfl, by simp⟩, g3, by simp [Satisfied], by rw [e3]; rfl⟩
    | xyz => exact ⟨a, w, g1, _, _, ⟨rfl, by simp⟩, g3, by simp [Satisfied], by rw [e4]; rfl⟩

theorem qTensor_reads : ∃ c, createQTensor = .ok c ∧ c.name = "q_tensor".toList ∧
    Interprets c.toMatcher (fun n f => ∃ a w, Call n "q_tensor" [("axis", none)] [a] ∧ IsShapeAxis a w ∧ f = .qTensor w) (fun f => .object (.function f)) := by
  refine ⟨_, rfl, rfl, fun n v => ?_⟩
  rw [class_run (.required .nil) rfl (by decide) rfl rfl]
  simp only [exists_read shapeAxis_reads, exists_unread]
  eval_obs
  constructor
  · rintro ⟨a, x, g1, g2, -, rfl⟩
    exact ⟨_, ⟨a, x, g2, g1, rfl⟩, rfl⟩
  · rintro ⟨s, ⟨a, x, g2, g1, rfl⟩, rfl⟩
    exact ⟨a, x, g1, g2, by simp [Satisfied], rfl⟩

theorem function_reads (hconv : Rampack.Spec.RoundsIntegers conv) : ∃ c, createShapeFunction conv = .ok c ∧
    Interprets c.toMatcher IsFunction (fun f => .object (.function f)) := by
  obtain ⟨c1, e1, n1, r1⟩ := constFn_reads hconv
  obtain ⟨c2, e2, n2, r2⟩ := axisFn_reads hconv
  obtain ⟨c3, e3, n3, r3⟩ := qTensor_reads
  refine ⟨_, by rw [createShapeFunction, e1, e2, e3]; rfl, fun n v => ?_⟩
  refine Iff.trans (alternative_reads (heads := ["const", "axis", "q_tensor"].map fun s => Head.named s.toList) (by exact ⟨⟨trivial, trivial⟩, trivial⟩)
    (by exact .cons (takes_class n1) (.cons (takes_class n2) (.cons (takes_class n3) .nil))) (heads_nodup (by decide))) ?_
  simp only [options, List.cons_append, List.nil_append, List.mem_cons, List.not_mem_nil, or_false, exists_eq_or_imp, exists_eq_left, r1 n v, r2 n v, r3 n v]
  constructor
  · rintro (⟨s, ⟨a, x, h1, h2, rfl⟩, rfl⟩ | ⟨s, ⟨a, b, w, h1, h2, h3⟩, rfl⟩ | ⟨s, ⟨a, x, h1, h2, rfl⟩, rfl⟩)
    · exact ⟨_, .const h1 h2, rfl⟩
    · exact ⟨_, .axis h1 h2 h3, rfl⟩
    · exact ⟨_, .qTensor h1 h2, rfl⟩
  · rintro ⟨s, (⟨h1, h2⟩ | ⟨h1, h2, h3⟩ | ⟨h1, h2⟩), rfl⟩
    · exact .inl ⟨_, ⟨_, _, h1, h2, rfl⟩, rfl⟩
    · exact .inr (.inl ⟨_, ⟨_, _, _, h1, h2, h3⟩, rfl⟩)
    · exact .inr (.inr ⟨_, ⟨_, _, h1, h2, rfl⟩, rfl⟩)

theorem pairFnClass_reads (name : String) (hname : name.toList ≠ []) (make : ShapeAxis → PairFn) : ∃ c, createPairFn name make = .ok c ∧ c.name = name.toList ∧
    Interprets c.toMatcher (fun n f => ∃ a w, Call n name [("axis", none)] [a] ∧ IsShapeAxis a w ∧ f = make w) (fun f => .object (.pairFn f)) := by
  refine ⟨_, by rw [createPairFn, createClass, if_neg hname]; rfl, rfl, fun n v => ?_⟩
  rw [class_run (.required .nil) rfl (by decide) rfl rfl]
  simp only [exists_read shapeAxis_reads, exists_unread]
  eval_obs
  constructor
  · rintro ⟨a, x, g1, g2, -, rfl⟩
    exact ⟨_, ⟨a, x, g2, g1, rfl⟩, rfl⟩
  · rintro ⟨s, ⟨a, x, g2, g1, rfl⟩, rfl⟩
    exact ⟨a, x, g1, g2, by simp [Satisfied], rfl⟩

theorem pairFn_reads : ∃ c, createCorrelationFunction = .ok c ∧ Interprets c.toMatcher IsPairFn (fun f => .object (.pairFn f)) := by
  obtain ⟨c1, e1, n1, r1⟩ := pairFnClass_reads "s110" (by decide) .s110
  obtain ⟨c2, e2, n2, r2⟩ := pairFnClass_reads "s220" (by decide) .s220
  obtain ⟨c3, e3, n3, r3⟩ := pairFnClass_reads "s221" (by decide) .s221
  obtain ⟨c4, e4, n4, r4⟩ := pairFnClass_reads "axes_angle" (by decide) .axesAngle
  refine ⟨_, by rw [createCorrelationFunction, e1, e2, e3, e4]; rfl, fun n v => ?_⟩
  refine Iff.trans (alternative_reads (heads := ["s110", "s220", "s221", "axes_angle"].map fun s => Head.named s.toList)
    (by exact ⟨⟨⟨trivial, trivial⟩, trivial⟩, trivial⟩)
    (by exact .cons (takes_class n1) (.cons (takes_class n2) (.cons (takes_class n3) (.cons (takes_class n4) .nil)))) (heads_nodup (by decide))) ?_
  simp only [options, List.cons_append, List.nil_append, List.mem_cons, List.not_mem_nil, or_false, exists_eq_or_imp, exists_eq_left, r1 n v, r2 n v, r3 n v, r4 n v]
  constructor
  · rintro (⟨s, ⟨a, x, h1, h2, rfl⟩, rfl⟩ | ⟨s, ⟨a, x, h1, h2, rfl⟩, rfl⟩ | ⟨s, ⟨a, x, h1, h2, rfl⟩, rfl⟩ | ⟨s, ⟨a, x, h1, h2, rfl⟩, rfl⟩)
    · exact ⟨_, .s110 h1 h2, rfl⟩
    · exact ⟨_, .s220 h1 h2, rfl⟩
    · exact ⟨_, .s221 h1 h2, rfl⟩
    · exact ⟨_, .axesAngle h1 h2, rfl⟩
  · rintro ⟨s, (⟨h1, h2⟩ | ⟨h1, h2⟩ | ⟨h1, h2⟩ | ⟨h1, h2⟩), rfl⟩
    · exact .inl ⟨_, ⟨_, _, h1, h2, rfl⟩, rfl⟩
    · exact .inr (.inl ⟨_, ⟨_, _, h1, h2, rfl⟩, rfl⟩)
    · exact .inr (.inr (.inl ⟨_, ⟨_, _, h1, h2, rfl⟩, rfl⟩))
    · exact .inr (.inr (.inr ⟨_, ⟨_, _, h1, h2, rfl⟩, rfl⟩))

/-! ### Binning -/

theorem center_run : namedPoint.run (.string "o".toList) = .matched (.value (.text "o".toList) : Any ℝ V) :=
  (point_reads _ _).mpr ⟨_, ⟨rfl, by decide⟩, rfl⟩

theorem radial_reads (hconv : Rampack.Spec.RoundsIntegers conv) : ∃ c, createRadial conv = .ok c ∧ c.name = "radial".toList ∧
    Interprets c.toMatcher (fun n e => ∃ a p, Call n "radial" [("focal_point", center)] [a] ∧ IsText a p ∧ e = .radial p) (fun e => .object (.binning e)) := by
  refine ⟨_, by rw [createRadial, optional_ok (parse_center hconv) center_run]; rfl, rfl, fun n v => ?_⟩
  rw [class_run (.optional center_run .nil) rfl (by decide) rfl rfl]
  simp only [exists_read point_reads, exists_unread]
  eval_obs
  constructor
  · rintro ⟨a, x, g1, g2, -, rfl⟩
    exact ⟨_, ⟨a, x, g2, g1, rfl⟩, rfl⟩
  · rintro ⟨s, ⟨a, x, g2, g1, rfl⟩, rfl⟩
    exact ⟨a, x, g1, g2, by simp [Satisfied], rfl⟩

theorem any_nonzero {l : List Int} (h : ∃ k ∈ l, k ≠ 0) : (l.any fun i => i != 0) = true := by simpa using h

theorem layerwise_reads (hconv : Rampack.Spec.RoundsIntegers conv) : ∃ c, createLayerwise conv = .ok c ∧ c.name = "layerwise_radial".toList ∧
    Interprets c.toMatcher (fun n e => ∃ a b hkl p, Call n "layerwise_radial" [("hkl", none), ("focal_point", center)] [a, b] ∧ IsHkl a hkl ∧ IsText b p ∧
      e = .layerwise hkl p) (fun e => .object (.binning e)) := by
  have hmk : ∀ {hkl : List Int} {p : Text}, (∃ k ∈ hkl, k ≠ 0) → mkLayerwise hkl p = .ok (.layerwise hkl p) := by
    intro hkl p h
    rw [mkLayerwise, any_nonzero h]
    rfl
  refine ⟨_, by rw [createLayerwise, optional_ok (parse_center hconv) center_run]; rfl, rfl, fun n v => ?_⟩
  rw [class_run (.required (.optional center_run .nil)) rfl (by decide) rfl rfl]
  simp only [exists_read hkl_reads, exists_read point_reads, exists_unread]
  eval_obs
  constructor
  · rintro ⟨a, hkl, g1, b, p, g2, g3, -, g4⟩
    rw [hmk g1.2.2, construct_ok, ok_bind'] at g4
    cases g4
    exact ⟨_, ⟨a, b, hkl, p, g3, g1, g2, rfl⟩, rfl⟩
  · rintro ⟨s, ⟨a, b, hkl, p, g3, g1, g2, rfl⟩, rfl⟩
    refine ⟨a, hkl, g1, b, p, g2, g3, by simp [Satisfied], ?_⟩
    rw [hmk g1.2.2]
    rfl

theorem linearBinning_reads (hconv : Rampack.Spec.RoundsIntegers conv) : ∃ c, createLinear conv = .ok c ∧ c.name = "linear".toList ∧
    Interprets c.toMatcher (fun n e => ∃ a b k p, Call n "linear" [("axis", none), ("focal_point", center)] [a, b] ∧ IsBoxAxis a k ∧ IsText b p ∧
      e = .linear k p) (fun e => .object (.binning e)) := by
  refine ⟨_, by rw [createLinear, optional_ok (parse_center hconv) center_run]; rfl, rfl, fun n v => ?_⟩
  rw [class_run (.required (.optional center_run .nil)) rfl (by decide) rfl rfl]
  simp only [exists_read linearAxis_reads, exists_read point_reads, exists_unread]
  eval_obs
  constructor
  · rintro ⟨a, hkl, g1, b, p, g2, g3, -, rfl⟩
    exact ⟨_, ⟨a, b, hkl, p, g3, g1, g2, rfl⟩, rfl⟩
  · rintro ⟨s, ⟨a, b, hkl, p, g3, g1, g2, rfl⟩, rfl⟩
    exact ⟨a, hkl, g1, b, p, g2, g3, by simp [Satisfied], rfl⟩

theorem binning_reads (hconv : Rampack.Spec.RoundsIntegers conv) : ∃ c, createBinning conv = .ok c ∧
    Interprets c.toMatcher IsBinning (fun e => .object (.binning e)) := by
  obtain ⟨c1, e1, n1, r1⟩ := radial_reads hconv
  obtain ⟨c2, e2, n2, r2⟩ := layerwise_reads hconv
  obtain ⟨c3, e3, n3, r3⟩ := linearBinning_reads hconv
  refine ⟨_, by rw [createBinning, e1, e2, e3]; rfl, fun n v => ?_⟩
  refine Iff.trans (alternative_reads (heads := ["radial", "layerwise_radial", "linear"].map fun s => Head.named s.toList) (by exact ⟨⟨trivial, trivial⟩, trivial⟩)
    (by exact .cons (takes_class n1) (.cons (takes_class n2) (.cons (takes_class n3) .nil))) (heads_nodup (by decide))) ?_
  simp only [options, List.cons_append, List.nil_append, List.mem_cons, List.not_mem_nil, or_false, exists_eq_or_imp, exists_eq_left, r1 n v, r2 n v, r3 n v]
  constructor
  · rintro (⟨s, ⟨a, x, h1, h2, rfl⟩, rfl⟩ | ⟨s, ⟨a, b, w, p, h1, h2, h3, rfl⟩, rfl⟩ | ⟨s, ⟨a, b, w, p, h1, h2, h3, rfl⟩, rfl⟩)
    · exact ⟨_, .radial h1 h2, rfl⟩
    · exact ⟨_, .layerwise h1 h2 h3, rfl⟩
    · exact ⟨_, .linear h1 h2 h3, rfl⟩
  · rintro ⟨s, (⟨h1, h2⟩ | ⟨h1, h2, h3⟩ | ⟨h1, h2, h3⟩), rfl⟩
    · exact .inl ⟨_, ⟨_, _, h1, h2, rfl⟩, rfl⟩
    · exact .inr (.inl ⟨_, ⟨_, _, _, _, h1, h2, h3, rfl⟩, rfl⟩)
    · exact .inr (.inr ⟨_, ⟨_, _, _, _, h1, h2, h3, rfl⟩, rfl⟩)

/-! ### Trackers -/

theorem single_iff {f : ShapeFn} : (f.values == 1) = true ↔ SingleValued f := by
  cases f <;> simp [ShapeFn.values, SingleValued]

theorem checkFourier_eq {w : List Nat} {f : ShapeFn} (hw : ∃ k ∈ w, k ≠ 0) (hf : SingleValued f) : checkFourier w f = .ok () := by
  have h1 : (w.any fun w => decide (w > 0)) = true := by simpa [Nat.pos_iff_ne_zero] using hw
  rw [checkFourier, h1, single_iff.mpr hf]
  rfl

theorem fourier_run (hconv : Rampack.Spec.RoundsIntegers conv) {make : List Nat × ShapeFn → V} : ∃ c, createRawFourier conv = .ok c ∧ c.name = "fourier_tracker".toList ∧
    Interprets (ClassMatcher.mapTo c fun d => do let p ← makeFourier d; return make p).toMatcher (fun n p => IsFourier n p.1 p.2) make := by
  obtain ⟨cf, ef, rf⟩ := function_reads hconv
  refine ⟨_, by rw [createRawFourier, ef]; rfl, rfl, fun n v => ?_⟩
  rw [class_run (.required (.required .nil)) rfl (by decide) rfl rfl]
  simp only [exists_read wavenumbers_reads, exists_read rf, exists_unread]
  simp only [ClassMatcher.mapTo, satisfied_one, singleValue, makeFourier]
  eval_obs
  constructor
  · rintro ⟨a, w, g1, b, f, g2, g3, g4, g5⟩
    rw [single_iff] at g4
    rw [checkFourier_eq g1.2.2 g4, construct_ok] at g5
    cases g5
    exact ⟨(w, f), ⟨a, b, g3, g1, g2, g4⟩, rfl⟩
  · rintro ⟨⟨w, f⟩, ⟨a, b, g3, g1, g2, g4⟩, rfl⟩
    refine ⟨a, w, g1, b, f, g2, g3, single_iff.mpr g4, ?_⟩
    rw [checkFourier_eq g1.2.2 g4]
    rfl

theorem tracker_reads (hconv : Rampack.Spec.RoundsIntegers conv) : ∃ c, createTracker conv = .ok c ∧
    Interprets c.toMatcher IsTracker (fun t => .object (.tracker t)) := by
  obtain ⟨c, e, hn, hr⟩ := fourier_run hconv (make := fun p => .object (.tracker (.fourier p.1 p.2)))
  refine ⟨_, by rw [createTracker, createFourierTracker, e]; rfl, fun n v => ?_⟩
  refine Iff.trans (alternative_reads (heads := [.none, .named "fourier_tracker".toList]) (by exact ⟨sound_none, trivial⟩)
    (by exact .cons takes_none (.cons (takes_class hn) .nil)) (by simp)) ?_
  simp only [options, List.cons_append, List.nil_append, List.mem_cons, List.not_mem_nil, or_false, exists_eq_or_imp, exists_eq_left, none_run, hr n v, Except.ok.injEq]
  constructor
  · rintro (⟨rfl, rfl⟩ | ⟨⟨w, f⟩, h, rfl⟩)
    · exact ⟨_, .none, rfl⟩
    · exact ⟨_, .fourier h, rfl⟩
  · rintro ⟨t, (_ | h), rfl⟩
    · exact .inl ⟨rfl, rfl⟩
    · exact .inr ⟨(_, _), h, rfl⟩

end Rampack.Observ
