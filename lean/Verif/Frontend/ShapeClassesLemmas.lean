import Verif.Frontend.ShapeClassesSpec
import Verif.Frontend.ShapeExprProps
import Verif.Frontend.InputMoves
import Verif.Shapes.AxesProps
import Verif.Shapes.CompositeProps3
import Verif.Shapes.BananaRodProps
import Verif.Shapes.WedgeProps2
/-
What the matchers of shapes read.
-/
namespace Rampack.ShapeExpr

open Pyon Pyon.Spec Rampack.Input Rampack.Input.Spec Rampack.ShapeExpr.Spec Rampack.Shapes

variable {conv : ℚ → Option ℝ}

/-! ### Literals -/

theorem parse_hard (hconv : Rampack.Spec.RoundsIntegers conv) : Pyon.parse conv "hard".toList = .ok (.dataclass "hard".toList [] []) :=
  C45_parses_partial hconv ⟨[], "hard".toList, [], .nil, .name ⟨'h', "ard".toList, rfl, by unfold Rampack.Spec.Letter; decide⟩ (by unfold Rampack.Spec.Reserved; decide), .inl .nil, by simp⟩

theorem parse_braces (hconv : Rampack.Spec.RoundsIntegers conv) : Pyon.parse conv "{}".toList = .ok (.dictionary []) :=
  C45_canonical (lit := fun _ => []) (v := .dictionary []) hconv (.dictionary (by simp) (by simp))

theorem nonNegative_reads : Interprets nonNegativeFloat IsNonNegative .real := by
  intro n v
  unfold nonNegativeFloat
  rw [float_run]
  simp only [satisfied_one, isNonNegative, Except.ok.injEq, decide_eq_true_eq, IsNonNegative, ge_iff_le]
  simp only [eq_comm, and_assoc]

theorem angle_reads (b : ℝ) : Interprets (angle b) (fun n x => IsNumber n x ∧ 0 ≤ x ∧ x < b) .real := by
  intro n v
  unfold angle
  rw [float_run]
  simp only [satisfied_two, isNonNegative, isBelow, Except.ok.injEq, decide_eq_true_eq, ge_iff_le]
  simp only [eq_comm, and_assoc]

theorem many_sizes : Interprets atLeastTwo IsMany .size := by
  intro n v
  unfold atLeastTwo size
  rw [int_run]
  simp only [satisfied_one, Observ.intAtLeast, Except.ok.injEq, decide_eq_true_eq, IsMany]
  constructor
  · rintro ⟨i, rfl, hi, rfl⟩
    have := toSize_of_nonneg (i := i) (by omega)
    exact ⟨toSize i, ⟨by rw [this], by omega⟩, rfl⟩
  · rintro ⟨k, ⟨rfl, hk⟩, rfl⟩
    refine ⟨k, rfl, by omega, ?_⟩
    have := toSize_of_nonneg (i := (k : Int)) (by omega)
    rw [show toSize (k : Int) = k by omega]

/-! ### Interactions -/

theorem hard_reads : ∃ c, createHard = .ok c ∧ c.name = "hard".toList ∧
    Interprets c.toMatcher (fun n i => Call n "hard" [] [] ∧ i = Interaction.hard) (fun i => .object (.interaction i)) := by
  refine ⟨_, rfl, rfl, fun n v => ?_⟩
  rw [class_run .nil rfl (by decide) rfl rfl]
  simp only [exists_unread]
  eval_shape
  constructor
  · rintro ⟨g, -, h⟩
    cases h
    exact ⟨_, ⟨g, rfl⟩, rfl⟩
  · rintro ⟨_, ⟨g, rfl⟩, rfl⟩
    exact ⟨g, by simp [Satisfied], rfl⟩

theorem soft_reads (name : String) (make : ℝ → ℝ → Interaction) (hname : name.toList ≠ []) (hmake : ∀ e s, 0 < e → 0 < s → (make e s).check = .ok ()) :
    ∃ c, createSoft name make = .ok c ∧ c.name = name.toList ∧
    Interprets c.toMatcher (fun n i => ∃ a b e s, Call n name [("epsilon", none), ("sigma", none)] [a, b] ∧ IsPositive a e ∧ IsPositive b s ∧ i = make e s)
      (fun i => .object (.interaction i)) := by
  refine ⟨_, by rw [createSoft, createClass, if_neg hname]; rfl, rfl, fun n v => ?_⟩
  rw [class_run (.required (.required .nil)) rfl (by exact (by decide : ["epsilon", "sigma"].Nodup)) rfl rfl]
  simp only [exists_read positiveFloat_reads, exists_unread]
  eval_shape
  constructor
  · rintro ⟨a, e, g1, b, s, g2, g3, -, h⟩
    rw [hmake e s g1.2 g2.2] at h
    simp only [construct, ok_bind', ok_pure', ok_map', Except.ok.injEq] at h
    exact ⟨_, ⟨a, b, e, s, g3, g1, g2, rfl⟩, h.symm⟩
  · rintro ⟨_, ⟨a, b, e, s, g3, g1, g2, rfl⟩, rfl⟩
    refine ⟨a, e, g1, b, s, g2, g3, by simp [Satisfied], ?_⟩
    rw [hmake e s g1.2 g2.2]
    rfl

theorem interaction_reads : ∃ c, createInteraction = .ok c ∧ Interprets c.toMatcher IsInteraction (fun i => .object (.interaction i)) := by
  have req : ∀ {p : Prop} [Decidable p] {s : String}, p → Outcome.require (decide p) s = .ok () := fun h => by rw [decide_eq_true h]; rfl
  obtain ⟨c1, e1, n1, r1⟩ := hard_reads
  obtain ⟨c2, e2, n2, r2⟩ := soft_reads "lj" .lj (by decide) (fun e s he hs => by
    show (lennardJones e s []).bind _ = _; unfold lennardJones; rw [req (p := e > 0) he, req (p := s > 0) hs]; rfl)
  obtain ⟨c3, e3, n3, r3⟩ := soft_reads "wca" .wca (by decide) (fun e s he hs => by
    show (repulsiveLennardJones e s []).bind _ = _; unfold repulsiveLennardJones; rw [req (p := e > 0) he, req (p := s > 0) hs]; rfl)
  obtain ⟨c4, e4, n4, r4⟩ := soft_reads "square_inverse_core" .squareInverseCore (by decide) (fun e s he hs => by
    show (Shapes.squareInverseCore e s []).bind _ = _; unfold Shapes.squareInverseCore; rw [req (p := e ≠ 0) he.ne', req (p := s > 0) hs]; rfl)
  refine ⟨_, by rw [createInteraction, e1, e2, e3, e4]; rfl, fun n v => ?_⟩
  refine Iff.trans (alternative_reads (heads := ["hard", "lj", "wca", "square_inverse_core"].map fun s => Head.named s.toList)
    (by exact ⟨trivial, ⟨trivial, trivial⟩, trivial⟩)
    (by exact .cons (takes_class n1) (.cons (takes_class n2) (.cons (takes_class n3) (.cons (takes_class n4) .nil)))) (heads_nodup (by decide))) ?_
  simp only [options, List.cons_append, List.nil_append, List.mem_cons, List.not_mem_nil, or_false, exists_eq_or_imp, exists_eq_left, r1 n v, r2 n v, r3 n v, r4 n v]
  constructor
  · rintro (⟨_, ⟨h, rfl⟩, rfl⟩ | ⟨_, ⟨a, b, e, s, h1, h2, h3, rfl⟩, rfl⟩ | ⟨_, ⟨a, b, e, s, h1, h2, h3, rfl⟩, rfl⟩ | ⟨_, ⟨a, b, e, s, h1, h2, h3, rfl⟩, rfl⟩)
    · exact ⟨_, .hard h, rfl⟩
    · exact ⟨_, .lj h1 h2 h3, rfl⟩
    · exact ⟨_, .wca h1 h2 h3, rfl⟩
    · exact ⟨_, .squareInverseCore h1 h2 h3, rfl⟩
  · rintro ⟨_, (h | ⟨h1, h2, h3⟩ | ⟨h1, h2, h3⟩ | ⟨h1, h2, h3⟩), rfl⟩
    · exact .inl ⟨_, ⟨h, rfl⟩, rfl⟩
    · exact .inr (.inl ⟨_, ⟨_, _, _, _, h1, h2, h3, rfl⟩, rfl⟩)
    · exact .inr (.inr (.inl ⟨_, ⟨_, _, _, _, h1, h2, h3, rfl⟩, rfl⟩))
    · exact .inr (.inr (.inr ⟨_, ⟨_, _, _, _, h1, h2, h3, rfl⟩, rfl⟩))

/-- The default interaction is the one of hard spheres. -/
theorem hard_run {c : Choice ℝ V} (hc : Interprets c.toMatcher IsInteraction (fun i => .object (.interaction i))) :
    c.toMatcher.run (.dataclass "hard".toList [] []) = .matched (.value (.object (.interaction .hard))) :=
  (hc _ _).mpr ⟨.hard, .hard (call_positional (ps := []) (ds := []) rfl rfl), rfl⟩

/-! ### Axes and points -/

theorem three_floats {ns : List (Node ℝ)} {vs : List (Any ℝ V)} (h : List.Forall₂ (Turns (some float)) ns vs) (hl : vs.length = 3) :
    ∃ a b c x y z, ns = [a, b, c] ∧ vs = [.value (.real x), .value (.real y), .value (.real z)] ∧ IsNumber a x ∧ IsNumber b y ∧ IsNumber c z := by
  obtain ⟨x, y, z, rfl⟩ := List.length_eq_three.mp hl
  cases h with
  | cons ha h =>
    cases h with
    | cons hb h =>
      cases h with
      | cons hc h =>
        cases h with
        | nil =>
          obtain ⟨p, hp, rfl⟩ := (float_reads _ _).mp ha
          obtain ⟨q, hq, rfl⟩ := (float_reads _ _).mp hb
          obtain ⟨r, hr, rfl⟩ := (float_reads _ _).mp hc
          exact ⟨_, _, _, p, q, r, rfl, rfl, hp, hq, hr⟩

theorem norm_ne {v : Vec3 ℝ} (h : 1 / 10 ^ 10 < |v.x| ∨ 1 / 10 ^ 10 < |v.y| ∨ 1 / 10 ^ 10 < |v.z|) : 0 < v.norm2 := by
  have key : ∀ x : ℝ, 1 / 10 ^ 10 < |x| → 0 < x * x := fun x hx => by
    have : x ≠ 0 := by rintro rfl; norm_num at hx
    exact mul_self_pos.mpr this
  unfold Vec3.norm2 Vec3.dot
  have h1 := mul_self_nonneg v.x
  have h2 := mul_self_nonneg v.y
  have h3 := mul_self_nonneg v.z
  rcases h with h | h | h <;> have := key _ h <;> linarith

theorem normalize_axis {v : Vec3 ℝ} (h : 0 < v.norm2) : normalize v = .ok ((1 / v.norm) • v) := by
  have : v.norm ≠ 0 := by
    unfold Vec3.norm
    exact (Real.sqrt_pos.mpr h).ne'
  unfold normalize
  rw [if_neg this]
  congr 1
  ext <;> simp <;> field_simp

theorem axisArray_reads : Interprets axisArray (fun n a => ∃ v, IsVec n v ∧ (1 / 10 ^ 10 < |v.x| ∨ 1 / 10 ^ 10 < |v.y| ∨ 1 / 10 ^ 10 < |v.z|) ∧ a = some ((1 / v.norm) • v))
    (fun a => .object (.axis a)) := by
  intro n v
  unfold axisArray
  change (ArrayMatcher.run _ n) = _ ↔ _
  rw [C78_array]
  constructor
  · rintro ⟨ns, vs, rfl, ⟨h1, h2⟩, h3⟩
    rw [satisfied_two] at h2
    obtain ⟨h2, h4⟩ := h2
    simp only [arraySize, Except.ok.injEq, decide_eq_true_eq] at h2
    obtain ⟨a, b, c, x, y, z, rfl, rfl, hx, hy, hz⟩ := three_floats h1 h2
    simp [notTiny, asReal, List.mapM_cons, ok_bind', ok_pure', ok_map', Except.ok.injEq] at h4
    have h4' : 1 / 10 ^ 10 < |x| ∨ 1 / 10 ^ 10 < |y| ∨ 1 / 10 ^ 10 < |z| := by simpa using h4
    simp only [asVector, asReal, ok_bind', ok_pure', ok_map'] at h3
    rw [normalize_axis (norm_ne (v := ⟨x, y, z⟩) h4')] at h3
    simp only [construct, ok_bind', ok_pure', ok_map', Except.ok.injEq] at h3
    exact ⟨_, ⟨⟨x, y, z⟩, ⟨_, _, _, rfl, hx, hy, hz⟩, h4', rfl⟩, h3.symm⟩
  · rintro ⟨_, ⟨⟨x, y, z⟩, ⟨a, b, c, rfl, hx, hy, hz⟩, h4, rfl⟩, rfl⟩
    refine ⟨[a, b, c], [.value (.real x), .value (.real y), .value (.real z)], rfl, ⟨.cons ((float_reads _ _).mpr ⟨x, hx, rfl⟩)
      (.cons ((float_reads _ _).mpr ⟨y, hy, rfl⟩) (.cons ((float_reads _ _).mpr ⟨z, hz, rfl⟩) .nil)), satisfied_two.mpr ⟨rfl, ?_⟩⟩, ?_⟩
    · simp [notTiny, asReal, List.mapM_cons, ok_bind', ok_pure', ok_map', Except.ok.injEq]
      simpa using h4
    · simp only [asVector, asReal, ok_bind', ok_pure', ok_map']
      rw [normalize_axis (norm_ne (v := ⟨x, y, z⟩) h4)]
      rfl

theorem axis_reads : Interprets axis.toMatcher IsAxis (fun a => .object (.axis a)) := by
  intro n v
  unfold axis
  refine Iff.trans (alternative_reads (heads := [.array, .none]) (by exact ⟨sound_array, sound_none⟩) (by exact .cons takes_array (.cons takes_none .nil)) (by simp)) ?_
  simp only [options, List.cons_append, List.nil_append, List.mem_cons, List.not_mem_nil, or_false, exists_eq_or_imp, exists_eq_left, axisArray_reads n v, none_run,
    Except.ok.injEq]
  constructor
  · rintro (⟨_, ⟨v, h1, h2, rfl⟩, rfl⟩ | ⟨rfl, rfl⟩)
    · exact ⟨_, .some h1 h2 rfl, rfl⟩
    · exact ⟨_, .none, rfl⟩
  · rintro ⟨_, (_ | ⟨h1, h2, rfl⟩), rfl⟩
    · exact .inr ⟨rfl, rfl⟩
    · exact .inl ⟨_, ⟨_, h1, h2, rfl⟩, rfl⟩

theorem no_axis : axis.toMatcher.run .none = .matched (.value (.object (.axis none)) : Any ℝ V) := (axis_reads _ _).mpr ⟨none, .none, rfl⟩

theorem value_vec {k : Text} {n : Node ℝ} {a : Any ℝ V} : ValueAt pointsDictionary k n a ↔ ∃ v, IsVec n v ∧ a = .value (.object (.vec v)) := by
  constructor
  · rintro (⟨h, -, -, -⟩ | ⟨-, h⟩)
    · simp [pointsDictionary] at h
    · exact (vec_reads _ _).mp h
  · rintro h
    exact .other (by simp [pointsDictionary]) ((vec_reads _ _).mpr h)

theorem entries (l : List (Text × Vec3 ℝ)) : (l.map fun e => ((e.1, .value (.object (.vec e.2))) : Text × Any ℝ V)).mapM entryVec = .ok l := by
  induction l with
  | nil => rfl
  | cons e l ih => rw [List.map_cons, List.mapM_cons, ih]; rfl

theorem points_reads : Interprets pointsDictionary.toMatcher IsPoints (fun l => .object (.points l)) := by
  intro n v
  change (DictionaryMatcher.run _ n) = _ ↔ _
  rw [C78_dictionary]
  constructor
  · rintro ⟨es, as, rfl, ⟨h1, h2, h3, -⟩, h4⟩
    obtain ⟨l, rfl⟩ : ∃ l : List (Text × Vec3 ℝ), as = l.map fun e => (e.1, .value (.object (.vec e.2))) := by
      have : ∀ l : List (Text × Any ℝ V), (∀ e ∈ l, ∃ s, e.2 = .value (.object (.vec s))) →
          ∃ params : List (Text × Vec3 ℝ), l = params.map (fun e => (e.1, .value (.object (.vec e.2)))) := by
        intro l
        induction l with
        | nil => intro _; exact ⟨[], rfl⟩
        | cons e l ih =>
          intro h
          obtain ⟨ps, hps⟩ := ih fun e he => h e (List.mem_cons_of_mem _ he)
          obtain ⟨s, hs⟩ := h e List.mem_cons_self
          exact ⟨(e.1, s) :: ps, by rw [List.map_cons, ← hps, ← hs]⟩
      refine this as fun e he => ?_
      obtain ⟨n, -, hv⟩ := h3 e.1 e.2 he
      obtain ⟨s, -, hs⟩ := value_vec.mp hv
      exact ⟨s, hs⟩
    have h5 : pointsDictionary.mapping (l.map fun e => (e.1, .value (.object (.vec e.2)))) = .ok (.value (.object (.points l))) := by
      unfold pointsDictionary
      simp only [entries]
      rfl
    rw [h5] at h4
    injection h4 with h4
    refine ⟨l, ⟨es, rfl, ?_, fun k m hg => ?_, fun k v hv => ?_⟩, h4.symm⟩
    · unfold Ordered at h1 ⊢
      rw [List.pairwise_map] at h1
      exact h1
    · obtain ⟨a, ha, hv⟩ := h2 k m hg
      obtain ⟨s, hs, rfl⟩ := value_vec.mp hv
      obtain ⟨e, he, heq⟩ := List.mem_map.mp ha
      injection heq with h5 h6
      injection h6 with h6
      injection h6 with h6
      injection h6 with h6
      exact ⟨s, hs, by rw [← h5, ← h6]; exact he⟩
    · obtain ⟨n, hg, hv⟩ := h3 k (.value (.object (.vec v))) (List.mem_map.mpr ⟨(k, v), hv, rfl⟩)
      obtain ⟨s, hs, h5⟩ := value_vec.mp hv
      injection h5 with h5
      injection h5 with h5
      injection h5 with h5
      rw [h5]
      exact ⟨n, hg, hs⟩
  · rintro ⟨l, ⟨es, rfl, ho, h2, h3⟩, rfl⟩
    refine ⟨es, l.map fun e => (e.1, .value (.object (.vec e.2))), rfl, ⟨?_, fun k n h => ?_, fun k a h => ?_, by simp [Satisfied, pointsDictionary]⟩, ?_⟩
    · unfold Ordered at ho ⊢
      rw [List.pairwise_map]
      exact ho
    · obtain ⟨s, h4, hs⟩ := h2 k n h
      exact ⟨_, List.mem_map.mpr ⟨(k, s), hs, rfl⟩, value_vec.mpr ⟨s, h4, rfl⟩⟩
    · obtain ⟨e, he, heq⟩ := List.mem_map.mp h
      cases heq
      obtain ⟨m, h4, h5⟩ := h3 e.1 e.2 he
      exact ⟨m, h4, value_vec.mpr ⟨_, h5, rfl⟩⟩
    · unfold pointsDictionary
      simp only [entries]
      rfl

theorem no_points : pointsDictionary.toMatcher.run (.dictionary []) = .matched (.value (.object (.points [])) : Any ℝ V) := by
  refine (points_reads _ _).mpr ⟨[], ⟨[], rfl, List.Pairwise.nil, ?_, by simp⟩, rfl⟩
  rintro k m ⟨p, s, h, -⟩
  simp at h

end Rampack.ShapeExpr
