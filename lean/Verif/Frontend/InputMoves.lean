import Verif.Frontend.InputParams
/-
What the matchers of moves, box scalers, snapshot writers and recorders read.
-/
namespace Rampack.Input

open Pyon Pyon.Spec Rampack.Input.Spec

variable {X α : Type} {conv : ℚ → Option ℝ}

/-! ### Move samplers -/

theorem rotStep_reads : Interprets (X := X) rotStep.toMatcher IsRotationStep .optReal := by
  intro n v
  unfold rotStep
  rw [alternative_reads (heads := [.number, .string]) ⟨sound_float, sound_string⟩ (.cons takes_float (.cons takes_string .nil)) (by simp)]
  simp only [options, List.cons_append, List.nil_append, List.mem_cons, List.not_mem_nil, or_false, exists_eq_or_imp, exists_eq_left, float_run, string_run,
    satisfied_one, isPositive, Except.ok.injEq, decide_eq_true_eq]
  constructor
  · rintro (⟨x, h1, h2, rfl⟩ | ⟨s, h1, h2, rfl⟩)
    · exact ⟨some x, .inr ⟨x, ⟨h1, h2⟩, rfl⟩, rfl⟩
    · exact ⟨none, .inl ⟨by rw [h1, h2], rfl⟩, rfl⟩
  · rintro ⟨r, ⟨h, rfl⟩ | ⟨x, ⟨h1, h2⟩, rfl⟩, rfl⟩
    · exact .inr ⟨_, h, rfl, rfl⟩
    · exact .inl ⟨x, h1, h2, rfl⟩

theorem maxTransStep_reads :
    Interprets (X := X) maxTransStep.toMatcher (fun n m => (n = .none ∧ m = 0) ∨ IsPositive n m) .real := by
  intro n v
  unfold maxTransStep
  refine Iff.trans (alternative_reads (heads := [.number, .none]) (by exact ⟨sound_float, sound_none⟩) (by exact .cons takes_float (.cons takes_none .nil)) (by simp)) ?_
  simp only [options, List.cons_append, List.nil_append, List.mem_cons, List.not_mem_nil, or_false, exists_eq_or_imp, exists_eq_left, positiveFloat_reads n v, none_run,
    Except.ok.injEq]
  constructor
  · rintro (⟨x, h1, rfl⟩ | ⟨h1, rfl⟩)
    · exact ⟨x, .inr h1, rfl⟩
    · exact ⟨0, .inl ⟨h1, rfl⟩, rfl⟩
  · rintro ⟨m, ⟨h, rfl⟩ | h, rfl⟩
    · exact .inr ⟨h, rfl⟩
    · exact .inl ⟨m, h, rfl⟩

theorem isMaxStep_iff {n : Node ℝ} {x m : ℝ} : IsMaxStep n x m ↔ ((n = .none ∧ m = 0) ∨ IsPositive n m) ∧ (m ≠ 0 → x ≤ m) := by
  unfold IsMaxStep
  constructor
  · rintro (⟨h1, h2⟩ | ⟨h1, h2⟩)
    · exact ⟨.inl ⟨h1, h2⟩, fun h => absurd h2 h⟩
    · exact ⟨.inr h1, fun _ => h2⟩
  · rintro ⟨⟨h1, h2⟩ | h1, h3⟩
    · exact .inl ⟨h1, h2⟩
    · exact .inr ⟨h1, h3 h1.2.ne'⟩

theorem checkTranslation_eq {x m : ℝ} (hx : 0 < x) (hm : 0 ≤ m) (h : m ≠ 0 → x ≤ m) : Sampler.checkTranslation x m = .ok () := by
  unfold Sampler.checkTranslation
  have h2 : (!decide (m > 0) || decide (x ≤ m)) = true := by
    by_cases h0 : m = 0
    · simp [h0]
    · simp [h h0]
  rw [h2]
  simp [hx, hm, Outcome.require_true]

theorem maxStep_nonneg {n : Node ℝ} {x m : ℝ} (h : IsMaxStep n x m) : 0 ≤ m := by
  rcases h with ⟨_, rfl⟩ | ⟨h, _⟩
  · exact le_rfl
  · exact h.2.le

theorem construct_ok {β : Type} {a : β} : construct (.ok a) = .ok a := rfl

open Classical in
theorem rototranslation_reads (hconv : Rampack.Spec.RoundsIntegers conv) : ∃ c, createRototranslation (X := X) conv = .ok c ∧ c.name = "rototranslation".toList ∧
    Interprets c.toMatcher (fun n s => ∃ a b d x r m,
      Call n "rototranslation" [("trans_step", none), ("rot_step", some (.string "auto".toList)), ("max_trans_step", some .none)] [a, b, d] ∧
      IsPositive a x ∧ IsRotationStep b r ∧ IsMaxStep d x m ∧ s = .rototranslation x r m (decide (m = 0))) .sampler := by
  have h1 : rotStep.toMatcher.run (.string "auto".toList) = .matched (.value (.optReal none) : Any ℝ (Value X)) :=
    (rotStep_reads _ _).mpr ⟨none, .inl ⟨rfl, rfl⟩, rfl⟩
  have h2 : maxTransStep.toMatcher.run .none = .matched (.value (.real 0) : Any ℝ (Value X)) := (maxTransStep_reads _ _).mpr ⟨0, .inl ⟨rfl, rfl⟩, rfl⟩
  refine ⟨_, by rw [createRototranslation, optional_ok (parse_auto hconv) h1, Outcome.ok_bind, optional_ok (parse_none hconv) h2]; rfl, rfl, fun n v => ?_⟩
  rw [class_run (.required (.optional h1 (.optional h2 .nil))) rfl (by decide) rfl rfl]
  simp only [exists_read positiveFloat_reads, exists_read rotStep_reads, exists_read maxTransStep_reads, exists_unread]
  simp only [ClassMatcher.mapTo, satisfied_one, stepBelowMax]
  eval_class
  constructor
  · rintro ⟨a, x, g1, b, r, g2, d, m, g3, g4, g5, g6⟩
    have hm : IsMaxStep d x m := by
      rw [isMaxStep_iff]
      refine ⟨g3, fun h0 => ?_⟩
      rw [if_neg h0] at g5
      simpa using g5
    refine ⟨.rototranslation x r m (decide (m = 0)), ⟨a, b, d, x, r, m, g4, g1, g2, hm, rfl⟩, ?_⟩
    have : Sampler.mkRototranslation x r m = .ok (.rototranslation x r m (decide (m = 0))) := by
      rw [Sampler.mkRototranslation, checkTranslation_eq g1.2 (maxStep_nonneg hm) (isMaxStep_iff.mp hm).2, Outcome.ok_bind]
      have : Sampler.checkRotation r = .ok () := by
        rcases g2 with ⟨_, rfl⟩ | ⟨y, hy, rfl⟩
        · rfl
        · rw [Sampler.checkRotation, decide_eq_true hy.2]; rfl
      rw [this]
      congr
    rw [this, construct_ok, ok_bind'] at g6
    cases g6
    rfl
  · rintro ⟨s, ⟨a, b, d, x, r, m, g4, g1, g2, hm, rfl⟩, rfl⟩
    have hm' := isMaxStep_iff.mp hm
    refine ⟨a, x, g1, b, r, g2, d, m, hm'.1, g4, ?_, ?_⟩
    · split_ifs with h0
      · rfl
      · simp [hm'.2 h0]
    · have : Sampler.mkRototranslation x r m = .ok (.rototranslation x r m (decide (m = 0))) := by
        rw [Sampler.mkRototranslation, checkTranslation_eq g1.2 (maxStep_nonneg hm) (isMaxStep_iff.mp hm).2, Outcome.ok_bind]
        have : Sampler.checkRotation r = .ok () := by
          rcases g2 with ⟨_, rfl⟩ | ⟨y, hy, rfl⟩
          · rfl
          · rw [Sampler.checkRotation, decide_eq_true hy.2]; rfl
        rw [this]
        congr
      rw [this]
      rfl

open Classical in
theorem translation_reads (hconv : Rampack.Spec.RoundsIntegers conv) : ∃ c, createTranslation (X := X) conv = .ok c ∧ c.name = "translation".toList ∧
    Interprets c.toMatcher (fun n s => ∃ a b x m, Call n "translation" [("step", none), ("max_step", some .none)] [a, b] ∧
      IsPositive a x ∧ IsMaxStep b x m ∧ s = .translation x m (decide (m = 0))) .sampler := by
  have h2 : maxTransStep.toMatcher.run .none = .matched (.value (.real 0) : Any ℝ (Value X)) := (maxTransStep_reads _ _).mpr ⟨0, .inl ⟨rfl, rfl⟩, rfl⟩
  have hmk : ∀ {b : Node ℝ} {x m : ℝ}, 0 < x → IsMaxStep b x m → Sampler.mkTranslation x m = .ok (.translation x m (decide (m = 0))) := by
    intro b x m hx hm
    rw [Sampler.mkTranslation, checkTranslation_eq hx (maxStep_nonneg hm) (isMaxStep_iff.mp hm).2, Outcome.ok_bind]
    congr
  refine ⟨_, by rw [createTranslation, optional_ok (parse_none hconv) h2]; rfl, rfl, fun n v => ?_⟩
  rw [class_run (.required (.optional h2 .nil)) rfl (by decide) rfl rfl]
  simp only [exists_read positiveFloat_reads, exists_read maxTransStep_reads, exists_unread]
  simp only [ClassMatcher.mapTo, satisfied_one, stepBelowMax]
  eval_class
  constructor
  · rintro ⟨a, x, g1, d, m, g3, g4, g5, g6⟩
    have hm : IsMaxStep d x m := by
      rw [isMaxStep_iff]
      refine ⟨g3, fun h0 => ?_⟩
      rw [if_neg h0] at g5
      simpa using g5
    refine ⟨.translation x m (decide (m = 0)), ⟨a, d, x, m, g4, g1, hm, rfl⟩, ?_⟩
    rw [hmk g1.2 hm, construct_ok, ok_bind'] at g6
    cases g6
    rfl
  · rintro ⟨s, ⟨a, d, x, m, g4, g1, hm, rfl⟩, rfl⟩
    have hm' := isMaxStep_iff.mp hm
    refine ⟨a, x, g1, d, m, hm'.1, g4, ?_, ?_⟩
    · split_ifs with h0
      · rfl
      · simp [hm'.2 h0]
    · rw [hmk g1.2 hm]
      rfl

theorem rotation_reads : ∃ c, createRotation (X := X) = .ok c ∧ c.name = "rotation".toList ∧
    Interprets c.toMatcher (fun n s => ∃ a x, Call n "rotation" [("step", none)] [a] ∧ IsPositive a x ∧ s = .rotation x) .sampler := by
  have hmk : ∀ {x : ℝ}, 0 < x → Sampler.mkRotation x = .ok (.rotation x) := by
    intro x hx
    rw [Sampler.mkRotation, decide_eq_true hx]
    rfl
  refine ⟨_, rfl, rfl, fun n v => ?_⟩
  rw [class_run (.required .nil) rfl (by decide) rfl rfl]
  simp only [exists_read positiveFloat_reads, exists_unread]
  eval_class
  constructor
  · rintro ⟨a, x, g1, g2, -, g3⟩
    rw [hmk g1.2, construct_ok, ok_bind'] at g3
    cases g3
    exact ⟨_, ⟨a, x, g2, g1, rfl⟩, rfl⟩
  · rintro ⟨s, ⟨a, x, g2, g1, rfl⟩, rfl⟩
    refine ⟨a, x, g1, g2, by simp [Satisfied], ?_⟩
    rw [hmk g1.2]
    rfl

theorem flip_reads (hconv : Rampack.Spec.RoundsIntegers conv) : ∃ c, createFlip (X := X) conv = .ok c ∧ c.name = "flip".toList ∧
    Interprets c.toMatcher (fun n s => ∃ a k, Call n "flip" [("every", some (.int 10))] [a] ∧ IsCount a k ∧ s = .flip k 0 0 false) .sampler := by
  have h1 : (size [intPositive]).run (.int 10) = .matched (.value (.size 10) : Any ℝ (Value X)) := (count_reads _ _).mpr ⟨10, ⟨rfl, by decide⟩, rfl⟩
  have hmk : ∀ {k : Nat}, 0 < k → Sampler.mkFlip k = .ok (.flip k 0 0 false) := by
    intro x hx
    rw [Sampler.mkFlip, decide_eq_true hx]
    rfl
  refine ⟨_, by rw [createFlip, optional_ok (parse_10 hconv) h1]; rfl, rfl, fun n v => ?_⟩
  rw [class_run (.optional h1 .nil) rfl (by decide) rfl rfl]
  simp only [exists_read count_reads, exists_unread]
  eval_class
  constructor
  · rintro ⟨a, x, g1, g2, -, g3⟩
    rw [hmk g1.2, construct_ok, ok_bind'] at g3
    cases g3
    exact ⟨_, ⟨a, x, g2, g1, rfl⟩, rfl⟩
  · rintro ⟨s, ⟨a, x, g2, g1, rfl⟩, rfl⟩
    refine ⟨a, x, g1, g2, by simp [Satisfied], ?_⟩
    rw [hmk g1.2]
    rfl

theorem sampler_reads (hconv : Rampack.Spec.RoundsIntegers conv) : ∃ c : Choice ℝ (Value X), createSampler conv = .ok c ∧
    Interprets c.toMatcher IsSampler .sampler := by
  obtain ⟨c1, e1, n1, r1⟩ := rototranslation_reads (X := X) hconv
  obtain ⟨c2, e2, n2, r2⟩ := translation_reads (X := X) hconv
  obtain ⟨c3, e3, n3, r3⟩ := rotation_reads (X := X)
  obtain ⟨c4, e4, n4, r4⟩ := flip_reads (X := X) hconv
  refine ⟨_, by rw [createSampler, e1, e2, e3, e4]; rfl, fun n v => ?_⟩
  refine Iff.trans (alternative_reads (heads := ["rototranslation", "translation", "rotation", "flip"].map fun s => Head.named s.toList)
    (by exact ⟨⟨⟨trivial, trivial⟩, trivial⟩, trivial⟩)
    (by exact .cons (takes_class n1) (.cons (takes_class n2) (.cons (takes_class n3) (.cons (takes_class n4) .nil)))) (heads_nodup (by decide))) ?_
  simp only [options, List.cons_append, List.nil_append, List.mem_cons, List.not_mem_nil, or_false, exists_eq_or_imp, exists_eq_left, r1 n v, r2 n v, r3 n v, r4 n v]
  constructor
  · rintro (⟨s, ⟨a, b, d, x, r, m, h1, h2, h3, h4, rfl⟩, rfl⟩ | ⟨s, ⟨a, b, x, m, h1, h2, h3, rfl⟩, rfl⟩ | ⟨s, ⟨a, x, h1, h2, rfl⟩, rfl⟩ | ⟨s, ⟨a, x, h1, h2, rfl⟩, rfl⟩)
    · exact ⟨_, .rototranslation h1 h2 h3 h4, rfl⟩
    · exact ⟨_, .translation h1 h2 h3, rfl⟩
    · exact ⟨_, .rotation h1 h2, rfl⟩
    · exact ⟨_, .flip h1 h2, rfl⟩
  · rintro ⟨s, (⟨h1, h2, h3, h4⟩ | ⟨h1, h2, h3⟩ | ⟨h1, h2⟩ | ⟨h1, h2⟩), rfl⟩
    · exact .inl ⟨_, ⟨_, _, _, _, _, _, h1, h2, h3, h4, rfl⟩, rfl⟩
    · exact .inr (.inl ⟨_, ⟨_, _, _, _, h1, h2, h3, rfl⟩, rfl⟩)
    · exact .inr (.inr (.inl ⟨_, ⟨_, _, h1, h2, rfl⟩, rfl⟩))
    · exact .inr (.inr (.inr ⟨_, ⟨_, _, h1, h2, rfl⟩, rfl⟩))

/-- The matcher of `move_types`. -/
theorem moveTypes_reads (hconv : Rampack.Spec.RoundsIntegers conv) : ∃ c : Choice ℝ (Value X), createMoveTypes conv = .ok c ∧
    Interprets c.toMatcher (fun n l => (n = .none ∧ l = []) ∨ (l ≠ [] ∧ ListOf IsSampler n l)) .samplers := by
  obtain ⟨c, e, hr⟩ := sampler_reads (X := X) hconv
  refine ⟨_, by rw [createMoveTypes, e]; rfl, fun n v => ?_⟩
  have hv := vector_reads hr (as := asSampler) (fun x => rfl) (filters := [arrayNonEmpty]) (P := fun l => l ≠ [])
    (by intro l; simp [satisfied_one, arrayNonEmpty]) (w := .samplers)
  refine Iff.trans (alternative_reads (heads := [.array, .none]) (by exact ⟨sound_array, sound_none⟩) (by exact .cons takes_array (.cons takes_none .nil))
    (by simp)) ?_
  simp only [options, List.cons_append, List.nil_append, List.mem_cons, List.not_mem_nil, or_false, exists_eq_or_imp, exists_eq_left, hv n v, none_run,
    Except.ok.injEq]
  constructor
  · rintro (⟨l, ⟨h1, h2⟩, rfl⟩ | ⟨rfl, rfl⟩)
    · exact ⟨l, .inr ⟨h2, h1⟩, rfl⟩
    · exact ⟨[], .inl ⟨rfl, rfl⟩, rfl⟩
  · rintro ⟨l, ⟨rfl, rfl⟩ | ⟨h1, h2⟩, rfl⟩
    · exact .inr ⟨rfl, rfl⟩
    · exact .inl ⟨l, ⟨h2, h1⟩, rfl⟩

/-! ### Box scalers -/

theorem first_apart {ms : List (Matcher ℝ (Value X))} {ts : List (Node ℝ → Prop)} (h : List.Forall₂ (fun m t => ∀ n, ¬ t n → Fails n m) ms ts)
    (hp : ts.Pairwise fun t u => ∀ n, t n → ¬ u n) {n : Node ℝ} {v : Any ℝ (Value X)} :
    First ms n (.matched v) ↔ ∃ m ∈ ms, m.run n = .matched v := by
  induction h with
  | nil => simp [First]
  | @cons m g ms hs hm h ih =>
    rw [first_cons (by simp), ih (List.pairwise_cons.mp hp).2]
    constructor
    · rintro (h1 | ⟨_, m', h1, h2⟩)
      · exact ⟨m, List.mem_cons_self, h1⟩
      · exact ⟨m', List.mem_cons_of_mem _ h1, h2⟩
    · rintro ⟨m', h1, h2⟩
      rcases List.mem_cons.mp h1 with rfl | h1
      · exact .inl h2
      · refine .inr ⟨hm n ?_, m', h1, h2⟩
        intro hg
        have : ∀ (ms : List (Matcher ℝ (Value X))) (hs : List (Node ℝ → Prop)), List.Forall₂ (fun m t => ∀ n, ¬ t n → Fails n m) ms hs → m' ∈ ms →
            (∀ t ∈ hs, ¬ t n) → False := by
          intro ms hs h
          induction h with
          | nil => intro h; simp at h
          | cons ht _ ih =>
            intro hmem hnot
            rcases List.mem_cons.mp hmem with rfl | hmem
            · obtain ⟨r, hr⟩ := ht n (hnot _ List.mem_cons_self)
              rw [hr] at h2
              cases h2
            · exact ih hmem (fun t ht => hnot t (List.mem_cons_of_mem _ ht))
        exact this ms hs h h1 (fun t ht => (List.pairwise_cons.mp hp).1 t ht n hg)

theorem predefined_run {name : String} {d : Outcome Directions} {e : Directions} (hd : d = .ok e) {n : Node ℝ} {v : Any ℝ (Value X)} :
    (predefined name d).run n = .matched v ↔ n = .string name.toList ∧ v = .value (.direction e) := by
  unfold predefined
  rw [string_run, hd]
  simp only [satisfied_one, Except.ok.injEq, decide_eq_true_eq]
  constructor
  · rintro ⟨s, rfl, rfl, h⟩
    cases h
    exact ⟨rfl, rfl⟩
  · rintro ⟨rfl, rfl⟩
    exact ⟨_, rfl, rfl, rfl⟩

theorem predefined_fails {name : String} {d : Outcome Directions} (n : Node ℝ) (h : ¬ n = .string name.toList) : Fails n (predefined (X := X) name d) := by
  cases n with
  | string s =>
    refine ⟨.condition, ?_⟩
    have : ¬ s = name.toList := fun e => h (by rw [e])
    simp only [predefined, matcherString, finish, checkFilters, decide_eq_false this]
    rfl
  | _ => exact ⟨_, rfl⟩

/-- Texts made of letters and brackets. -/
def Lettered (n : Node ℝ) : Prop := ∃ s, n = .string s ∧ (s.all fun c => "xyz()[]".toList.contains c) = true

theorem manual_fails (n : Node ℝ) (h : ¬ Lettered n) : Fails n (manualDirection (X := X)) := by
  cases n with
  | string s =>
    refine ⟨.condition, ?_⟩
    have : (s.all fun c => "xyz()[]".toList.contains c) = false := by
      rw [Bool.eq_false_iff]
      exact fun e => h ⟨s, rfl, e⟩
    simp only [manualDirection, matcherString, finish, checkFilters, this]
    rfl
  | _ => exact ⟨_, rfl⟩

theorem text_letters {c : Char} (hc : c ∈ ['x', 'y', 'z']) (ps : List Spec.Piece) : (ps.flatMap Spec.Piece.text).count c = (ps.flatMap Spec.Piece.letters).count c := by
  induction ps with
  | nil => rfl
  | cons p ps ih =>
    rw [List.flatMap_cons, List.flatMap_cons, List.count_append, List.count_append, ih]
    congr 1
    have h1 : '(' ≠ c := by rintro rfl; revert hc; decide
    have h2 : ')' ≠ c := by rintro rfl; revert hc; decide
    have h3 : '[' ≠ c := by rintro rfl; revert hc; decide
    have h4 : ']' ≠ c := by rintro rfl; revert hc; decide
    cases p with
    | alone d => rfl
    | together cs => simp [Spec.Piece.text, Spec.Piece.letters, List.count_append, List.count_cons, h1, h2]
    | kept cs => simp [Spec.Piece.text, Spec.Piece.letters, List.count_append, List.count_cons, h3, h4]

theorem parse_filters {s : Text} {d : Directions} (h : Direction.parse s = .ok d) :
    (s.all fun c => "xyz()[]".toList.contains c) = true ∧ (s.count 'x' == 1 && s.count 'y' == 1 && s.count 'z' == 1) = true := by
  obtain ⟨ps, rfl, hp, -⟩ := C52_directions.mp h
  constructor
  · rw [List.all_eq_true]
    intro c hc
    obtain ⟨p, h1, h2⟩ := List.mem_flatMap.mp hc
    have hl : ∀ c ∈ p.letters, "xyz()[]".toList.contains c = true := by
      intro c hc
      have : c ∈ ['x', 'y', 'z'] := hp.mem_iff.mp (List.mem_flatMap.mpr ⟨p, h1, hc⟩)
      fin_cases this <;> decide
    cases p with
    | alone d => exact hl c h2
    | together cs =>
      simp only [Spec.Piece.text, List.cons_append, List.mem_cons, List.mem_append, List.not_mem_nil, or_false] at h2
      rcases h2 with rfl | h2 | rfl
      · decide
      · exact hl c h2
      · decide
    | kept cs =>
      simp only [Spec.Piece.text, List.cons_append, List.mem_cons, List.mem_append, List.not_mem_nil, or_false] at h2
      rcases h2 with rfl | h2 | rfl
      · decide
      · exact hl c h2
      · decide
  · rw [text_letters (by decide), text_letters (by decide), text_letters (by decide), hp.count_eq, hp.count_eq, hp.count_eq]
    decide

theorem manual_run {n : Node ℝ} {v : Any ℝ (Value X)} :
    manualDirection.run n = .matched v ↔ ∃ s d, n = .string s ∧ Direction.parse s = .ok d ∧ v = .value (.direction d) := by
  unfold manualDirection
  rw [string_run]
  constructor
  · rintro ⟨s, rfl, -, h⟩
    cases hp : Direction.parse s with
    | ok d =>
      rw [hp] at h
      cases h
      exact ⟨s, d, rfl, hp, rfl⟩
    | throw m => rw [hp] at h; cases h
    | ub => rw [hp] at h; cases h
    | diverge => rw [hp] at h; cases h
  · rintro ⟨s, d, rfl, hp, rfl⟩
    obtain ⟨h1, h2⟩ := parse_filters hp
    refine ⟨s, rfl, ?_, by rw [hp]; rfl⟩
    intro f hf
    rcases List.mem_cons.mp hf with rfl | hf
    · exact congrArg Except.ok h1
    · rw [List.mem_singleton.mp hf]
      exact congrArg Except.ok h2

theorem not_lettered {name : String} (h : (name.toList.all fun c => "xyz()[]".toList.contains c) = false) (n : Node ℝ) (hn : n = .string name.toList) :
    ¬ Lettered n := by
  rintro ⟨s, rfl, hs⟩
  injection hn with hn
  rw [hn, h] at hs
  cases hs

theorem apart {a b : String} (h : a ≠ b) (n : Node ℝ) (hn : n = .string a.toList) : ¬ n = .string b.toList := by
  rintro rfl
  injection hn with hn
  exact h (String.toList_inj.mp hn).symm

theorem direction_reads : Interprets (X := X) scalingDirection.toMatcher IsDirection .direction := by
  intro n v
  unfold scalingDirection
  have hs : Sound (V := Value X) (F := ℝ) (.join predefinedDirection (.other manualDirection)) :=
    ⟨⟨⟨⟨⟨sound_string, sound_string⟩, sound_string⟩, sound_string⟩, sound_string⟩, sound_string⟩
  rw [(C79_first_partial hs).1, first_apart (ts := [(· = .string "isotropic".toList), (· = .string "anisotropic x".toList), (· = .string "anisotropic y".toList),
    (· = .string "anisotropic z".toList), (· = .string "anisotropic xyz".toList), Lettered])
    (by exact .cons predefined_fails (.cons predefined_fails (.cons predefined_fails (.cons predefined_fails (.cons predefined_fails (.cons manual_fails .nil))))))
    (by
      simp only [List.pairwise_cons, List.mem_cons, List.not_mem_nil, or_false, forall_eq_or_imp, forall_eq, false_imp_iff, implies_true, List.Pairwise.nil, and_true]
      refine ⟨⟨apart (by decide) _ rfl, apart (by decide) _ rfl, apart (by decide) _ rfl, apart (by decide) _ rfl, not_lettered (by decide) _ rfl⟩,
        ⟨apart (by decide) _ rfl, apart (by decide) _ rfl, apart (by decide) _ rfl, not_lettered (by decide) _ rfl⟩, ⟨apart (by decide) _ rfl, apart (by decide) _ rfl, not_lettered (by decide) _ rfl⟩,
        ⟨apart (by decide) _ rfl, not_lettered (by decide) _ rfl⟩, not_lettered (by decide) _ rfl⟩)]
  simp only [predefinedDirection, options, List.cons_append, List.nil_append, List.mem_cons, List.not_mem_nil, or_false, exists_eq_or_imp, exists_eq_left, manual_run]
  have d1 : (do let xy ← Directions.X.and Directions.Y; xy.and Directions.Z : Outcome Directions) = .ok [⟨true, true, true⟩] := rfl
  have d2 : (do let yz ← Directions.Y.and Directions.Z; return Directions.X.or yz : Outcome Directions) = .ok [⟨true, false, false⟩, ⟨false, true, true⟩] := rfl
  have d3 : (do let zx ← Directions.Z.and Directions.X; return Directions.Y.or zx : Outcome Directions) = .ok [⟨false, true, false⟩, ⟨true, false, true⟩] := rfl
  have d4 : (do let xy ← Directions.X.and Directions.Y; return Directions.Z.or xy : Outcome Directions) = .ok [⟨false, false, true⟩, ⟨true, true, false⟩] := rfl
  have d5 : (.ok ((Directions.X.or Directions.Y).or Directions.Z) : Outcome Directions) =
    .ok [⟨true, false, false⟩, ⟨false, true, false⟩, ⟨false, false, true⟩] := rfl
  rw [predefined_run d1, predefined_run d2, predefined_run d3, predefined_run d4, predefined_run d5]
  unfold IsDirection Named
  constructor
  · rintro (⟨rfl, rfl⟩ | ⟨rfl, rfl⟩ | ⟨rfl, rfl⟩ | ⟨rfl, rfl⟩ | ⟨rfl, rfl⟩ | ⟨s, d, rfl, h, rfl⟩)
    · exact ⟨_, ⟨_, rfl, .inl ⟨"isotropic", by simp, rfl⟩⟩, rfl⟩
    · exact ⟨_, ⟨_, rfl, .inl ⟨"anisotropic x", by simp, rfl⟩⟩, rfl⟩
    · exact ⟨_, ⟨_, rfl, .inl ⟨"anisotropic y", by simp, rfl⟩⟩, rfl⟩
    · exact ⟨_, ⟨_, rfl, .inl ⟨"anisotropic z", by simp, rfl⟩⟩, rfl⟩
    · exact ⟨_, ⟨_, rfl, .inl ⟨"anisotropic xyz", by simp, rfl⟩⟩, rfl⟩
    · exact ⟨d, ⟨s, rfl, .inr h⟩, rfl⟩
  · rintro ⟨d, ⟨s, rfl, ⟨k, hk, rfl⟩ | h⟩, rfl⟩
    · simp only [List.mem_cons, Prod.mk.injEq, List.not_mem_nil, or_false] at hk
      rcases hk with ⟨rfl, rfl⟩ | ⟨rfl, rfl⟩ | ⟨rfl, rfl⟩ | ⟨rfl, rfl⟩ | ⟨rfl, rfl⟩
      · exact .inl ⟨rfl, rfl⟩
      · exact .inr (.inl ⟨rfl, rfl⟩)
      · exact .inr (.inr (.inl ⟨rfl, rfl⟩))
      · exact .inr (.inr (.inr (.inl ⟨rfl, rfl⟩)))
      · exact .inr (.inr (.inr (.inr (.inl ⟨rfl, rfl⟩))))
    · exact .inr (.inr (.inr (.inr (.inr ⟨s, d, rfl, h, rfl⟩))))

end Rampack.Input
