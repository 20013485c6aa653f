import Verif.Frontend.InputRuns
/-
What the matchers of runs and of the whole input read.
-/
namespace Rampack.Input

open Pyon Pyon.Spec Rampack.Input.Spec

variable {X α : Type} {conv : ℚ → Option ℝ}

theorem every_default {k : Nat} (hk : 0 < k) : notNullEvery.run (.int k) = .matched (.value (.size k) : Any ℝ (Value X)) :=
  (count_reads _ _).mpr ⟨k, ⟨rfl, hk⟩, rfl⟩

theorem out_default : out.toMatcher.run .none = .matched (.value (.optText none) : Any ℝ (Value X)) := (out_reads _ _).mpr ⟨none, rfl, rfl⟩

theorem listOf_nil {R : Node ℝ → α → Prop} : ListOf R (.array []) [] := ⟨[], rfl, .nil⟩

/-- The environment of a run, with the rest of its arguments. -/
theorem isEnvironment_iff {t p m b : Node ℝ} {e : Env} : IsEnvironment t p m b e ↔
    Maybe IsParam t e.temperature ∧ Maybe IsParam p e.pressure ∧ ((m = .none ∧ e.samplers = []) ∨ (e.samplers ≠ [] ∧ ListOf IsSampler m e.samplers)) ∧
      IsScaling b e.scaler :=
  ⟨fun ⟨h1, h2, h3, h4⟩ => ⟨h1, h2, h3, h4⟩, fun ⟨h1, h2, h3, h4⟩ => ⟨h1, h2, h3, h4⟩⟩

theorem satisfied_four {β : Type} {f g h k : β → Except String Bool} {a : β} :
    Satisfied [f, g, h, k] a ↔ f a = .ok true ∧ g a = .ok true ∧ h a = .ok true ∧ k a = .ok true := by simp [Satisfied]

theorem satisfied_two {β : Type} {f g : β → Except String Bool} {a : β} : Satisfied [f, g] a ↔ f a = .ok true ∧ g a = .ok true := by simp [Satisfied]

/-- The values of the arguments of `integration`. -/
def integrationValues (r : IntegrationRun X) : List (Any ℝ (Value X)) :=
  [.value (.text r.runName), .value (.optSize r.thermalizationCycles), .value (.optSize r.averagingCycles), .value (.size r.snapshotEvery),
    .value (.param r.environment.temperature), .value (.param r.environment.pressure), .value (.samplers r.environment.samplers),
    .value (scalingValue r.environment.scaler), .value (.size r.averagingEvery), .value (.size r.inlineInfoEvery), .value (.size r.orientationFixEvery),
    .value (.writers r.lastSnapshotWriters), .value (.recorders r.simulationRecorders), .value (.optText r.averagesOut), .value (.objects r.observables),
    .value (.optText r.observablesOut), .value (.objects r.bulkObservables), .value (.optText r.bulkObservablesOutPattern)]

theorem integration_make (r : IntegrationRun X) : makeIntegration ⟨pairs integrationSignature (integrationValues r), [], []⟩ =
    .ok (.run (.integration { r with ramsnapOut := fetchRamsnap r.lastSnapshotWriters, ramtrjOut := fetchRamtrj r.simulationRecorders })) := by
  unfold makeIntegration integrationSignature integrationValues
  rw [createEnvironment_eq (t := r.environment.temperature) (p := r.environment.pressure) (l := r.environment.samplers) (s := r.environment.scaler)
    (by eval_class) (by eval_class) (by eval_class) (by eval_class)]
  eval_class

theorem integration_filters (r : IntegrationRun X) :
    Satisfied [hasPhase, hasAveragingEvery, averagesNeedAveraging, bulkNeedsPattern] (⟨pairs integrationSignature (integrationValues r), [], []⟩ : ClassData ℝ (Value X)) ↔
      Consistent r := by
  rw [satisfied_four]
  unfold hasPhase hasAveragingEvery averagesNeedAveraging bulkNeedsPattern integrationSignature integrationValues
  eval_class
  have h : Consistent r ↔ (r.thermalizationCycles ≠ none ∨ r.averagingCycles ≠ none) ∧ (r.averagingCycles ≠ none → 0 < r.averagingEvery) ∧
      (r.averagesOut ≠ none ∨ r.bulkObservables ≠ [] → r.averagingCycles ≠ none) ∧ (r.bulkObservables ≠ [] → r.bulkObservablesOutPattern ≠ none) :=
    ⟨fun ⟨h1, h2, h3, h4⟩ => ⟨h1, h2, h3, h4⟩, fun ⟨h1, h2, h3, h4⟩ => ⟨h1, h2, h3, h4⟩⟩
  rw [h]
  generalize r.thermalizationCycles = t
  generalize r.averagingCycles = av
  generalize r.averagesOut = ao
  generalize r.bulkObservables = b
  generalize r.bulkObservablesOutPattern = pt
  generalize r.averagingEvery = e
  cases t <;> cases av <;> cases ao <;> cases b <;> cases pt <;> simp

/-- The class of integration runs. -/
theorem integration_reads (hconv : Rampack.Spec.RoundsIntegers conv) {P : Parts X} (hP : Parts.Ok P) : ∃ c, createIntegration conv P = .ok c ∧
    c.name = "integration".toList ∧ Interprets c.toMatcher (IsIntegration P) (fun r => .run (.integration r)) := by
  obtain ⟨mt, mm, mb, ⟨rt, rm, rb⟩, dt, dm, db, ee⟩ := environmentArguments_eq (X := X) hconv
  obtain ⟨ml, el, rl⟩ := lastSnapshot_reads (X := X) hconv
  obtain ⟨mr, er, rr⟩ := recordTrajectory_reads (X := X)
  have ro := observables_reads hP.observable
  have rbulk := observables_reads hP.bulkObservable
  have d0 : nullableEvery.run (.int 0) = .matched (.value (.size 0) : Any ℝ (Value X)) := (wrapped_reads _ _).mpr ⟨0, .inl rfl, rfl⟩
  have d1 := every_default (X := X) (k := 100) (by decide)
  have d2 := every_default (X := X) (k := 10000) (by decide)
  have d3 : ml.run (.array []) = .matched (.value (.writers [])) := (rl _ _).mpr ⟨[], listOf_nil, rfl⟩
  have d4 : mr.run (.array []) = .matched (.value (.recorders [])) := (rr _ _).mpr ⟨[], listOf_nil, rfl⟩
  have d5 := out_default (X := X)
  have d6 : (observables P.observable).run (.array []) = .matched (.value (.objects [])) := (ro _ _).mpr ⟨[], listOf_nil, rfl⟩
  have d7 : (observables P.bulkObservable).run (.array []) = .matched (.value (.objects [])) := (rbulk _ _).mpr ⟨[], listOf_nil, rfl⟩
  refine ⟨_, by
    rw [createIntegration, ee, Outcome.ok_bind, el, Outcome.ok_bind, er, Outcome.ok_bind, optional_ok (parse_0 hconv) d0, Outcome.ok_bind,
      optional_ok (parse_100 hconv) d1, Outcome.ok_bind, optional_ok (parse_10000 hconv) d2, Outcome.ok_bind, optional_ok (parse_empty hconv) d3, Outcome.ok_bind,
      optional_ok (parse_empty hconv) d4, Outcome.ok_bind, optional_ok (parse_none hconv) d5, Outcome.ok_bind, optional_ok (parse_empty hconv) d6, Outcome.ok_bind,
      optional_ok (parse_none hconv) d5, Outcome.ok_bind, optional_ok (parse_empty hconv) d7, Outcome.ok_bind, optional_ok (parse_none hconv) d5, Outcome.ok_bind]
    rfl, rfl, fun n v => ?_⟩
  rw [class_run (sig := integrationSignature)
    (.required (.required (.required (.required (.optional dt (.optional dt (.optional dm (.optional db (.optional d0 (.optional d1 (.optional d2
      (.optional d3 (.optional d4 (.optional d5 (.optional d6 (.optional d5 (.optional d7 (.optional d5 .nil))))))))))))))))))
    rfl (by decide) rfl rfl]
  simp only [exists_read runName_reads, exists_read cycles_reads, exists_read (m := notNullEvery) count_reads, exists_read rt, exists_read rm, exists_read rb,
    exists_read (m := nullableEvery) wrapped_reads, exists_read rl, exists_read rr, exists_read out_reads, exists_read ro, exists_read rbulk, exists_unread,
    ClassMatcher.mapTo]
  constructor
  · rintro ⟨a1, x1, g1, a2, x2, g2, a3, x3, g3, a4, x4, g4, a5, x5, g5, a6, x6, g6, a7, x7, g7, a8, x8, g8, a9, x9, g9, a10, x10, g10, a11, x11, g11, a12, x12, g12,
      a13, x13, g13, a14, x14, g14, a15, x15, g15, a16, x16, g16, a17, x17, g17, a18, x18, g18, hc, hf, hm⟩
    have hf' := (integration_filters ⟨x1, ⟨x5, x6, x7, x8⟩, x2, x3, x4, x9, x10, x11, x12, fetchRamsnap x12, x13, fetchRamtrj x13, x15, x17, x14, x16, x18⟩).mp hf
    have hm' := integration_make (⟨x1, ⟨x5, x6, x7, x8⟩, x2, x3, x4, x9, x10, x11, x12, fetchRamsnap x12, x13, fetchRamtrj x13, x15, x17, x14, x16, x18⟩ :
      IntegrationRun X)
    have hv := hm.symm.trans (congrArg (Except.map Any.value) hm')
    cases hv
    exact ⟨_, ⟨hc, g1.1, g1.2, g2, g3, g4, ⟨g5, g6, g7, g8⟩, g9, g10, g11, g12, fetchRamsnap_iff.mp rfl, g13, fetchRamtrj_iff.mp rfl, g14, g15, g16, g17, g18, hf'⟩, rfl⟩
  · rintro ⟨⟨x1, ⟨x5, x6, x7, x8⟩, x2, x3, x4, x9, x10, x11, x12, y1, x13, y2, x15, x17, x14, x16, x18⟩,
      ⟨hc, g1, g1', g2, g3, g4, ⟨g5, g6, g7, g8⟩, g9, g10, g11, g12, e1, g13, e2, g14, g15, g16, g17, g18, hf⟩, rfl⟩
    obtain rfl : fetchRamsnap x12 = y1 := fetchRamsnap_iff.mpr e1
    obtain rfl : fetchRamtrj x13 = y2 := fetchRamtrj_iff.mpr e2
    have hm := congrArg (Except.map (Any.value (F := ℝ))) (integration_make (⟨x1, ⟨x5, x6, x7, x8⟩, x2, x3, x4, x9, x10, x11, x12, fetchRamsnap x12, x13, fetchRamtrj x13, x15, x17, x14,
      x16, x18⟩ : IntegrationRun X))
    have hf := (integration_filters _).mpr hf
    exact ⟨_, x1, ⟨g1, g1'⟩, _, x2, g2, _, x3, g3, _, x4, g4, _, x5, g5, _, x6, g6, _, x7, g7, _, x8, g8, _, x9, g9, _, x10, g10, _, x11, g11, _, x12, g12,
      _, x13, g13, _, x14, g14, _, x15, g15, _, x16, g16, _, x17, g17, _, x18, g18, hc, hf, hm⟩

/-- The values of the arguments of `overlap_relaxation`. -/
def relaxationValues (r : RelaxationRun X) : List (Any ℝ (Value X)) :=
  [.value (.text r.runName), .value (.size r.snapshotEvery), .value (.param r.environment.temperature), .value (.param r.environment.pressure),
    .value (.samplers r.environment.samplers), .value (scalingValue r.environment.scaler), .value (.size r.inlineInfoEvery),
    .value (.size r.orientationFixEvery), .value (.shape r.helperShape), .value (.writers r.lastSnapshotWriters), .value (.recorders r.simulationRecorders),
    .value (.objects r.observables), .value (.optText r.observablesOut)]

theorem relaxation_make (r : RelaxationRun X) : makeRelaxation ⟨pairs relaxationSignature (relaxationValues r), [], []⟩ =
    .ok (.run (.relaxation { r with ramsnapOut := fetchRamsnap r.lastSnapshotWriters, ramtrjOut := fetchRamtrj r.simulationRecorders })) := by
  unfold makeRelaxation relaxationSignature relaxationValues
  rw [createEnvironment_eq (t := r.environment.temperature) (p := r.environment.pressure) (l := r.environment.samplers) (s := r.environment.scaler)
    (by eval_class) (by eval_class) (by eval_class) (by eval_class)]
  eval_class

/-- The class of overlap relaxation runs. -/
theorem relaxation_reads (hconv : Rampack.Spec.RoundsIntegers conv) {P : Parts X} (hP : Parts.Ok P) : ∃ c, createRelaxation conv P = .ok c ∧
    c.name = "overlap_relaxation".toList ∧ Interprets c.toMatcher (IsRelaxation P) (fun r => .run (.relaxation r)) := by
  obtain ⟨mt, mm, mb, ⟨rt, rm, rb⟩, dt, dm, db, ee⟩ := environmentArguments_eq (X := X) hconv
  obtain ⟨ml, el, rl⟩ := lastSnapshot_reads (X := X) hconv
  obtain ⟨mr, er, rr⟩ := recordTrajectory_reads (X := X)
  have ro := observables_reads hP.observable
  have rh := helper_reads hP
  have d1 := every_default (X := X) (k := 100) (by decide)
  have d2 := every_default (X := X) (k := 10000) (by decide)
  have d3 : ml.run (.array []) = .matched (.value (.writers [])) := (rl _ _).mpr ⟨[], listOf_nil, rfl⟩
  have d4 : mr.run (.array []) = .matched (.value (.recorders [])) := (rr _ _).mpr ⟨[], listOf_nil, rfl⟩
  have d5 := out_default (X := X)
  have d6 : (observables P.observable).run (.array []) = .matched (.value (.objects [])) := (ro _ _).mpr ⟨[], listOf_nil, rfl⟩
  have d7 : (Choice.join P.shape (.other (matcherNone (.ok (.value (.shape none)))))).toMatcher.run .none = .matched (.value (.shape none)) :=
    (rh _ _).mpr ⟨none, rfl, rfl⟩
  refine ⟨_, by
    rw [createRelaxation, ee, Outcome.ok_bind, el, Outcome.ok_bind, er, Outcome.ok_bind,
      optional_ok (parse_100 hconv) d1, Outcome.ok_bind, optional_ok (parse_10000 hconv) d2, Outcome.ok_bind, optional_ok (parse_none hconv) d7, Outcome.ok_bind,
      optional_ok (parse_empty hconv) d3, Outcome.ok_bind, optional_ok (parse_empty hconv) d4, Outcome.ok_bind, optional_ok (parse_empty hconv) d6, Outcome.ok_bind,
      optional_ok (parse_none hconv) d5, Outcome.ok_bind]
    rfl, rfl, fun n v => ?_⟩
  rw [class_run (sig := relaxationSignature)
    (.required (.required (.optional dt (.optional dt (.optional dm (.optional db (.optional d1 (.optional d2 (.optional d7
      (.optional d3 (.optional d4 (.optional d6 (.optional d5 .nil)))))))))))))
    rfl (by decide) rfl rfl]
  simp only [exists_read runName_reads, exists_read (m := notNullEvery) count_reads, exists_read rt, exists_read rm, exists_read rb, exists_read rh,
    exists_read rl, exists_read rr, exists_read out_reads, exists_read ro, exists_unread, ClassMatcher.mapTo]
  constructor
  · rintro ⟨a1, x1, g1, a4, x4, g4, a5, x5, g5, a6, x6, g6, a7, x7, g7, a8, x8, g8, a10, x10, g10, a11, x11, g11, a9, x9, g9, a12, x12, g12,
      a13, x13, g13, a15, x15, g15, a16, x16, g16, hc, hf, hm⟩
    have hm' := relaxation_make (⟨x1, ⟨x5, x6, x7, x8⟩, x4, x10, x11, x9, x12, fetchRamsnap x12, x13, fetchRamtrj x13, x15, x16⟩ : RelaxationRun X)
    have hv := hm.symm.trans (congrArg (Except.map Any.value) hm')
    cases hv
    exact ⟨_, ⟨hc, g1.1, g1.2, g4, ⟨g5, g6, g7, g8⟩, g10, g11, g9, g12, fetchRamsnap_iff.mp rfl, g13, fetchRamtrj_iff.mp rfl, g15, g16⟩, rfl⟩
  · rintro ⟨⟨x1, ⟨x5, x6, x7, x8⟩, x4, x10, x11, x9, x12, y1, x13, y2, x15, x16⟩,
      ⟨hc, g1, g1', g4, ⟨g5, g6, g7, g8⟩, g10, g11, g9, g12, e1, g13, e2, g15, g16⟩, rfl⟩
    obtain rfl : fetchRamsnap x12 = y1 := fetchRamsnap_iff.mpr e1
    obtain rfl : fetchRamtrj x13 = y2 := fetchRamtrj_iff.mpr e2
    have hm := congrArg (Except.map (Any.value (F := ℝ))) (relaxation_make (⟨x1, ⟨x5, x6, x7, x8⟩, x4, x10, x11, x9, x12, fetchRamsnap x12, x13, fetchRamtrj x13, x15, x16⟩ : RelaxationRun X))
    exact ⟨_, x1, ⟨g1, g1'⟩, _, x4, g4, _, x5, g5, _, x6, g6, _, x7, g7, _, x8, g8, _, x10, g10, _, x11, g11, _, x9, g9, _, x12, g12,
      _, x13, g13, _, x15, g15, _, x16, g16, hc, by simp [Satisfied], hm⟩

/-- The matcher of `runs`. -/
theorem runs_reads (hconv : Rampack.Spec.RoundsIntegers conv) {P : Parts X} (hP : Parts.Ok P) : ∃ m, createRuns conv P = .ok m ∧
    Interprets m (fun n l => ListOf (IsRun P) n l ∧ l ≠ []) .runs := by
  obtain ⟨c1, e1, n1, r1⟩ := integration_reads hconv hP
  obtain ⟨c2, e2, n2, r2⟩ := relaxation_reads hconv hP
  have hw : Interprets (Choice.join (.dataclass c1) (.dataclass c2)).toMatcher (IsRun P) .run := by
    intro n v
    refine Iff.trans (alternative_reads (heads := ["integration", "overlap_relaxation"].map (fun s => Head.named s.toList)) (by exact ⟨trivial, trivial⟩)
      (by exact .cons (takes_class n1) (.cons (takes_class n2) .nil)) (heads_nodup (by decide))) ?_
    simp only [options, List.cons_append, List.nil_append, List.mem_cons, List.not_mem_nil, or_false, exists_eq_or_imp, exists_eq_left, r1 n v, r2 n v]
    constructor
    · rintro (⟨r, h, rfl⟩ | ⟨r, h, rfl⟩)
      · exact ⟨_, .integration h, rfl⟩
      · exact ⟨_, .relaxation h, rfl⟩
    · rintro ⟨r, h, rfl⟩
      cases h with
      | integration h => exact .inl ⟨_, h, rfl⟩
      | relaxation h => exact .inr ⟨_, h, rfl⟩
  refine ⟨_, by rw [createRuns, e1, e2]; rfl, ?_⟩
  exact vector_reads hw (as := asRun) (fun x => rfl) (filters := [arrayNonEmpty]) (P := fun l => l ≠ []) (by intro l; simp [satisfied_one, arrayNonEmpty])

/-- The values of the arguments of `rampack`. -/
def rampackValues (p : Parameters X) : List (Any ℝ (Value X)) :=
  [.value (.version p.version), .value (.object p.arrangement), .value (.shape (some p.shape)), .value (.size p.seed), .value (.runs p.runs),
    .value (.param p.environment.temperature), .value (.param p.environment.pressure), .value (.samplers p.environment.samplers),
    .value (scalingValue p.environment.scaler), .value (.flags p.walls), .value (.size p.scalingThreads), .value (.sizes p.domainDivisions),
    .value (.flag p.saveOnSignal)]

theorem rampack_make (p : Parameters X) : makeParameters ⟨pairs rampackSignature (rampackValues p), [], []⟩ = .ok (.parameters p) := by
  unfold makeParameters rampackSignature rampackValues
  rw [createEnvironment_eq (t := p.environment.temperature) (p := p.environment.pressure) (l := p.environment.samplers) (s := p.environment.scaler)
    (by eval_class) (by eval_class) (by eval_class) (by eval_class)]
  eval_class
  rfl

theorem rampack_filters (p : Parameters X) (hr : p.runs ≠ []) :
    Satisfied [uniqueNames, firstComplete] (⟨pairs rampackSignature (rampackValues p), [], []⟩ : ClassData ℝ (Value X)) ↔
      (p.runs.map Run.name).Nodup ∧ ∃ r, p.runs.head? = some r ∧ (p.environment.combine r.environment).isComplete = true := by
  rw [satisfied_two]
  unfold uniqueNames firstComplete rampackSignature rampackValues
  rw [createEnvironment_eq (t := p.environment.temperature) (p := p.environment.pressure) (l := p.environment.samplers) (s := p.environment.scaler)
    (by eval_class) (by eval_class) (by eval_class) (by eval_class)]
  eval_class
  rw [decide_eq_true_eq]
  cases h : p.runs with
  | nil => exact absurd h hr
  | cons r l => simp

/-- The class of the whole input. -/
theorem rampack_reads (hconv : Rampack.Spec.RoundsIntegers conv) {P : Parts X} (hP : Parts.Ok P) (maxThreads : Nat) :
    ∃ c, createRampack conv maxThreads P = .ok c ∧ Interprets c.toMatcher (IsInput P maxThreads) .parameters := by
  obtain ⟨mt, mm, mb, ⟨rt, rm, rb⟩, dt, dm, db, ee⟩ := environmentArguments_eq (X := X) hconv
  obtain ⟨mr, er, rr⟩ := runs_reads hconv hP
  have rs := shape_reads hP
  have ra := observable_reads hP.arrangement
  have d1 : walls.run (.array [.boolean false, .boolean false, .boolean false]) = .matched (.value (.flags [false, false, false]) : Any ℝ (Value X)) :=
    (walls_reads _ _).mpr ⟨_, ⟨⟨_, rfl, .cons rfl (.cons rfl (.cons rfl .nil))⟩, rfl⟩, rfl⟩
  have d2 : (boxMoveThreads maxThreads).toMatcher.run (.int 1) = .matched (.value (.size 1) : Any ℝ (Value X)) :=
    (threads_reads _ _).mpr ⟨1, .inr ⟨rfl, by decide⟩, rfl⟩
  have d3 : domainDivisions.run (.array [.int 1, .int 1, .int 1]) = .matched (.value (.sizes [1, 1, 1]) : Any ℝ (Value X)) :=
    (domainDivisions_reads _ _).mpr ⟨_, ⟨⟨_, rfl, .cons ⟨rfl, by decide⟩ (.cons ⟨rfl, by decide⟩ (.cons ⟨rfl, by decide⟩ .nil))⟩, rfl⟩, rfl⟩
  have d4 : boolean.run (.boolean true) = .matched (.value (.flag true) : Any ℝ (Value X)) := (boolean_reads _ _).mpr ⟨true, rfl, rfl⟩
  refine ⟨_, by
    rw [createRampack, er, Outcome.ok_bind, ee, Outcome.ok_bind, optional_ok (parse_falses hconv) d1, Outcome.ok_bind, optional_ok (parse_1 hconv) d2, Outcome.ok_bind,
      optional_ok (parse_ones hconv) d3, Outcome.ok_bind, optional_ok (parse_true hconv) d4, Outcome.ok_bind]
    rfl, fun n v => ?_⟩
  rw [class_run (name := "rampack") (sig := rampackSignature)
    (.required (.required (.required (.required (.required (.optional dt (.optional dt (.optional dm (.optional db (.optional d1 (.optional d2 (.optional d3
      (.optional d4 .nil)))))))))))))
    rfl (by decide) rfl rfl]
  simp only [exists_read version_reads, exists_read ra, exists_read rs, exists_read wrapped_reads, exists_read rr, exists_read rt, exists_read rm, exists_read rb,
    exists_read walls_reads, exists_read threads_reads, exists_read domainDivisions_reads, exists_read boolean_reads, exists_unread, ClassMatcher.mapTo]
  constructor
  · rintro ⟨a1, x1, g1, a2, x2, g2, a3, x3, g3, a4, x4, g4, a5, x5, g5, a6, x6, g6, a7, x7, g7, a8, x8, g8, a9, x9, g9, a10, x10, g10, a11, x11, g11, a12, x12, g12,
      a13, x13, g13, hc, hf, hm⟩
    have hf' := (rampack_filters ⟨x1, x2, ⟨x6, x7, x8, x9⟩, x4, x3, x10, x11, x12, x13, x5⟩ g5.2).mp hf
    have hm' := rampack_make (⟨x1, x2, ⟨x6, x7, x8, x9⟩, x4, x3, x10, x11, x12, x13, x5⟩ : Parameters X)
    have hv := hm.symm.trans (congrArg (Except.map Any.value) hm')
    cases hv
    exact ⟨_, ⟨hc, g1, g2, g3, g4, g5.1, ⟨g6, g7, g8, g9⟩, g10.1, g10.2, g11, g12.1, g12.2, g13, hf'.1, hf'.2⟩, rfl⟩
  · rintro ⟨⟨x1, x2, ⟨x6, x7, x8, x9⟩, x4, x3, x10, x11, x12, x13, x5⟩, ⟨hc, g1, g2, g3, g4, g5, ⟨g6, g7, g8, g9⟩, g10, g10', g11, g12, g12', g13, hf, hf'⟩, rfl⟩
    have hne : x5 ≠ [] := by
      obtain ⟨r, h, -⟩ := hf'
      rintro rfl
      cases h
    have hm := congrArg (Except.map (Any.value (F := ℝ))) (rampack_make (⟨x1, x2, ⟨x6, x7, x8, x9⟩, x4, x3, x10, x11, x12, x13, x5⟩ : Parameters X))
    have hf := (rampack_filters _ hne).mpr ⟨hf, hf'⟩
    exact ⟨_, x1, g1, _, x2, g2, _, x3, g3, _, x4, g4, _, x5, ⟨g5, hne⟩, _, x6, g6, _, x7, g7, _, x8, g8, _, x9, g9, _, x10, ⟨g10, g10'⟩, _, x11, g11,
      _, x12, ⟨g12, g12'⟩, _, x13, g13, hc, hf, hm⟩

end Rampack.Input
