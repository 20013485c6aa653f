import Verif.Frontend.InputFiles
import Verif.Utils.VersionProps
/-
What the matchers of environments, runs and the whole input read.
-/
namespace Rampack.Input

open Pyon Pyon.Spec Rampack.Input.Spec

variable {X α : Type} {conv : ℚ → Option ℝ}

/-! ### Single arguments -/

theorem runName_reads : Interprets (X := X) runName (fun n s => n = .string s ∧ IsName s) .text := by
  intro n v
  unfold runName
  rw [string_run]
  have hc : ∀ c, isNameChar c = true ↔ ('a' ≤ c ∧ c ≤ 'z') ∨ ('A' ≤ c ∧ c ≤ 'Z') ∨ ('0' ≤ c ∧ c ≤ '9') ∨ c = '_' := by
    intro c
    unfold isNameChar
    simp only [Bool.or_eq_true, Bool.and_eq_true, decide_eq_true_eq, beq_iff_eq, or_assoc]
  have hs : ∀ s, Satisfied [textNonEmpty, fun s => .ok (s.all isNameChar)] s ↔ IsName s := by
    intro s
    simp only [Satisfied, List.mem_cons, List.not_mem_nil, or_false, forall_eq_or_imp, forall_eq, textNonEmpty, Except.ok.injEq, Bool.not_eq_true',
      List.isEmpty_eq_false_iff, List.all_eq_true, hc, IsName]
  simp only [hs, Except.ok.injEq, and_assoc]
  constructor
  · rintro ⟨s, h1, h2, h3⟩
    exact ⟨s, h1, h2, h3.symm⟩
  · rintro ⟨s, h1, h2, h3⟩
    exact ⟨s, h1, h2, h3.symm⟩

theorem cycles_reads : Interprets (X := X) cycles.toMatcher (Maybe IsCount) .optSize := by
  intro n v
  unfold cycles
  refine Iff.trans (alternative_reads (heads := [.number, .none]) (by exact ⟨sound_int, sound_none⟩) (by exact .cons takes_int (.cons takes_none .nil)) (by simp)) ?_
  simp only [options, List.cons_append, List.nil_append, List.mem_cons, List.not_mem_nil, or_false, exists_eq_or_imp, exists_eq_left,
    count_run (g := fun k => .optSize (some k)), none_run, Except.ok.injEq]
  constructor
  · rintro (⟨x, h1, rfl⟩ | ⟨h1, rfl⟩)
    · exact ⟨some x, h1, rfl⟩
    · exact ⟨none, h1, rfl⟩
  · rintro ⟨_ | x, h, rfl⟩
    · exact .inr ⟨h, rfl⟩
    · exact .inl ⟨x, h, rfl⟩

theorem out_reads : Interprets (X := X) out.toMatcher (Maybe IsText) .optText := by
  intro n v
  unfold out
  refine Iff.trans (alternative_reads (heads := [.string, .none]) (by exact ⟨sound_string, sound_none⟩) (by exact .cons takes_string (.cons takes_none .nil)) (by simp)) ?_
  simp only [options, List.cons_append, List.nil_append, List.mem_cons, List.not_mem_nil, or_false, exists_eq_or_imp, exists_eq_left,
    text_run (g := fun k => .optText (some k)), none_run, Except.ok.injEq]
  constructor
  · rintro (⟨x, h1, rfl⟩ | ⟨h1, rfl⟩)
    · exact ⟨some x, h1, rfl⟩
    · exact ⟨none, h1, rfl⟩
  · rintro ⟨_ | x, h, rfl⟩
    · exact .inr ⟨h, rfl⟩
    · exact .inl ⟨x, h, rfl⟩

theorem threads_reads {k : Nat} : Interprets (X := X) (boxMoveThreads k).toMatcher (IsThreads k) .size := by
  intro n v
  unfold boxMoveThreads
  refine Iff.trans (alternative_reads (heads := [.string, .number]) (by exact ⟨sound_string, sound_int⟩) (by exact .cons takes_string (.cons takes_int .nil)) (by simp)) ?_
  simp only [options, List.cons_append, List.nil_append, List.mem_cons, List.not_mem_nil, or_false, exists_eq_or_imp, exists_eq_left,
    count_reads n v, string_run, satisfied_one, Except.ok.injEq, decide_eq_true_eq]
  constructor
  · rintro (⟨s, rfl, rfl, rfl⟩ | ⟨x, h1, rfl⟩)
    · exact ⟨k, .inl ⟨rfl, rfl⟩, rfl⟩
    · exact ⟨x, .inr h1, rfl⟩
  · rintro ⟨x, ⟨rfl, rfl⟩ | h, rfl⟩
    · exact .inl ⟨_, rfl, rfl, rfl⟩
    · exact .inr ⟨x, h, rfl⟩

theorem domainDivisions_reads : Interprets (X := X) domainDivisions (fun n l => ListOf IsCount n l ∧ l.length = 3) .sizes :=
  vector_reads count_reads (as := asSize) (fun x => rfl) (filters := [arraySize 3]) (P := fun l => l.length = 3)
    (by intro l; simp [satisfied_one, arraySize])

theorem walls_reads : Interprets (X := X) walls (fun n l => ListOf (fun n b => n = .boolean b) n l ∧ l.length = 3) .flags :=
  vector_reads boolean_reads (as := asFlag) (fun x => rfl) (filters := [arraySize 3]) (P := fun l => l.length = 3)
    (by intro l; simp [satisfied_one, arraySize])

theorem notAfter_iff {a b : Version} : NotAfter a b ↔ Version.le a b = true := by
  have h := C48_order a b b
  rw [h.2.2.2.2.1, h.1, Version.ext_iff]
  unfold NotAfter
  omega

theorem version_reads : Interprets (X := X) version IsVersion .version := by
  intro n v
  unfold version
  rw [string_run]
  have hge : ∀ a b : Version, Version.ge a b = true ↔ Version.le b a = true := by
    intro a b
    rw [(C48_order a b b).2.2.2.2.2.1, (C48_order a b b).2.2.2.1, (C48_order b a a).2.2.2.2.1]
    exact or_congr_right eq_comm
  constructor
  · rintro ⟨s, rfl, h1, h2⟩
    simp only [Satisfied, List.mem_cons, List.not_mem_nil, or_false, forall_eq_or_imp, forall_eq] at h1
    obtain ⟨w, hw⟩ : ∃ w, Version.parse s = .ok w := by
      cases h : Version.parse s with
      | ok w => exact ⟨w, rfl⟩
      | _ => rw [h] at h2; cases h2
    rw [hw] at h2
    have h3 := h1.2
    unfold isSupported at h3
    rw [hw, construct_ok, ok_bind', ok_pure'] at h3
    injection h3 with h3
    rw [Bool.and_eq_true, hge] at h3
    cases h2
    exact ⟨w, ⟨s, rfl, hw, notAfter_iff.mpr h3.1, notAfter_iff.mpr h3.2⟩, rfl⟩
  · rintro ⟨w, ⟨s, rfl, hw, h1, h2⟩, rfl⟩
    refine ⟨s, rfl, ?_, by rw [hw]; rfl⟩
    simp only [Satisfied, List.mem_cons, List.not_mem_nil, or_false, forall_eq_or_imp, forall_eq]
    refine ⟨by rw [isVersion, hw], ?_⟩
    unfold isSupported
    rw [hw, construct_ok, ok_bind', ok_pure']
    congr 1
    rw [Bool.and_eq_true, hge]
    exact ⟨notAfter_iff.mp h1, notAfter_iff.mp h2⟩

theorem observable_reads {m : Matcher ℝ (Value X)} (h : ∀ n v, m.run n = .matched v → ∃ x, v = .value (.object x)) : Interprets m (Reads m) .object := by
  intro n v
  unfold Reads
  constructor
  · intro hv
    obtain ⟨x, rfl⟩ := h n v hv
    exact ⟨x, hv, rfl⟩
  · rintro ⟨x, hx, rfl⟩
    exact hx

theorem observables_reads {m : Matcher ℝ (Value X)} (h : ∀ n v, m.run n = .matched v → ∃ x, v = .value (.object x)) :
    Interprets (observables m) (ListOf (Reads m)) .objects :=
  (vector_reads (observable_reads h) (as := asObject) (fun x => rfl) (filters := []) (P := fun _ => True) (by simp [Satisfied])).congr (by simp)

theorem shape_reads {P : Parts X} (hP : Parts.Ok P) : Interprets P.shape.toMatcher (ReadsShape P.shape) (fun x => .shape (some x)) := by
  intro n v
  unfold ReadsShape
  constructor
  · intro hv
    obtain ⟨x, rfl⟩ := hP.shape n v hv
    exact ⟨x, hv, rfl⟩
  · rintro ⟨x, hx, rfl⟩
    exact hx

theorem first_options {c : Choice ℝ (Value X)} (hs : Sound c) {n : Node ℝ} {v : Any ℝ (Value X)} :
    First (options c) n (.matched v) ↔ c.toMatcher.run n = .matched v := by
  cases c with
  | join l r => rw [(C79_first_partial hs).1]
  | dataclass c =>
    rw [options, first_cons (by simp)]
    simp only [First, List.append_eq_nil_iff, reduceCtorEq, List.nil_eq, and_false, false_and, exists_false, or_false]
    rfl
  | other m =>
    rw [options, first_cons (by simp)]
    simp only [First, List.append_eq_nil_iff, reduceCtorEq, List.nil_eq, and_false, false_and, exists_false, or_false]
    rfl

theorem helper_reads {P : Parts X} (hP : Parts.Ok P) :
    Interprets (Choice.join P.shape (.other (matcherNone (.ok (.value (.shape none)))))).toMatcher (Maybe (ReadsShape P.shape)) .shape := by
  intro n v
  rw [(C79_first_partial (show Sound (.join _ _) from ⟨hP.sound, sound_none⟩)).1, options, first_append (by simp), first_options hP.sound, shape_reads hP n v, options,
    first_cons (by simp)]
  simp only [none_run]
  constructor
  · rintro (⟨x, h, rfl⟩ | ⟨-, ⟨rfl, h⟩ | ⟨-, p, m, s, h, -⟩⟩)
    · exact ⟨some x, h, rfl⟩
    · cases h
      exact ⟨none, rfl, rfl⟩
    · simp at h
  · rintro ⟨_ | x, h, rfl⟩
    · cases h
      exact .inr ⟨fun m hm => hP.notNone m hm, .inl ⟨rfl, rfl⟩⟩
    · exact .inl ⟨x, h, rfl⟩

/-! ### Environments -/

theorem setParameters_eq (t p : Option Param) (l : List Sampler) : setParameters t p l = .ok ⟨t, p, l, .unset⟩ := by
  unfold setParameters
  have h : ∀ e : Env, e.samplers = [] → (if l ≠ [] then e.setMoveSamplers (l.map some) else .ok e) = .ok { e with samplers := l } := by
    intro e he
    by_cases hl : l = []
    · subst hl
      rw [if_neg (by simp), ← he]
    · rw [if_pos hl, (C29_setters e).2.2.1 l hl]
  cases t <;> cases p <;> exact h _ rfl

theorem setScaler_eq {t p : Option Param} {l : List Sampler} (s : ScalerStatus) : setScaler (X := X) ⟨t, p, l, .unset⟩ (.value (scalingValue s)) = .ok ⟨t, p, l, s⟩ := by
  cases s <;> rfl

/-- Data with known items of an environment. -/
theorem createEnvironment_eq {d : ClassData ℝ (Value X)} {t p : Option Param} {l : List Sampler} {s : ScalerStatus}
    (h1 : get d "temperature" = .ok (.value (.param t))) (h2 : get d "pressure" = .ok (.value (.param p)))
    (h3 : get d "move_types" = .ok (.value (.samplers l))) (h4 : get d "box_move_type" = .ok (.value (scalingValue s))) :
    createEnvironment d = .ok ⟨t, p, l, s⟩ := by
  unfold createEnvironment
  rw [h1, h2, h3, h4]
  simp only [ok_bind', asParam, asSamplers, setParameters_eq, construct_ok, setScaler_eq]

/-- The matchers of an environment. -/
structure EnvMatchers (t m b : Matcher ℝ (Value X)) : Prop where
  param : Interprets t (Maybe IsParam) .param
  moves : Interprets m (fun n l => (n = .none ∧ l = []) ∨ (l ≠ [] ∧ ListOf IsSampler n l)) .samplers
  box : Interprets b IsScaling scalingValue

theorem environmentArguments_eq (hconv : Rampack.Spec.RoundsIntegers conv) : ∃ t m b : Matcher ℝ (Value X), EnvMatchers t m b ∧
    t.run .none = .matched (.value (.param none)) ∧ m.run .none = .matched (.value (.samplers [])) ∧ b.run .none = .matched (.value (.scaler none)) ∧
    environmentArguments conv = .ok [⟨"temperature".toList, some t, some (.value (.param none))⟩, ⟨"pressure".toList, some t, some (.value (.param none))⟩,
      ⟨"move_types".toList, some m, some (.value (.samplers []))⟩, ⟨"box_move_type".toList, some b, some (.value (.scaler none))⟩] := by
  obtain ⟨c1, e1, r1⟩ := dynamic_reads (X := X) hconv
  obtain ⟨c2, e2, r2⟩ := moveTypes_reads (X := X) hconv
  obtain ⟨c3, e3, r3⟩ := boxScaler_reads (X := X) hconv
  have h1 : c1.toMatcher.run .none = .matched (.value (.param none)) := (r1 _ _).mpr ⟨none, rfl, rfl⟩
  have h2 : c2.toMatcher.run .none = .matched (.value (.samplers [])) := (r2 _ _).mpr ⟨[], .inl ⟨rfl, rfl⟩, rfl⟩
  have h3 : c3.toMatcher.run .none = .matched (.value (.scaler none)) := (r3 _ _).mpr ⟨.unset, .unset, rfl⟩
  refine ⟨_, _, _, ⟨r1, r2, r3⟩, h1, h2, h3, ?_⟩
  rw [environmentArguments, e1, Outcome.ok_bind, e2, Outcome.ok_bind, e3, Outcome.ok_bind, optional_ok (parse_none hconv) h1, Outcome.ok_bind,
    optional_ok (parse_none hconv) h1, Outcome.ok_bind, optional_ok (parse_none hconv) h2, Outcome.ok_bind, optional_ok (parse_none hconv) h3, Outcome.ok_bind]
  rfl

/-! ### First files -/

theorem fetchRamsnap_iff {l : List SnapshotOut} {f : Option Text} : fetchRamsnap l = f ↔ FirstRamsnap l f := by
  induction l with
  | nil =>
    rw [fetchRamsnap]
    constructor
    · rintro rfl
      exact .inl ⟨rfl, by simp⟩
    · rintro (⟨rfl, -⟩ | ⟨p, w, s, h, -⟩)
      · rfl
      · simp at h
  | cons w l ih =>
    by_cases hw : w.format = .ramsnap
    · have e : fetchRamsnap (w :: l) = some w.filename := by rw [fetchRamsnap, hw]
      rw [e]
      constructor
      · rintro rfl
        exact .inr ⟨[], w, l, rfl, hw, by simp, rfl⟩
      · rintro (⟨-, h⟩ | ⟨p, v, s, h, h1, h2, rfl⟩)
        · exact absurd hw (h w List.mem_cons_self)
        · cases p with
          | nil => cases h; rfl
          | cons x p =>
            rw [List.cons_append] at h
            injection h with h _
            exact absurd (h ▸ hw) (h2 x List.mem_cons_self)
    · have e : fetchRamsnap (w :: l) = fetchRamsnap l := by
        rw [fetchRamsnap]
        cases hf : w.format with
        | ramsnap => exact absurd hf hw
        | _ => rfl
      rw [e, ih]
      constructor
      · rintro (⟨rfl, h⟩ | ⟨p, v, s, rfl, h1, h2, rfl⟩)
        · exact .inl ⟨rfl, by simpa using ⟨hw, h⟩⟩
        · exact .inr ⟨w :: p, v, s, rfl, h1, by simpa using ⟨hw, h2⟩, rfl⟩
      · rintro (⟨rfl, h⟩ | ⟨p, v, s, h, h1, h2, rfl⟩)
        · exact .inl ⟨rfl, fun v hv => h v (List.mem_cons_of_mem _ hv)⟩
        · cases p with
          | nil => cases h; exact absurd h1 hw
          | cons x p =>
            rw [List.cons_append] at h
            injection h with _ h
            exact .inr ⟨p, v, s, h, h1, fun v hv => h2 v (List.mem_cons_of_mem _ hv), rfl⟩

theorem fetchRamtrj_iff {l : List RecorderOut} {f : Option Text} : fetchRamtrj l = f ↔ FirstRamtrj l f := by
  induction l with
  | nil =>
    rw [fetchRamtrj]
    constructor
    · rintro rfl
      exact .inl ⟨rfl, by simp⟩
    · rintro (⟨rfl, -⟩ | ⟨p, w, s, h, -⟩)
      · rfl
      · simp at h
  | cons w l ih =>
    by_cases hw : w.ramtrj = true
    · rw [fetchRamtrj, if_pos hw]
      constructor
      · rintro rfl
        exact .inr ⟨[], w, l, rfl, hw, by simp, rfl⟩
      · rintro (⟨-, h⟩ | ⟨p, v, s, h, h1, h2, rfl⟩)
        · rw [h w List.mem_cons_self] at hw
          cases hw
        · cases p with
          | nil => cases h; rfl
          | cons x p =>
            rw [List.cons_append] at h
            injection h with h _
            rw [h, h2 x List.mem_cons_self] at hw
            cases hw
    · rw [fetchRamtrj, if_neg hw, ih]
      have hw' : w.ramtrj = false := by simpa using hw
      constructor
      · rintro (⟨rfl, h⟩ | ⟨p, v, s, rfl, h1, h2, rfl⟩)
        · exact .inl ⟨rfl, by simpa using ⟨hw', h⟩⟩
        · exact .inr ⟨w :: p, v, s, rfl, h1, by simpa using ⟨hw', h2⟩, rfl⟩
      · rintro (⟨rfl, h⟩ | ⟨p, v, s, h, h1, h2, rfl⟩)
        · exact .inl ⟨rfl, fun v hv => h v (List.mem_cons_of_mem _ hv)⟩
        · cases p with
          | nil => cases h; exact absurd h1 hw
          | cons x p =>
            rw [List.cons_append] at h
            injection h with _ h
            exact .inr ⟨p, v, s, h, h1, fun v hv => h2 v (List.mem_cons_of_mem _ hv), rfl⟩

end Rampack.Input
