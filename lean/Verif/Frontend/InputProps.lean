import Verif.Frontend.InputValues
import Verif.Frontend.CasinoEnv
import Verif.Param.Props
import Verif.Utils.VersionProps
import Verif.Pyon.ParserProps
/-
Properties C81 and C82: the input file is accepted exactly if it is what the documentation says, and means what the documentation says.
-/
namespace Rampack.Input

open Pyon Pyon.Spec Rampack.Input.Spec

variable {X : Type} {conv : ℚ → Option ℝ}

/-- **C81** A text is accepted exactly if it is an expression which is an input, and then the parameters are those of the input. -/
theorem C81_input (hconv : Rampack.Spec.RoundsIntegers conv) {P : Parts X} (hP : Parts.Ok P) {maxThreads : Nat} {t : Text} {p : Parameters X} :
    matchInput conv maxThreads P t = .ok p ↔ ∃ n, parse conv t = .ok n ∧ IsInput P maxThreads n p := by
  obtain ⟨c, ec, rc⟩ := rampack_reads hconv hP maxThreads
  unfold matchInput
  rw [ec, Outcome.ok_bind]
  cases hn : parse conv t with
  | ok n =>
    rw [Outcome.ok_bind]
    constructor
    · intro h
      have hc : c.run n = c.toMatcher.run n := rfl
      rw [hc] at h
      cases hr : c.toMatcher.run n with
      | matched a =>
        rw [hr] at h
        obtain ⟨q, hq, rfl⟩ := (rc n a).mp hr
        cases h
        exact ⟨n, rfl, hq⟩
      | unmatched r => rw [hr] at h; cases h
      | thrown m => rw [hr] at h; cases h
    · rintro ⟨n', h1, h2⟩
      cases h1
      have hr := (rc n _).mpr ⟨p, h2, rfl⟩
      have hc : c.run n = c.toMatcher.run n := rfl
      rw [hc, hr]
      rfl
  | throw m => exact ⟨fun h => (by cases h), fun ⟨_, h, _⟩ => (by cases h)⟩
  | ub => exact ⟨fun h => (by cases h), fun ⟨_, h, _⟩ => (by cases h)⟩
  | diverge => exact ⟨fun h => (by cases h), fun ⟨_, h, _⟩ => (by cases h)⟩

/-- **C81** An expression has at most one meaning. -/
theorem C81_unique {P : Parts X} (hP : Parts.Ok P) {maxThreads : Nat} {n : Node ℝ} {p q : Parameters X} (h : IsInput P maxThreads n p)
    (h' : IsInput P maxThreads n q) : p = q := by
  obtain ⟨c, ec, rc⟩ := rampack_reads (conv := fun q => some (q : ℝ)) (by intro i; simp) hP maxThreads
  have h1 := (rc n _).mpr ⟨p, h, rfl⟩
  have h2 := (rc n _).mpr ⟨q, h', rfl⟩
  rw [h1] at h2
  injection h2 with h2
  injection h2 with h2
  injection h2

/-! ### What is made can be made -/

/-- **C81** Moves of an accepted input are made by their constructors with arguments which the constructors accept. -/
theorem C81_moves {n : Node ℝ} {s : Sampler} (h : IsSampler n s) :
    (∃ x m, Sampler.mkTranslation x m = .ok s) ∨ (∃ x r m, Sampler.mkRototranslation x r m = .ok s) ∨ (∃ x, Sampler.mkRotation x = .ok s) ∨
      ∃ k, Sampler.mkFlip k = .ok s := by
  have key : ∀ {c : Node ℝ} {x m : ℝ}, IsMaxStep c x m → 0 < x → Sampler.checkTranslation x m = .ok () := by
    intro c x m h hx
    unfold Sampler.checkTranslation
    rcases h with ⟨-, rfl⟩ | ⟨⟨-, h1⟩, h2⟩
    · simp [Outcome.require, hx]
    · simp [Outcome.require, hx, h1.le, h2]
  cases h with
  | rototranslation h1 h2 h3 h4 =>
    rename_i a b c x m r
    refine .inr (.inl ⟨x, r, m, ?_⟩)
    have hr : Sampler.checkRotation r = .ok () := by
      rcases h3 with ⟨-, rfl⟩ | ⟨y, ⟨-, hy⟩, rfl⟩
      · rfl
      · simp [Sampler.checkRotation, Outcome.require, hy]
    unfold Sampler.mkRototranslation
    rw [key h4 h2.2, Outcome.ok_bind, hr, Outcome.ok_bind, Outcome.pure_eq]
  | translation h1 h2 h3 =>
    rename_i a b x m
    refine .inl ⟨x, m, ?_⟩
    unfold Sampler.mkTranslation
    rw [key h3 h2.2, Outcome.ok_bind, Outcome.pure_eq]
  | rotation h1 h2 =>
    rename_i a x
    refine .inr (.inr (.inl ⟨x, ?_⟩))
    simp [Sampler.mkRotation, Outcome.require, h2.2]
  | flip h1 h2 =>
    rename_i a k
    refine .inr (.inr (.inr ⟨k, ?_⟩))
    simp [Sampler.mkFlip, Outcome.require, h2.2]

/-- **C81** Scalers of an accepted input are made by their constructors with arguments which the constructors accept. -/
theorem C81_scalers {n : Node ℝ} {s : Scaler} (h : IsScaler n s) : Scaler.make s.kind s.step = .ok s := by
  have hs : 0 < s.step := by
    cases h with
    | deltaV h1 h2 => exact h2.2
    | anisotropic h1 h2 h3 h4 h5 h6 => exact h5.2
    | triclinic h1 h2 h3 => exact h2.2
  simp [Scaler.make, Outcome.require, hs]

/-- **C81** Of the conditions which `integrate` puts on its parameters, those which may fail for a run of an accepted input are that there are enough
cycles for a snapshot and for an average. -/
theorem C81_runs {P : Parts X} {n : Node ℝ} {r : IntegrationRun X} (h : IsIntegration P n r) (offset : Nat) :
    Sim.checkParams (r.params offset) = .ok () ↔
      (∀ a, r.averagingCycles = some a → r.averagingEvery ≤ a) ∧ r.snapshotEvery ≤ r.thermalizationCycles.getD 0 + r.averagingCycles.getD 0 := by
  obtain ⟨hc, -, -, ht, ha, hs, -, hw, hi, hf, -, -, -, -, -, -, -, -, -, hr⟩ := h
  have key : ∀ {m : Node ℝ} {o : Option Nat}, Maybe IsCount m o → ∀ k, o = some k → 0 < k := by
    rintro m o h k rfl
    exact h.2
  have ht := key ht
  have ha := key ha
  have h1 : r.thermalizationCycles.getD 0 > 0 ∨ r.averagingCycles.getD 0 > 0 := by
    rcases hr.phase with h | h
    · obtain ⟨k, hk⟩ := Option.ne_none_iff_exists'.mp h
      rw [hk]; exact .inl (ht k hk)
    · obtain ⟨k, hk⟩ := Option.ne_none_iff_exists'.mp h
      rw [hk]; exact .inr (ha k hk)
  have h2 := hi.2
  have h3 := hf.2
  have h4 : (∀ a, r.averagingCycles = some a → r.averagingEvery ≤ a) ↔ (r.averagingCycles.getD 0 > 0 → r.averagingEvery > 0 ∧ r.averagingEvery ≤ r.averagingCycles.getD 0) := by
    cases hc : r.averagingCycles with
    | none => simp
    | some a =>
      have := hr.averaging (by rw [hc]; simp)
      have := ha a hc
      simp only [Option.some.injEq, Option.getD_some]
      constructor
      · intro h _; exact ⟨by omega, h a rfl⟩
      · rintro h _ rfl; exact (h this).2
  rw [h4]
  unfold Sim.checkParams IntegrationRun.params
  simp only [Outcome.bind_eq_ok, Outcome.require_eq_ok, Bool.or_eq_true, Bool.and_eq_true, Bool.not_eq_true', decide_eq_true_eq, decide_eq_false_iff_not, exists_const, h1, h2, h3,
    true_and, and_congr_left_iff]
  intro _
  by_cases hz : r.averagingCycles.getD 0 > 0
  · simp [hz]
  · simp [hz]

/-! ### Inputs which are accepted, but cannot be run -/

/-- Invocations with positional arguments only; the others are default ones. -/
theorem call_positional {name : String} {signature : List (String × Option (Node ℝ))} {ps ds : List (Node ℝ)}
    (h : signature.map Prod.snd = (signature.take ps.length).map Prod.snd ++ ds.map some) (hl : signature.length = ps.length + ds.length) :
    Call (.dataclass name.toList ps []) name signature (ps ++ ds) := by
  refine ⟨ps, [], rfl, by omega, by simp, by simp [hl], fun i k dflt a hi ha => ?_⟩
  by_cases hp : i < ps.length
  · rw [List.getElem?_append_left hp] at ha
    exact .inl ⟨ha, by simp [NotGiven]⟩
  · refine .inr (.inr ⟨by omega, by simp [NotGiven], ?_⟩)
    rw [List.getElem?_append_right (by omega)] at ha
    have h1 : (signature.map Prod.snd)[i]? = some dflt := by rw [List.getElem?_map, hi]; rfl
    have h2 : ((signature.take ps.length).map Prod.snd).length = ps.length := by simp; omega
    rw [h, List.getElem?_append_right (by omega), h2, List.getElem?_map, ha] at h1
    simpa using h1.symm

/-- A matcher of any text. -/
def anyText (v : Text → Value Text) : Matcher ℝ (Value Text) where
  nodeType t := t == .string
  run n := match n with
    | .string s => .matched (.value (v s))
    | _ => .unmatched .nodeType

/-- Shapes, arrangements and observables which are any texts. -/
def texts : Parts Text := ⟨anyText .object, .other (anyText fun s => .shape (some s)), anyText .object, anyText .object⟩

theorem anyText_matched {v : Text → Value Text} {n : Node ℝ} {a : Any ℝ (Value Text)} (h : (anyText v).run n = .matched a) : ∃ s, n = .string s ∧ a = .value (v s) := by
  cases n <;> first | cases h | skip
  exact ⟨_, rfl, rfl⟩

theorem texts_ok : Parts.Ok texts where
  arrangement n v h := by obtain ⟨s, -, h⟩ := anyText_matched h; exact ⟨s, h⟩
  observable n v h := by obtain ⟨s, -, h⟩ := anyText_matched h; exact ⟨s, h⟩
  bulkObservable n v h := by obtain ⟨s, -, h⟩ := anyText_matched h; exact ⟨s, h⟩
  shape n v h := by obtain ⟨s, -, h⟩ := anyText_matched h; exact ⟨s, h⟩
  sound := by
    refine ⟨fun n h => ?_, rfl⟩
    cases n <;> first | exact ⟨_, rfl⟩ | cases h
  notNone := by
    intro m hm
    simp only [texts, options, List.mem_singleton] at hm
    subst hm
    exact ⟨_, rfl⟩

/-- `integration(name, thermalization, averaging, every, temperature, None, moves, box, averagingEvery)`. -/
def integrationNode (name : Text) (thermalization averaging every temperature moves box averagingEvery : Node ℝ) : Node ℝ :=
  .dataclass "integration".toList [.string name, thermalization, averaging, every, temperature, .none, moves, box, averagingEvery] []

/-- The run which is meant. -/
def plainRun (name : Text) (e : Env) (th av : Option Nat) (every avEvery : Nat) : IntegrationRun Text :=
  ⟨name, e, th, av, every, avEvery, 100, 10000, [], none, [], none, [], [], none, none, none⟩

theorem integrationNode_is {name : Text} {th av every temperature moves box averagingEvery : Node ℝ} {t a : Option Nat} {e : Env} {k k' : Nat}
    (hn : IsName name) (h1 : Maybe IsCount th t) (h2 : Maybe IsCount av a) (h3 : IsCount every k) (h4 : IsEnvironment temperature .none moves box e)
    (h5 : IsWrapped averagingEvery k') (h6 : t ≠ none ∨ a ≠ none) (h7 : a ≠ none → 0 < k') :
    IsIntegration texts (integrationNode name th av every temperature moves box averagingEvery) (plainRun name e t a k k') := by
  refine .mk (call_positional (ps := [.string name, th, av, every, temperature, .none, moves, box, averagingEvery])
    (ds := [.int 100, .int 10000, .array [], .array [], .none, .array [], .none, .array [], .none]) rfl rfl) rfl hn h1 h2 h3 h4 h5
    ⟨rfl, by norm_num [plainRun]⟩ ⟨rfl, by norm_num [plainRun]⟩ ⟨[], rfl, .nil⟩ (.inl ⟨rfl, by simp [plainRun]⟩) ⟨[], rfl, .nil⟩ (.inl ⟨rfl, by simp [plainRun]⟩) rfl
    ⟨[], rfl, .nil⟩ rfl ⟨[], rfl, .nil⟩ rfl ⟨h6, h7, by simp [plainRun], by simp [plainRun]⟩

/-- `rampack("1.2.0", "lattice", "sphere", 1234, runs)`. -/
def inputNode (runs : List (Node ℝ)) : Node ℝ :=
  .dataclass "rampack".toList [.string "1.2.0".toList, .string "lattice".toList, .string "sphere".toList, .int 1234, .array runs] []

/-- The parameters which are meant. -/
def plainParameters (runs : List (Run Text)) : Parameters Text :=
  ⟨⟨1, 2, 0⟩, "lattice".toList, Env.empty, 1234, "sphere".toList, [false, false, false], 1, [1, 1, 1], true, runs⟩

theorem inputNode_is {ns : List (Node ℝ)} {rs : List (Run Text)} (h : List.Forall₂ (IsRun texts) ns rs) (hd : (rs.map Run.name).Nodup)
    (hc : ∃ r, rs.head? = some r ∧ (Env.empty.combine r.environment).isComplete = true) {maxThreads : Nat} :
    IsInput texts maxThreads (inputNode ns) (plainParameters rs) := by
  refine .mk (call_positional (ps := [.string "1.2.0".toList, .string "lattice".toList, .string "sphere".toList, .int 1234, .array ns])
    (ds := [.none, .none, .none, .none, .array [.boolean false, .boolean false, .boolean false], .int 1, .array [.int 1, .int 1, .int 1], .boolean true]) rfl rfl)
    ⟨_, rfl, ?_, ?_, ?_⟩ rfl rfl (.inl rfl) ⟨ns, rfl, h⟩ ⟨rfl, rfl, .inl ⟨rfl, rfl⟩, .unset⟩
    ⟨_, rfl, .cons rfl (.cons rfl (.cons rfl .nil))⟩ rfl (.inr ⟨rfl, Nat.one_pos⟩) ⟨_, rfl, .cons ⟨rfl, Nat.one_pos⟩ (.cons ⟨rfl, Nat.one_pos⟩ (.cons ⟨rfl, Nat.one_pos⟩ .nil))⟩ rfl rfl hd hc
  · refine ((C48_parse _).1 _).mpr ⟨[['1'], ['2'], ['0']], [1, 2, 0], by simp, by simp, rfl, .cons ?_ (.cons ?_ (.cons ?_ .nil)), rfl⟩
    · exact ⟨false, ['1'], ⟨[], [], [], by simp [Rampack.Spec.Blank], by simp [Rampack.Spec.Blank], by simp, by simp, by decide, rfl⟩, by decide, by decide⟩
    · exact ⟨false, ['2'], ⟨[], [], [], by simp [Rampack.Spec.Blank], by simp [Rampack.Spec.Blank], by simp, by simp, by decide, rfl⟩, by decide, by decide⟩
    · exact ⟨false, ['0'], ⟨[], [], [], by simp [Rampack.Spec.Blank], by simp [Rampack.Spec.Blank], by simp, by simp, by decide, rfl⟩, by decide, by decide⟩
  · exact .inl Nat.one_pos
  · exact .inr ⟨rfl, .inr ⟨rfl, le_rfl⟩⟩

/-- `rotation(1)`. -/
def rotationNode : Node ℝ := .dataclass "rotation".toList [.int 1] []

/-- `disabled`. -/
def disabledNode : Node ℝ := .dataclass "disabled".toList [] []

/-- `delta_v(1)`. -/
def deltaNode : Node ℝ := .dataclass "delta_v".toList [.int 1] []

theorem rotationNode_is : IsSampler rotationNode (.rotation 1) :=
  .rotation (call_positional (ps := [.int 1]) (ds := []) rfl rfl) ⟨.inr ⟨1, rfl, by simp⟩, one_pos⟩

theorem deltaNode_is : IsScaler deltaNode ⟨.adapter .delta, 1⟩ :=
  .deltaV (call_positional (ps := [.int 1]) (ds := []) rfl rfl) ⟨.inr ⟨1, rfl, by simp⟩, one_pos⟩

theorem disabledNode_is : IsScaling disabledNode .disabled := .disabled (call_positional (ps := []) (ds := []) rfl rfl)

/-- The temperature 1, rotations only and no scaling. -/
noncomputable def firstEnv : Env := ⟨some (.const 1), none, [.rotation 1], .disabled⟩

theorem firstEnv_is : IsEnvironment (.int 1) .none (.array [rotationNode]) disabledNode firstEnv :=
  ⟨.simple (.number (.inr ⟨1, rfl, by simp⟩)), rfl, .inr ⟨by simp [firstEnv], _, rfl, .cons rotationNode_is .nil⟩, disabledNode_is⟩

/-- Scaling only. -/
noncomputable def secondEnv : Env := ⟨none, none, [], .enabled ⟨.adapter .delta, 1⟩⟩

theorem secondEnv_is : IsEnvironment .none .none .none deltaNode secondEnv := ⟨rfl, rfl, .inl ⟨rfl, rfl⟩, .enabled deltaNode_is⟩

/-- Names of two runs. -/
theorem names : IsName "eq".toList ∧ IsName "prod".toList := by
  constructor <;> (unfold IsName; decide)

/-- Real numbers are not rounded. -/
noncomputable def exact (q : ℚ) : Option ℝ := some q

theorem exact_rounds : Rampack.Spec.RoundsIntegers exact := fun i _ => rfl

theorem identifier {c : Char} {r : Text} (hc : isFirst c = true) (hr : ∀ d ∈ r, isName d = true) : Rampack.Spec.IsIdentifier (c :: r) :=
  ⟨_, _, rfl, isFirst_iff.mp hc, fun d hd => isName_iff.mp (hr d hd)⟩

open Rampack.Spec in
theorem integrationNode_expressible {name : Text} {th av every temperature moves box averagingEvery : Node ℝ} {lit : ℝ → Text}
    (h : ∀ v ∈ [th, av, every, temperature, moves, box, averagingEvery], Expressible exact lit v) :
    Expressible exact lit (integrationNode name th av every temperature moves box averagingEvery) := by
  refine .dataclass (identifier (c := 'i') (r := "ntegration".toList) (by decide) (by decide)) (by unfold Reserved; decide) ?_ (by simp) (by simp) (by simp)
  simp only [List.forall_mem_cons, List.not_mem_nil, false_imp_iff, implies_true, and_true] at h ⊢
  exact ⟨.string, h.1, h.2.1, h.2.2.1, h.2.2.2.1, .none, h.2.2.2.2⟩

open Rampack.Spec in
theorem inputNode_expressible {ns : List (Node ℝ)} {lit : ℝ → Text} (h : ∀ v ∈ ns, Expressible exact lit v) : Expressible exact lit (inputNode ns) := by
  refine .dataclass (identifier (c := 'r') (r := "ampack".toList) (by decide) (by decide)) (by unfold Reserved; decide) ?_ (by simp) (by simp) (by simp)
  simp only [List.forall_mem_cons, List.not_mem_nil, false_imp_iff, implies_true, and_true]
  exact ⟨.string, .string, .string, .int (by unfold InLong; decide), .array h⟩

open Rampack.Spec in
theorem parts_expressible {lit : ℝ → Text} : Expressible exact lit rotationNode ∧ Expressible exact lit deltaNode ∧ Expressible exact lit disabledNode := by
  refine ⟨?_, ?_, ?_⟩
  · refine .dataclass (identifier (c := 'r') (r := "otation".toList) (by decide) (by decide)) (by unfold Reserved; decide) ?_ (by simp) (by simp) (by simp)
    simp only [List.forall_mem_cons, List.not_mem_nil, false_imp_iff, implies_true, and_true]
    exact .int (by unfold InLong; decide)
  · refine .dataclass (identifier (c := 'd') (r := "elta_v".toList) (by decide) (by decide)) (by unfold Reserved; decide) ?_ (by simp) (by simp) (by simp)
    simp only [List.forall_mem_cons, List.not_mem_nil, false_imp_iff, implies_true, and_true]
    exact .int (by unfold InLong; decide)
  · exact .dataclass (identifier (c := 'd') (r := "isabled".toList) (by decide) (by decide)) (by unfold Reserved; decide) (by simp) (by simp) (by simp) (by simp)

/-- The texts of such inputs are accepted. -/
theorem inputNode_accepted {ns : List (Node ℝ)} {rs : List (Run Text)} (h : List.Forall₂ (IsRun texts) ns rs) (hd : (rs.map Run.name).Nodup)
    (hc : ∃ r, rs.head? = some r ∧ (Env.empty.combine r.environment).isComplete = true) {lit : ℝ → Text}
    (he : ∀ v ∈ ns, Rampack.Spec.Expressible exact lit v) {maxThreads : Nat} :
    matchInput exact maxThreads texts (Rampack.Spec.canonical lit (inputNode ns)) = .ok (plainParameters rs) :=
  (C81_input exact_rounds texts_ok).mpr ⟨_, C45_canonical exact_rounds (inputNode_expressible he), inputNode_is h hd hc⟩

/-- The two runs: the second one scales the box, while there is no pressure. -/
noncomputable def laterRuns : List (Run Text) :=
  [.integration (plainRun "eq".toList firstEnv (some 100) none 10 0), .integration (plainRun "prod".toList secondEnv (some 100) none 10 0)]

/-- **C81** The environment of a run may be incomplete although the input is accepted: only the first run is checked. (The exception comes when the
run is to be started, after all runs before it.) -/
theorem C81_later_violated : ∃ t p, matchInput exact 1 texts t = .ok p ∧ p.runs.length = 2 ∧ (combineAll p.environment p.runs).isComplete = false := by
  refine ⟨_, _, inputNode_accepted (lit := fun _ => []) (rs := laterRuns)
    (ns := [integrationNode "eq".toList (.int 100) .none (.int 10) (.int 1) (.array [rotationNode]) disabledNode (.int 0),
      integrationNode "prod".toList (.int 100) .none (.int 10) .none .none deltaNode (.int 0)]) ?_ ?_ ?_ ?_, rfl, rfl⟩
  · refine .cons (.integration (integrationNode_is names.1 ⟨rfl, ?_⟩ rfl ⟨rfl, ?_⟩ firstEnv_is (.inl rfl) (.inl ?_) ?_))
      (.cons (.integration (integrationNode_is names.2 ⟨rfl, ?_⟩ rfl ⟨rfl, ?_⟩ secondEnv_is (.inl rfl) (.inl ?_) ?_)) .nil) <;> simp
  · decide
  · exact ⟨_, rfl, rfl⟩
  · simp only [List.forall_mem_cons, List.not_mem_nil, false_imp_iff, implies_true, and_true]
    refine ⟨integrationNode_expressible ?_, integrationNode_expressible ?_⟩
    · simp only [List.forall_mem_cons, List.not_mem_nil, false_imp_iff, implies_true, and_true]
      refine ⟨.int ?_, .none, .int ?_, .int ?_, .array ?_, parts_expressible.2.2, .int ?_⟩
      all_goals first | (unfold Rampack.Spec.InLong; decide) | skip
      simp only [List.forall_mem_cons, List.not_mem_nil, false_imp_iff, implies_true, and_true]
      exact parts_expressible.1
    · simp only [List.forall_mem_cons, List.not_mem_nil, false_imp_iff, implies_true, and_true]
      refine ⟨.int ?_, .none, .int ?_, .none, .none, parts_expressible.2.1, .int ?_⟩
      all_goals (unfold Rampack.Spec.InLong; decide)

/-- **C81** A run may need more cycles than there are although the input is accepted: here snapshots are taken every 10 cycles of 5, and values are
averaged every 18446744073709551615 cycles (-1 in the input). -/
theorem C81_periods_violated : ∃ t p, matchInput exact 1 texts t = .ok p ∧ ∃ r, p.runs = [.integration r] ∧ r.snapshotEvery = 10 ∧
    r.averagingEvery = 2 ^ 64 - 1 ∧ ∀ offset, ∃ m, Sim.checkParams (r.params offset) = .throw m := by
  refine ⟨_, _, inputNode_accepted (lit := fun _ => []) (rs := [.integration (plainRun "eq".toList firstEnv none (some 5) 10 (2 ^ 64 - 1))])
    (ns := [integrationNode "eq".toList .none (.int 5) (.int 10) (.int 1) (.array [rotationNode]) disabledNode (.int (-1))]) ?_ ?_ ?_ ?_, _, rfl, rfl, rfl, ?_⟩
  · refine .cons (.integration (integrationNode_is names.1 rfl ⟨rfl, ?_⟩ ⟨rfl, ?_⟩ firstEnv_is (.inr ⟨-1, rfl, by decide, by decide⟩) (.inr ?_) ?_)) .nil <;> simp
  · decide
  · exact ⟨_, rfl, rfl⟩
  · simp only [List.forall_mem_cons, List.not_mem_nil, false_imp_iff, implies_true, and_true]
    refine integrationNode_expressible ?_
    simp only [List.forall_mem_cons, List.not_mem_nil, false_imp_iff, implies_true, and_true]
    refine ⟨.none, .int ?_, .int ?_, .int ?_, .array ?_, parts_expressible.2.2, .int ?_⟩
    all_goals first | (unfold Rampack.Spec.InLong; decide) | skip
    simp only [List.forall_mem_cons, List.not_mem_nil, false_imp_iff, implies_true, and_true]
    exact parts_expressible.1
  · intro offset
    exact ⟨_, by unfold Sim.checkParams; simp [Outcome.require, IntegrationRun.params, plainRun]; rfl⟩

/-- Beside `C81_runs`: a run of an input which can be started. -/
example : ∃ n r, IsIntegration texts n r ∧ Sim.checkParams (r.params 0) = .ok () := by
  have h : IsIntegration texts (integrationNode "eq".toList (.int 100) (.int 200) (.int 10) (.int 1) (.array [rotationNode]) disabledNode (.int 20))
      (plainRun "eq".toList firstEnv (some 100) (some 200) 10 20) :=
    integrationNode_is names.1 ⟨rfl, by norm_num⟩ ⟨rfl, by norm_num⟩ ⟨rfl, by norm_num⟩ firstEnv_is (.inl rfl) (.inl (by simp)) (by simp)
  exact ⟨_, _, h, (C81_runs h 0).mpr ⟨by simp [plainRun], by simp [plainRun]⟩⟩

/-! ### Values of parameters -/

/-- **C82** In every cycle of a run in which all pieces begin, the value of an accepted parameter is what the documentation says. -/
theorem C82_value {n : Node ℝ} {p : Param} (h : IsParam n p) {cycle total : Nat} (hc : cycle ≤ total) (ht : total < 2 ^ 63) (hb : BeginsBy n total) {x : ℝ} :
    p.value cycle total = .ok x ↔ ParamAt n cycle x := by
  obtain ⟨y, h1, h2⟩ : ∃ y, p.value cycle total = .ok y ∧ ParamAt n cycle y := by
    cases h with
    | simple h =>
      obtain ⟨y, h1, h2⟩ := simple_value h cycle total
      exact ⟨y, h1, .simple h2⟩
    | piecewise hp hl ho hq =>
      rename_i ps l
      have hle : ∀ u ∈ l, u.1 ≤ total := by
        intro u hu
        obtain ⟨i, hi, e⟩ := List.getElem_of_mem hu
        have hi' : i < ps.length := by rw [hp.length_eq]; exact hi
        have := List.forall₂_iff_get.mp hp
        have hm := this.2 i hi' hi
        simp only [List.get_eq_getElem] at hm
        rw [e] at hm
        obtain ⟨q, h3, -⟩ := pieceFrom_of hm
        exact hb ps [] rfl _ (List.getElem_mem hi') _ _ h3
      obtain ⟨i, u, h3, h4, h5⟩ := C38_value hq (fun u hu => by have := hle u hu; omega) hc (by omega) hle
      obtain ⟨hi, rfl⟩ := List.getElem?_eq_some_iff.mp h4
      have hi' : i < ps.length := by rw [hp.length_eq]; exact hi
      have hall := (List.forall₂_iff_get.mp hp).2
      simp only [List.get_eq_getElem] at hall
      obtain ⟨q, h6, h7⟩ := pieceFrom_of (hall i hi' hi)
      obtain ⟨y, h8, h9⟩ := simple_value h7 (cycle - l[i].1) (Rampack.Spec.pieceEnd l i total - l[i].1)
      refine ⟨y, by rw [h5, h8], ?_⟩
      have e : ps = ps.take i ++ ps[i] :: ps.drop (i + 1) := by
        rw [← List.drop_eq_getElem_cons hi', List.take_append_drop]
      have hle' : l[i].1 ≤ cycle := by
        obtain ⟨w, hw, hw'⟩ := h3.1
        rw [h4] at hw
        injection hw with hw
        rw [hw]; exact hw'
      have := ParamAt.piecewise (before := ps.take i) (after := ps.drop (i + 1)) h6 hle' (fun m hm s q' hs => by
        obtain ⟨j, hj, rfl⟩ := List.getElem_of_mem hm
        rw [List.getElem_drop] at hs
        have hj1 : i + 1 + j < ps.length := by rw [List.length_drop] at hj; omega
        have hj2 : i + 1 + j < l.length := by rw [← hp.length_eq]; exact hj1
        rw [(pieceFrom_iff (hall _ hj1 hj2) s q' hs).1]
        exact h3.2 _ _ (by omega) (List.getElem?_eq_getElem hj2)) h9
      rwa [← e] at this
  constructor
  · intro hx
    rw [h1] at hx
    injection hx with hx
    rw [← hx]; exact h2
  · intro hx
    rw [h1, paramAt_unique h hx h2]

/-- `piecewise(piece(0, 10), piece(1000, linear(1)))`. -/
def rampNode : Node ℝ :=
  .dataclass "piecewise".toList [.dataclass "piece".toList [.int 0, .int 10] [], .dataclass "piece".toList [.int 1000, .dataclass "linear".toList [.int 1] []] []] []

theorem rampNode_pieces : List.Forall₂ IsPiece [(.dataclass "piece".toList [.int 0, .int 10] [] : Node ℝ),
    .dataclass "piece".toList [.int 1000, .dataclass "linear".toList [.int 1] []] []] [(0, .const 10), (1000, .linear 1 0)] := by
  refine .cons ⟨.int 0, .int 10, call_positional (ps := [.int 0, .int 10]) (ds := []) rfl rfl, rfl, .number (.inr ⟨10, rfl, by norm_num⟩)⟩ (.cons
    ⟨.int 1000, .dataclass "linear".toList [.int 1] [], call_positional (ps := [.int 1000, .dataclass "linear".toList [.int 1] []]) (ds := []) rfl rfl, rfl,
      .linear (call_positional (ps := [.int 1]) (ds := [.int 0]) rfl rfl) (.inr ⟨1, rfl, by norm_num⟩) (.inr ⟨0, rfl, by norm_num⟩)⟩ .nil)

theorem rampNode_is : ∃ p, Param.mkPiecewise ([(0, Param.const 10), (1000, Param.linear 1 0)].map fun u => (u.1, some u.2)) = .ok p ∧ IsParam rampNode p := by
  obtain ⟨q, hq⟩ := (C38_rejects (l := [(0, some (.const 10)), (1000, some (.linear 1 0))]) (by simp)).1 ⟨⟨_, rfl, rfl⟩, by simp, by simp⟩
  exact ⟨q, hq, .piecewise rampNode_pieces (by simp) ⟨rfl, by simp⟩ hq⟩

theorem rampNode_begins {total : Nat} (h : 1000 ≤ total) : BeginsBy rampNode total := by
  intro ps ks e m hm s q hs
  injection e with _ e
  subst e
  obtain ⟨i, hi, rfl⟩ := List.getElem_of_mem hm
  have := (pieceFrom_iff ((List.forall₂_iff_get.mp rampNode_pieces).2 i hi (by simpa using hi)) s q hs).1
  rw [this]
  simp only [List.length_cons, List.length_nil] at hi
  match i, hi with
  | 0, _ => simp
  | 1, _ => simpa using h

/-- Beside `C82_value`: in the 1500th of 2000 cycles the value is 500. -/
example : ∃ p, IsParam rampNode p ∧ BeginsBy rampNode 2000 ∧ p.value 1500 2000 = .ok 500 := by
  obtain ⟨p, hp, h⟩ := rampNode_is
  refine ⟨p, h, rampNode_begins (by norm_num), (C82_value h (by norm_num) (by norm_num) (rampNode_begins (by norm_num))).mpr ?_⟩
  refine ParamAt.piecewise (before := [_]) (after := []) (start := 1000)
    ⟨.int 1000, call_positional (ps := [.int 1000, .dataclass "linear".toList [.int 1] []]) (ds := []) rfl rfl, rfl⟩ (by norm_num) (by simp) ?_
  have := SimpleAt.linear (cycle := 500) (call_positional (name := "linear") (signature := [("slope", none), ("intercept", some (.int 0))]) (ps := [.int 1]) (ds := [.int 0])
    rfl rfl) (.inr ⟨1, rfl, by norm_num⟩) (.inr ⟨0, rfl, by norm_num⟩) (x := 1) (y := 0)
  norm_num at this
  exact this

/-- **C82** An accepted parameter has no value at all in a run which ends before its last piece begins, although the documentation gives one. -/
theorem C82_short_violated : ∃ p, IsParam rampNode p ∧ ∀ cycle total, cycle ≤ total → total < 1000 → ParamAt rampNode cycle 10 ∧ ∃ m, p.value cycle total = .throw m := by
  obtain ⟨p, hp, h⟩ := rampNode_is
  refine ⟨p, h, fun cycle total hc ht => ⟨?_, C38_range hp (by simp) (.inr ⟨(1000, .linear 1 0), by simp, ht⟩)⟩⟩
  refine ParamAt.piecewise (before := []) (start := 0) ⟨.int 0, call_positional (ps := [.int 0, .int 10]) (ds := []) rfl rfl, rfl⟩ (by omega) ?_ (.number (.inr ⟨10, rfl, by norm_num⟩))
  intro m hm s q hs
  obtain rfl := List.mem_singleton.mp hm
  have := (pieceFrom_iff ((List.forall₂_iff_get.mp rampNode_pieces).2 1 (by simp) (by simp)) s q hs).1
  rw [this]
  simp only [List.get_eq_getElem, List.getElem_cons_succ, List.getElem_cons_zero]
  omega

end Rampack.Input
