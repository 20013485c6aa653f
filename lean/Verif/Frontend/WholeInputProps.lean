import Verif.Frontend.WholeInputLemmas
import Verif.Frontend.WholeInputSpec
import Verif.Frontend.InputProps
import Verif.Frontend.ShapeClassesProps
import Verif.Frontend.ArrangeExprProps
/-
Property C114: the whole input file, with arrangements, shapes and observables in it, is accepted exactly if it is what the documentation says.
-/
namespace Rampack.WholeInput

open Pyon Pyon.Spec Rampack.Input Rampack.Input.Spec Rampack.WholeInput.Spec

variable {conv : ℚ → Option ℝ} {fuel : Nat}

theorem unwrap_wrap (a : Any ℝ ShapeExpr.V) : unwrap (wrap a) = a := by
  cases a <;> rfl

/-- The result of a matcher which has been given another type of values. -/
theorem matched_map {α β : Type} {k : α → β} {x : Result α} {b : β} : mapResult k x = .matched b ↔ ∃ a, x = .matched a ∧ k a = b := by
  cases x <;> simp [mapResult]

theorem retyped {V : Type} {α : Type} {m : Matcher ℝ (Value V)} {R : Node ℝ → α → Prop} {w : α → Value V} (hm : Interprets m R w) {k : Any ℝ (Value V) → Any ℝ (Value Part)}
    {w' : α → Value Part} (hk : ∀ x, k (.value (w x)) = .value (w' x)) : Interprets (retype k m) R w' := by
  intro n v
  change mapResult k (m.run n) = .matched v ↔ _
  rw [matched_map]
  constructor
  · rintro ⟨a, ha, rfl⟩
    obtain ⟨x, hx, rfl⟩ := (hm n a).mp ha
    exact ⟨x, hx, hk x⟩
  · rintro ⟨x, hx, rfl⟩
    exact ⟨_, (hm n _).mpr ⟨x, hx, rfl⟩, hk x⟩

/-- Options which are classes only. -/
def Classes {F V : Type} : Choice F V → Prop
  | .dataclass _ => True
  | .other _ => False
  | .join l r => Classes l ∧ Classes r

theorem classes_retype {F V W : Type} {f : Any F V → Any F W} {g : Any F W → Any F V} {h : Any F V → Any F W} {c : Choice F V} (hc : Classes c) :
    Classes (retypeChoice f g h c) := by
  induction c with
  | dataclass c => trivial
  | other m => exact hc
  | join l r hl hr => exact ⟨hl hc.1, hr hc.2⟩

theorem classes_sound {F V : Type} {c : Choice F V} (hc : Classes c) : Sound c ∧ ∀ m ∈ options c, ∃ r, m.run .none = .unmatched r := by
  induction c with
  | dataclass c => exact ⟨trivial, by simp only [options, List.mem_singleton]; rintro m rfl; exact ⟨_, rfl⟩⟩
  | other m => exact hc.elim
  | join l r hl hr =>
    refine ⟨⟨(hl hc.1).1, (hr hc.2).1⟩, fun m hm => ?_⟩
    rcases List.mem_append.mp hm with hm | hm
    · exact (hl hc.1).2 m hm
    · exact (hr hc.2).2 m hm

theorem shape_classes {c : Choice ℝ ShapeExpr.V} (h : ShapeExpr.createShape conv = .ok c) : Classes c := by
  unfold ShapeExpr.createShape at h
  simp only [Outcome.bind_eq_ok] at h
  obtain ⟨c1, -, c2, -, c3, -, c4, -, c5, -, c6, -, c7, -, c8, -, c9, -, c10, -, c11, -, c12, -, h⟩ := h
  cases h
  simp [Classes]

/-- **C114** The matchers of parts can be made, and they read what is documented. -/
theorem C114_parts (hconv : Rampack.Spec.RoundsIntegers conv) : ∃ P, allParts conv fuel = .ok P ∧ Parts.Ok P ∧ Documented fuel P := by
  obtain ⟨a, ea, ra⟩ := ArrangeExpr.arrangement_reads hconv (fuel := fuel)
  obtain ⟨s, es, rs⟩ := ShapeExpr.shape_reads hconv
  obtain ⟨o, eo, ro⟩ := Observ.scoped_reads hconv
  obtain ⟨b, eb, rb⟩ := Observ.bulk_reads hconv
  have ra := retyped ra (k := outArrangement) (w' := fun r => .object (.arrangement r)) fun _ => rfl
  have ro := retyped ro (k := outObservable) (w' := fun r => .object (.observable r)) fun _ => rfl
  have rb := retyped rb (k := outBulk) (w' := fun r => .object (.bulk r)) fun _ => rfl
  have rs : Interprets (retypeChoice wrap unwrap outShape s).toMatcher ShapeExpr.Spec.IsSpecies (fun r => .shape (some (.shape r))) := by
    intro n v
    rw [retypeChoice_run unwrap_wrap fun _ => rfl]
    exact retyped rs (k := outShape) (w' := fun r => .shape (some (.shape r))) (fun _ => rfl) n v
  obtain ⟨h1, h2⟩ := classes_sound (classes_retype (f := wrap) (g := unwrap) (h := outShape) (shape_classes es))
  refine ⟨_, by rw [allParts, ea, Outcome.ok_bind, es, Outcome.ok_bind, eo, Outcome.ok_bind, eb, Outcome.ok_bind]; rfl, ⟨fun n v h => ?_, fun n v h => ?_, fun n v h => ?_, fun n v h => ?_, h1, h2⟩,
    fun n x => ?_, fun n x => ?_, fun n x => ?_, fun n x => ?_⟩
  · obtain ⟨x, -, rfl⟩ := (ra n v).mp h
    exact ⟨_, rfl⟩
  · obtain ⟨x, -, rfl⟩ := (ro n v).mp h
    exact ⟨_, rfl⟩
  · obtain ⟨x, -, rfl⟩ := (rb n v).mp h
    exact ⟨_, rfl⟩
  · obtain ⟨x, -, rfl⟩ := (rs n v).mp h
    exact ⟨_, rfl⟩
  · refine (ra n _).trans ⟨?_, ?_⟩
    · rintro ⟨y, h, e⟩
      cases e
      exact ⟨y, rfl, h⟩
    · rintro ⟨y, rfl, h⟩
      exact ⟨y, h, rfl⟩
  · refine (rs n _).trans ⟨?_, ?_⟩
    · rintro ⟨y, h, e⟩
      cases e
      exact ⟨y, rfl, h⟩
    · rintro ⟨y, rfl, h⟩
      exact ⟨y, h, rfl⟩
  · refine (ro n _).trans ⟨?_, ?_⟩
    · rintro ⟨y, h, e⟩
      cases e
      exact ⟨y, rfl, h⟩
    · rintro ⟨y, rfl, h⟩
      exact ⟨y, h, rfl⟩
  · refine (rb n _).trans ⟨?_, ?_⟩
    · rintro ⟨y, h, e⟩
      cases e
      exact ⟨y, rfl, h⟩
    · rintro ⟨y, rfl, h⟩
      exact ⟨y, h, rfl⟩

/-! ### The meaning of the input depends only on what is read -/

theorem integration_same {P Q : Parts Part} (ho : Reads P.observable = Reads Q.observable) (hb : Reads P.bulkObservable = Reads Q.bulkObservable) {n : Node ℝ}
    {r : IntegrationRun Part} (h : IsIntegration P n r) : IsIntegration Q n r := by
  obtain ⟨h1, h2, h3, h4, h5, h6, h7, h8, h9, h10, h11, h12, h13, h14, h15, h16, h17, h18, h19, h20⟩ := h
  rw [ho] at h16
  rw [hb] at h18
  exact .mk h1 h2 h3 h4 h5 h6 h7 h8 h9 h10 h11 h12 h13 h14 h15 h16 h17 h18 h19 h20

theorem relaxation_same {P Q : Parts Part} (ho : Reads P.observable = Reads Q.observable) (hs : ReadsShape P.shape = ReadsShape Q.shape) {n : Node ℝ}
    {r : RelaxationRun Part} (h : IsRelaxation P n r) : IsRelaxation Q n r := by
  obtain ⟨h1, h2, h3, h4, h5, h6, h7, h8, h9, h10, h11, h12, h13, h14⟩ := h
  rw [hs] at h8
  rw [ho] at h13
  exact .mk h1 h2 h3 h4 h5 h6 h7 h8 h9 h10 h11 h12 h13 h14

theorem input_same {P Q : Parts Part} (hP : Documented fuel P) (hQ : Documented fuel Q) {maxThreads : Nat} {n : Node ℝ} {p : Parameters Part} (h : IsInput P maxThreads n p) :
    IsInput Q maxThreads n p := by
  have ha : Reads P.arrangement = Reads Q.arrangement := by funext n x; exact propext ((hP.arrangement n x).trans (hQ.arrangement n x).symm)
  have hs : ReadsShape P.shape = ReadsShape Q.shape := by funext n x; exact propext ((hP.shape n x).trans (hQ.shape n x).symm)
  have ho : Reads P.observable = Reads Q.observable := by funext n x; exact propext ((hP.observable n x).trans (hQ.observable n x).symm)
  have hb : Reads P.bulkObservable = Reads Q.bulkObservable := by funext n x; exact propext ((hP.bulkObservable n x).trans (hQ.bulkObservable n x).symm)
  obtain ⟨h1, h2, h3, h4, h5, h6, h7, h8, h9, h10, h11, h12, h13, h14, h15⟩ := h
  rw [ha] at h3
  rw [hs] at h4
  obtain ⟨ns, hn, h6⟩ := h6
  refine .mk h1 h2 h3 h4 h5 ⟨ns, hn, h6.imp ?_⟩ h7 h8 h9 h10 h11 h12 h13 h14 h15
  intro n r h
  cases h with
  | integration h => exact .integration (integration_same ho hb h)
  | relaxation h => exact .relaxation (relaxation_same ho hs h)

/-- **C114** A text is accepted exactly if it is an expression which is an input, with its arrangement, shapes and observables, and then the parameters are those of the input. -/
theorem C114_input (hconv : Rampack.Spec.RoundsIntegers conv) {P : Parts Part} (hP : Documented fuel P) {maxThreads : Nat} {t : Text} {p : Parameters Part} :
    matchWhole conv maxThreads fuel t = .ok p ↔ ∃ n, parse conv t = .ok n ∧ IsInput P maxThreads n p := by
  obtain ⟨Q, e, h1, h2⟩ := C114_parts hconv (fuel := fuel)
  rw [matchWhole, e, Outcome.ok_bind, C81_input hconv h1]
  exact exists_congr fun n => and_congr_right fun _ => ⟨input_same h2 hP, input_same hP h2⟩

/-- **C114** An expression has at most one meaning. -/
theorem C114_unique {P : Parts Part} (hP : Documented fuel P) {maxThreads : Nat} {n : Node ℝ} {p q : Parameters Part} (h : IsInput P maxThreads n p) (h' : IsInput P maxThreads n q) :
    p = q := by
  obtain ⟨Q, -, h1, h2⟩ := C114_parts exact_rounds (fuel := fuel)
  exact C81_unique h1 (input_same hP h2 h) (input_same hP h2 h')

/-- What an element of a list means. -/
theorem mem_forall {α β : Type} {R : α → β → Prop} {l : List α} {m : List β} (h : List.Forall₂ R l m) {b : β} (hb : b ∈ m) : ∃ a ∈ l, R a b := by
  induction h with
  | nil => simp at hb
  | cons h1 _ ih =>
    rcases List.mem_cons.mp hb with rfl | hb
    · exact ⟨_, by simp, h1⟩
    · obtain ⟨a, ha, h⟩ := ih hb
      exact ⟨a, by simp [ha], h⟩

theorem scope_bounds {n : Node ℝ} {o : Observ.Scoped} (h : Observ.Spec.IsScoped n o) : 0 < o.scope ∧ o.scope < 8 := by
  cases h with
  | full => exact (by decide : 0 < Observ.Spec.scopeOf true true true ∧ Observ.Spec.scopeOf true true true < 8)
  | @given _ _ _ _ _ s a i _ _ _ _ _ h' =>
    change 0 < Observ.Spec.scopeOf s a i ∧ Observ.Spec.scopeOf s a i < 8
    revert h'
    cases s <;> cases a <;> cases i <;> decide

/-- **C114** Constructors do not refuse the shape of an accepted input or the helper shapes of its runs, its arrangement is an arrangement, and all its observables are observables
which are computed at some time. -/
theorem C114_made (hconv : Rampack.Spec.RoundsIntegers conv) {maxThreads : Nat} {t : Text} {p : Parameters Part} (h : matchWhole conv maxThreads fuel t = .ok p) :
    (∃ a, p.arrangement = .arrangement a) ∧ (∃ s, p.shape = .shape s ∧ s.check = .ok ()) ∧
      (∀ r, .relaxation r ∈ p.runs → ∀ x, r.helperShape = some x → ∃ s, x = .shape s ∧ s.check = .ok ()) ∧
      (∀ r ∈ p.runs, ∀ x ∈ runObservables r, ∃ o, x = .observable o ∧ 0 < o.scope ∧ o.scope < 8) ∧
      ∀ r, .integration r ∈ p.runs → ∀ x ∈ r.bulkObservables, ∃ b, x = .bulk b := by
  obtain ⟨P, -, -, hP⟩ := C114_parts hconv (fuel := fuel)
  obtain ⟨n, -, hn⟩ := (C114_input hconv hP).mp h
  clear h
  obtain ⟨h1, h2, h3, h4, h5, h6, -⟩ := hn
  obtain ⟨ns, -, h6⟩ := h6
  have shape : ∀ {n x}, ReadsShape P.shape n x → ∃ s, x = .shape s ∧ s.check = .ok () := by
    intro n x h
    obtain ⟨s, rfl, hs⟩ := (hP.shape n x).mp h
    exact ⟨s, rfl, ShapeExpr.C112_made hs⟩
  have observable : ∀ {n l}, ListOf (Reads P.observable) n l → ∀ x ∈ l, ∃ o : Observ.Scoped, x = .observable o ∧ 0 < o.scope ∧ o.scope < 8 := by
    rintro n l ⟨ms, -, h⟩ x hx
    obtain ⟨m, -, h⟩ := mem_forall h hx
    obtain ⟨o, rfl, ho⟩ := (hP.observable m x).mp h
    exact ⟨o, rfl, scope_bounds ho⟩
  refine ⟨?_, shape h4, fun r hr x hx => ?_, fun r hr => ?_, fun r hr x hx => ?_⟩
  · obtain ⟨a, ha, -⟩ := (hP.arrangement _ _).mp h3
    exact ⟨a, ha⟩
  · obtain ⟨m, -, h⟩ := mem_forall h6 hr
    cases h with
    | relaxation h =>
      obtain ⟨g1, g2, g3, g4, g5, g6, g7, g8, -⟩ := h
      rw [hx] at g8
      exact shape g8
  · obtain ⟨m, -, h⟩ := mem_forall h6 hr
    cases h with
    | integration h =>
      obtain ⟨g1, g2, g3, g4, g5, g6, g7, g8, g9, g10, g11, g12, g13, g14, g15, g16, -⟩ := h
      exact observable g16
    | relaxation h =>
      obtain ⟨g1, g2, g3, g4, g5, g6, g7, g8, g9, g10, g11, g12, g13, -⟩ := h
      exact observable g13
  · obtain ⟨m, -, h⟩ := mem_forall h6 hr
    cases h with
    | integration h =>
      obtain ⟨g1, g2, g3, g4, g5, g6, g7, g8, g9, g10, g11, g12, g13, g14, g15, g16, g17, g18, -⟩ := h
      obtain ⟨ms, -, g18⟩ := g18
      obtain ⟨m, -, h⟩ := mem_forall g18 hx
      obtain ⟨b, hb, -⟩ := (hP.bulkObservable m x).mp h
      exact ⟨b, hb⟩

/-! ### A case -/

/-- `lattice(sc(), cell_dim=2, n_cells=3)`. -/
def latticeNode : Node ℝ := .dataclass "lattice".toList [.dataclass "sc".toList [] []] [("cell_dim".toList, .int 2), ("n_cells".toList, .int 3)]

theorem latticeNode_is : ArrangeExpr.Spec.IsArrangement fuel latticeNode (.manual .sc (.number 2) ⟨3, 3, 3⟩ [] .full) :=
  .manual (ArrangeExpr.lattice_positional (by simp [NotGiven])) (by simp [ArrangeExpr.Spec.OnlyKeys]) (.sc (call_positional (ps := []) (ds := []) rfl rfl))
    ⟨_, ⟨[], _, rfl, by simp⟩, .number ⟨by simpa using ArrangeExpr.int_number 2, by norm_num⟩⟩ ⟨_, ⟨[_], _, rfl, by simp⟩, .one ⟨rfl, by norm_num⟩⟩
    (.inr ⟨by simp [NotGiven], rfl⟩) (.inr ⟨by simp [NotGiven], rfl⟩)

/-- `sphere(1)`. -/
def sphereNode : Node ℝ := .dataclass "sphere".toList [.int 1] []

theorem sphereNode_is : ShapeExpr.Spec.IsSpecies sphereNode (.sphere 1 .hard) :=
  .sphere (call_positional (ds := [.dataclass "hard".toList [] []]) rfl rfl) ⟨by simpa using ArrangeExpr.int_number 1, one_pos⟩ ShapeExpr.hard_means

/-- `nematic_order(True)`. -/
def nematicNode : Node ℝ := .dataclass "nematic_order".toList [.boolean true] []

theorem nematicNode_is : Observ.Spec.IsScoped nematicNode ⟨7, .nematicOrder true⟩ := .full (.nematic (call_positional (ds := []) rfl rfl) rfl)

/-- `density_histogram(None, 50)`. -/
def histogramNode : Node ℝ := .dataclass "density_histogram".toList [.none, .int 50] []

theorem histogramNode_is : Observ.Spec.IsBulk histogramNode (.density [1, 50, 1] .dummy .unit false) :=
  .density (call_positional (ds := [.none, .none, .string "unit".toList, .boolean false]) rfl rfl) .none (.some ⟨rfl, by decide⟩) .none (by decide) .none .unit rfl

/-- `integration("eq", 100, 200, 10, 1, None, [rotation(1)], disabled(), 20, 100, 10000, [], [], None, [nematic_order(True)], None, [density_histogram(None, 50)], "{}.txt")`. -/
def productionNode : Node ℝ :=
  .dataclass "integration".toList [.string "eq".toList, .int 100, .int 200, .int 10, .int 1, .none, .array [rotationNode], disabledNode, .int 20, .int 100, .int 10000, .array [], .array [],
    .none, .array [nematicNode], .none, .array [histogramNode], .string "{}.txt".toList] []

/-- The run which is meant. -/
noncomputable def productionRun : IntegrationRun Part :=
  ⟨"eq".toList, firstEnv, some 100, some 200, 10, 20, 100, 10000, [], none, [], none, [.observable ⟨7, .nematicOrder true⟩], [.bulk (.density [1, 50, 1] .dummy .unit false)], none, none,
    some "{}.txt".toList⟩

theorem productionNode_is {P : Parts Part} (hP : Documented fuel P) : IsIntegration P productionNode productionRun := by
  refine .mk (call_positional (ds := []) rfl rfl) rfl names.1 ⟨rfl, by norm_num⟩ ⟨rfl, by norm_num⟩ ⟨rfl, by norm_num [productionRun]⟩ firstEnv_is (.inl rfl)
    ⟨rfl, by norm_num [productionRun]⟩ ⟨rfl, by norm_num [productionRun]⟩ ⟨[], rfl, .nil⟩ (.inl ⟨rfl, by simp [productionRun]⟩) ⟨[], rfl, .nil⟩ (.inl ⟨rfl, by simp [productionRun]⟩) rfl
    ⟨_, rfl, .cons ((hP.observable _ _).mpr ⟨_, rfl, nematicNode_is⟩) .nil⟩ rfl ⟨_, rfl, .cons ((hP.bulkObservable _ _).mpr ⟨_, rfl, histogramNode_is⟩) .nil⟩ ⟨rfl, by decide⟩
    ⟨by simp [productionRun], by simp [productionRun], by simp [productionRun], by simp [productionRun]⟩

/-- `rampack("1.2.0", lattice(...), sphere(1), 1234, [integration(...)])`. -/
def wholeNode : Node ℝ := .dataclass "rampack".toList [.string "1.2.0".toList, latticeNode, sphereNode, .int 1234, .array [productionNode]] []

/-- The parameters which are meant. -/
noncomputable def wholeParameters : Parameters Part :=
  ⟨⟨1, 2, 0⟩, .arrangement (.manual .sc (.number 2) ⟨3, 3, 3⟩ [] .full), Env.empty, 1234, .shape (.sphere 1 .hard), [false, false, false], 1, [1, 1, 1], true, [.integration productionRun]⟩

theorem version_is : IsVersion (.string "1.2.0".toList) ⟨1, 2, 0⟩ := by
  refine ⟨_, rfl, ?_, .inl Nat.one_pos, .inr ⟨rfl, .inr ⟨rfl, le_rfl⟩⟩⟩
  refine ((C48_parse _).1 _).mpr ⟨[['1'], ['2'], ['0']], [1, 2, 0], by simp, by simp, rfl, .cons ?_ (.cons ?_ (.cons ?_ .nil)), rfl⟩
  · exact ⟨false, ['1'], ⟨[], [], [], by simp [Rampack.Spec.Blank], by simp [Rampack.Spec.Blank], by simp, by simp, by decide, rfl⟩, by decide, by decide⟩
  · exact ⟨false, ['2'], ⟨[], [], [], by simp [Rampack.Spec.Blank], by simp [Rampack.Spec.Blank], by simp, by simp, by decide, rfl⟩, by decide, by decide⟩
  · exact ⟨false, ['0'], ⟨[], [], [], by simp [Rampack.Spec.Blank], by simp [Rampack.Spec.Blank], by simp, by simp, by decide, rfl⟩, by decide, by decide⟩

theorem wholeNode_is {P : Parts Part} (hP : Documented fuel P) {maxThreads : Nat} : IsInput P maxThreads wholeNode wholeParameters := by
  refine .mk (call_positional (ps := [.string "1.2.0".toList, latticeNode, sphereNode, .int 1234, .array [productionNode]])
    (ds := [.none, .none, .none, .none, .array [.boolean false, .boolean false, .boolean false], .int 1, .array [.int 1, .int 1, .int 1], .boolean true]) rfl rfl)
    version_is ((hP.arrangement _ _).mpr ⟨_, rfl, latticeNode_is⟩) ((hP.shape _ _).mpr ⟨_, rfl, sphereNode_is⟩) (.inl rfl) ⟨_, rfl, .cons (.integration (productionNode_is hP)) .nil⟩
    ⟨rfl, rfl, .inl ⟨rfl, rfl⟩, .unset⟩ ⟨_, rfl, .cons rfl (.cons rfl (.cons rfl .nil))⟩ rfl (.inr ⟨rfl, Nat.one_pos⟩)
    ⟨_, rfl, .cons ⟨rfl, Nat.one_pos⟩ (.cons ⟨rfl, Nat.one_pos⟩ (.cons ⟨rfl, Nat.one_pos⟩ .nil))⟩ rfl rfl (by simp [wholeParameters]) ⟨_, rfl, rfl⟩

open Rampack.Spec in
theorem wholeNode_expressible {lit : ℝ → Text} : Expressible exact lit wholeNode := by
  have one : ∀ {c : Char} {r : Text} {ns : List (Node ℝ)}, isFirst c = true → (∀ d ∈ r, isName d = true) → ¬ Reserved (c :: r) → (∀ n ∈ ns, Expressible exact lit n) →
      Expressible exact lit (.dataclass (c :: r) ns []) := fun h1 h2 h3 h4 => .dataclass (identifier h1 h2) h3 h4 (by simp) (by simp) (by simp)
  have num : ∀ k : Int, InLong k → Expressible exact lit (.int k) := fun k h => .int h
  refine one (c := 'r') (r := "ampack".toList) (by decide) (by decide) (by unfold Reserved; decide) ?_
  simp only [List.forall_mem_cons, List.not_mem_nil, false_imp_iff, implies_true, and_true]
  refine ⟨.string, ?_, ?_, num _ (by unfold InLong; decide), .array ?_⟩
  · refine .dataclass (identifier (c := 'l') (r := "attice".toList) (by decide) (by decide)) (by unfold Reserved; decide) ?_ ?_ ?_ (by decide)
    · simp only [List.forall_mem_cons, List.not_mem_nil, false_imp_iff, implies_true, and_true]
      exact one (c := 's') (r := "c".toList) (by decide) (by decide) (by unfold Reserved; decide) (by simp)
    · simp only [List.forall_mem_cons, List.not_mem_nil, false_imp_iff, implies_true, and_true]
      exact ⟨num _ (by unfold InLong; decide), num _ (by unfold InLong; decide)⟩
    · simp only [List.forall_mem_cons, List.not_mem_nil, false_imp_iff, implies_true, and_true]
      exact ⟨identifier (c := 'c') (r := "ell_dim".toList) (by decide) (by decide), identifier (c := 'n') (r := "_cells".toList) (by decide) (by decide)⟩
  · refine one (c := 's') (r := "phere".toList) (by decide) (by decide) (by unfold Reserved; decide) ?_
    simp only [List.forall_mem_cons, List.not_mem_nil, false_imp_iff, implies_true, and_true]
    exact num _ (by unfold InLong; decide)
  · simp only [List.forall_mem_cons, List.not_mem_nil, false_imp_iff, implies_true, and_true]
    refine one (c := 'i') (r := "ntegration".toList) (by decide) (by decide) (by unfold Reserved; decide) ?_
    simp only [List.forall_mem_cons, List.not_mem_nil, false_imp_iff, implies_true, and_true]
    refine ⟨.string, num _ ?_, num _ ?_, num _ ?_, num _ ?_, .none, .array ?_, parts_expressible.2.2, num _ ?_, num _ ?_, num _ ?_, .array (by simp), .array (by simp), .none, .array ?_, .none,
      .array ?_, .string⟩
    all_goals first | (unfold InLong; decide) | skip
    · simp only [List.forall_mem_cons, List.not_mem_nil, false_imp_iff, implies_true, and_true]
      exact parts_expressible.1
    · simp only [List.forall_mem_cons, List.not_mem_nil, false_imp_iff, implies_true, and_true]
      refine one (c := 'n') (r := "ematic_order".toList) (by decide) (by decide) (by unfold Reserved; decide) ?_
      simp only [List.forall_mem_cons, List.not_mem_nil, false_imp_iff, implies_true, and_true]
      exact .boolean
    · simp only [List.forall_mem_cons, List.not_mem_nil, false_imp_iff, implies_true, and_true]
      refine one (c := 'd') (r := "ensity_histogram".toList) (by decide) (by decide) (by unfold Reserved; decide) ?_
      simp only [List.forall_mem_cons, List.not_mem_nil, false_imp_iff, implies_true, and_true]
      exact ⟨.none, num _ (by unfold InLong; decide)⟩

/-- The text of such an input is accepted. -/
theorem whole_text {lit : ℝ → Text} {maxThreads : Nat} : matchWhole exact maxThreads fuel (Rampack.Spec.canonical lit wholeNode) = .ok wholeParameters := by
  obtain ⟨P, -, -, hP⟩ := C114_parts exact_rounds (fuel := fuel)
  exact (C114_input exact_rounds hP).mpr ⟨_, C45_canonical exact_rounds wholeNode_expressible, wholeNode_is hP⟩

/-- The hypotheses of `C114_input`, `C114_unique` and `C114_made` are met. -/
example : (∃ P, Documented 0 P ∧ IsInput P 1 wholeNode wholeParameters) ∧ ∃ t, matchWhole exact 1 0 t = .ok wholeParameters ∧ wholeParameters.runs.length = 1 := by
  obtain ⟨P, -, -, hP⟩ := C114_parts exact_rounds (fuel := 0)
  exact ⟨⟨P, hP, wholeNode_is hP⟩, _, whole_text (lit := fun _ => []), rfl⟩

end Rampack.WholeInput
