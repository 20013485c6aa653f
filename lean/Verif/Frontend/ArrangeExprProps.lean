import Verif.Frontend.ArrangeExprWhole
import Verif.Frontend.ObservProps
import Verif.Lattice.ArrangePackProps
/-
Property C113: initial arrangements given as expressions are what the documentation says, and no other expressions are taken.
-/
namespace Rampack.ArrangeExpr

open Pyon Pyon.Spec Rampack.Input Rampack.Input.Spec Rampack.Arrange Rampack.ArrangeExpr.Spec Rampack.ShapeExpr.Spec
open Rampack.Observ (parse_text decimals_eq)
open Rampack.Spec (axisLetter documentedSites documentedSides ProperCell ProperDim ProperCount ProperFill LatticeReached FilledBox cellCount)

variable {conv : ℚ → Option ℝ} {fuel : Nat}

/-- **C113** A text is accepted as an initial arrangement exactly if it is an expression which means one, and then it is that arrangement. -/
theorem C113_arrangement (hconv : Rampack.Spec.RoundsIntegers conv) {t : Text} {r : Arrangement} :
    matchArrangement conv fuel t = .ok r ↔ ∃ n, parse conv t = .ok n ∧ IsArrangement fuel n r := by
  obtain ⟨c, e, rc⟩ := arrangement_reads hconv (fuel := fuel)
  unfold matchArrangement
  cases hn : parse conv t with
  | ok n =>
    rw [Outcome.ok_bind, e, Outcome.ok_bind]
    constructor
    · intro h
      cases hr : c.toMatcher.run n with
      | matched a =>
        rw [hr] at h
        obtain ⟨q, hq, rfl⟩ := (rc n a).mp hr
        cases h
        exact ⟨n, rfl, hq⟩
      | unmatched r => rw [hr] at h; cases h
      | thrown m => rw [hr] at h; cases h
    · rintro ⟨n', h1, h2⟩
      cases h1
      rw [(rc n _).mpr ⟨r, h2, rfl⟩]
  | throw m => exact ⟨fun h => (by cases h), fun ⟨_, h, _⟩ => (by cases h)⟩
  | ub => exact ⟨fun h => (by cases h), fun ⟨_, h, _⟩ => (by cases h)⟩
  | diverge => exact ⟨fun h => (by cases h), fun ⟨_, h, _⟩ => (by cases h)⟩

theorem meaning_unique {m : Matcher ℝ V} {R : Node ℝ → Arrangement → Prop} (hm : Interprets m R (fun r => .object (.arrangement r))) {n : Node ℝ} {r r' : Arrangement}
    (h : R n r) (h' : R n r') : r = r' := by
  have h1 := (hm n (.value (.object (.arrangement r)))).mpr ⟨r, h, rfl⟩
  have h2 := (hm n (.value (.object (.arrangement r')))).mpr ⟨r', h', rfl⟩
  rw [h1] at h2
  injection h2 with h2
  injection h2 with h2
  injection h2 with h2
  injection h2

/-- **C113** An expression means at most one arrangement, although there are three ways to give a lattice. -/
theorem C113_unique {n : Node ℝ} {r r' : Arrangement} (h : IsArrangement fuel n r) (h' : IsArrangement fuel n r') : r = r' := by
  have hr := arrangement_reads Observ.exact_rounds (fuel := fuel)
  exact hr.elim fun c hc => meaning_unique hc.2 h h'

theorem cell_proper {n : Node ℝ} {c : CellType} (h : IsCell n c) : ProperCell c := by
  cases h with
  | custom _ _ h => exact h
  | _ => simp [ProperCell, documentedSites]

theorem fill_proper {n : Node ℝ} {f : Filling} (h : IsFilling n f) {shuffle : Nat → List Nat → List Nat} (hs : ∀ seed l, (shuffle seed l).Perm l) : ProperFill (f.fill shuffle) := by
  cases h with
  | auto _ h => exact h.2
  | serial _ h h' =>
    obtain ⟨-, a, b, c, hn, e⟩ := h'
    exact ⟨h.2, ⟨a, b, c⟩, hn, e⟩
  | random _ h _ => exact ⟨h.2, hs _⟩

theorem fill_proper_or {ks : List (Text × Node ℝ)} {k : String} {f : Filling} (h : AtOr ks k IsFilling .full f) {shuffle : Nat → List Nat → List Nat}
    (hs : ∀ seed l, (shuffle seed l).Perm l) : ProperFill (f.fill shuffle) := by
  rcases h with ⟨n, -, h⟩ | ⟨-, rfl⟩
  · exact fill_proper h hs
  · trivial

/-- **C113** A lattice of cells of given dimensions which is accepted is made with the cells, molecules and box of the documentation, before transformations and
partial filling; these are done next, whatever they are. -/
theorem C113_manual (hconv : Rampack.Spec.RoundsIntegers conv) {t : Text} {c : CellType} {d : DimArg} {k : Vec3 Nat} {ts : List Transformation} {f : Filling}
    (h : matchArrangement conv fuel t = .ok (.manual c d k ts f)) (hs : cellCount k < 2 ^ 31) : ∃ (b B : Box) (L : Lattice) (g : List Shape) (cells : List (Vec3 Nat)),
      c.make d = .ok ⟨b, documentedSites c⟩ ∧ ((∀ a, d ≠ .number a) → b.sides = documentedSides d) ∧
      B.sides = ⟨(k.x : ℝ) • b.sides.x, (k.y : ℝ) • b.sides.y, (k.z : ℝ) • b.sides.z⟩ ∧ LatticeReached L ∧ L.dims = k ∧ L.box = b ∧ L.regular = true ∧
      manual c d k [] .full = .ok (B, g) ∧ FilledBox B k (documentedSites c) cells g ∧
      ∀ (T : List (Lattice → Outcome Lattice)) (shuffle : Nat → List Nat → List Nat), (∀ seed l, (shuffle seed l).Perm l) →
        manual c d k T (f.fill shuffle) = createPacking L T (f.fill shuffle) := by
  obtain ⟨n, -, hn⟩ := (C113_arrangement hconv).mp h
  cases hn with
  | manual _ _ h1 h2 h3 _ h5 =>
    obtain ⟨_, -, h2⟩ := h2
    obtain ⟨_, -, h3⟩ := h3
    obtain ⟨b, B, L, g, cells, q1, q2, q3, q4, q5, q6, q7, q8, q9, q10, -⟩ := C107_manual (cell_proper h1) (dim_proper h2) (cells_proper h3) hs
    exact ⟨b, B, L, g, cells, q1, q2, q3, q4, q5, q6, q7, q9, q10, fun T shuffle hp => q8 T _ (fill_proper_or h5 hp)⟩

/-- **C113** The same for a given number of cells in a given box, which is the box of the packing. -/
theorem C113_in_box (hconv : Rampack.Spec.RoundsIntegers conv) {t : Text} {c : CellType} {d : DimArg} {k : Vec3 Nat} {ts : List Transformation} {f : Filling}
    (h : matchArrangement conv fuel t = .ok (.inBox c d k ts f)) (hs : cellCount k < 2 ^ 31) : ∃ (B : Box) (L : Lattice) (g : List Shape) (cells : List (Vec3 Nat)),
      B.sides = documentedSides d ∧ LatticeReached L ∧ L.dims = k ∧ L.regular = true ∧ inBox c d k [] .full = .ok (B, g) ∧ FilledBox B k (documentedSites c) cells g ∧
      ∀ (T : List (Lattice → Outcome Lattice)) (shuffle : Nat → List Nat → List Nat), (∀ seed l, (shuffle seed l).Perm l) →
        inBox c d k T (f.fill shuffle) = createPacking L T (f.fill shuffle) := by
  obtain ⟨n, -, hn⟩ := (C113_arrangement hconv).mp h
  cases hn with
  | inBox _ _ h1 h2 h3 _ h5 =>
    obtain ⟨_, -, h2⟩ := h2
    obtain ⟨_, -, h3⟩ := h3
    obtain ⟨B, L, g, cells, q1, -, q2, q3, q4, q5, q6, q7, -⟩ := C107_in_box (cell_proper h1) (dim_proper h3) (cells_proper h2) hs
    exact ⟨B, L, g, cells, q1, q2, q3, q4, q6, q7, fun T shuffle hp => q5 T _ (fill_proper_or h5 hp)⟩

/-- **C113** A number of shapes in a box is accepted, unless the box is flat: if no height is less than half of the side of a cube, as many of which as needed have the
volume of the box. Then there are enough molecules in that box. -/
theorem C113_automatic_partial {n a : Node ℝ} {ks : List (Text × Node ℝ)} {c : CellType} {d : DimArg} {m : Nat} {ts : List Transformation} (h0 : LatticeCall n a ks)
    (h1 : OnlyKeys ks ["cell", "box_dim", "n_shapes", "transformations"]) (h2 : IsCell a c) (h3 : At ks "box_dim" IsDim d) (h4 : At ks "n_shapes" IsCount m)
    (h5 : AtOr ks "transformations" (ListOf IsTransformation) [] ts) (hm : m < 2 ^ 28) (hf : m ≤ fuel) {B : Box} (hB : d.box = .ok B) {t : ℝ} (ht : 0 < t)
    (hV : t ^ 3 * ⌈(m : ℝ) / (documentedSites c).length⌉₊ = B.heights.x * B.heights.y * B.heights.z) (hh : ∀ a, t / 2 ≤ B.heights.get a) :
    IsArrangement fuel n (.automatic c d m ts) ∧ B.sides = documentedSides d ∧ ∃ (g : List Shape) (k : Vec3 Nat) (cells : List (Vec3 Nat)),
      automatic fuel c d m [] = .ok (B, g) ∧ FilledBox B k (documentedSites c) cells g ∧ m ≤ g.length := by
  obtain ⟨_, g3, g3'⟩ := id h3
  obtain ⟨_, g4, g4'⟩ := id h4
  have hd := dim_proper g3'
  obtain ⟨k, L, g, cells, q1, q2, q3, -, q4, q5, q6, q7, -, q8⟩ := C107_automatic_partial (cell_proper h2) hd g4'.2 hm hB ht hV hh
  have hp : ProperCount k := by
    rw [← q3]
    exact ⟨q2.inv.x, q2.inv.y, q2.inv.z⟩
  exact ⟨.automatic h0 h1 h2 h3 h4 ⟨B, k, hB, q4 fuel hf, hp⟩ h5, q1, g, k, cells, q6 fuel hf, q7, q8⟩

/-! ### What is refused -/

/-- The documentation names the class of hexagonal cells `hex`, but the program takes no lattice of such cells. -/
theorem C113_hex_violated (hconv : Rampack.Spec.RoundsIntegers conv) {t : Text} {n a : Node ℝ} {ks : List (Text × Node ℝ)} {ps : List (Node ℝ)} {ks' : List (Text × Node ℝ)}
    (ht : parse conv t = .ok n) (h : LatticeCall n a ks) (ha : a = .dataclass "hex".toList ps ks') (r : Arrangement) : matchArrangement conv fuel t ≠ .ok r := by
  intro hr
  obtain ⟨n', h1, h2⟩ := (C113_arrangement hconv).mp hr
  rw [ht] at h1
  cases h1
  have one : ∀ {a' ks'}, LatticeCall n a' ks' → a' = a := by
    intro a' ks' h'
    obtain ⟨qs, e1, l1, -, e2⟩ := h
    obtain ⟨qs', e1', l1', -, e2'⟩ := h'
    rw [e1] at e1'
    cases e1'
    have p1 := e2 0 "cell" none a rfl rfl
    have p2 := e2' 0 "cell" none a' rfl rfl
    rcases p1 with ⟨p1, p1'⟩ | ⟨p1, p1'⟩ | ⟨-, -, p1⟩
    · rcases p2 with ⟨p2, -⟩ | ⟨p2, -⟩ | ⟨-, -, p2⟩
      · rw [p1] at p2; injection p2 with p2; exact p2.symm
      · rw [List.getElem?_eq_none p2] at p1; cases p1
      · cases p2
    · rcases p2 with ⟨p2, -⟩ | ⟨-, p2⟩ | ⟨-, -, p2⟩
      · rw [List.getElem?_eq_none p1] at p2; cases p2
      · exact Pyon.given_unique p2 p1'
      · cases p2
    · cases p1
  have no : ∀ {c}, ¬ IsCell a c := by
    intro c hc
    rw [ha] at hc
    cases hc with
    | _ h => obtain ⟨_, _, h, -⟩ := h; simp at h
  cases h2 with
  | presimulated g _ =>
    obtain ⟨_, e, -⟩ := h
    obtain ⟨_, _, e', -⟩ := g
    rw [e] at e'
    simp at e'
  | manual g _ h _ _ _ _ => rw [one g] at h; exact no h
  | automatic g _ h _ _ _ _ => rw [one g] at h; exact no h
  | inBox g _ h _ _ _ _ => rw [one g] at h; exact no h

/-! ### Cases -/

theorem lattice_positional {a : Node ℝ} {ks : List (Text × Node ℝ)} (h : NotGiven ks "cell".toList) : LatticeCall (.dataclass "lattice".toList [a] ks) a ks := by
  refine ⟨[a], rfl, le_rfl, rfl, fun i k dflt b hi hb => ?_⟩
  match i, hi, hb with
  | 0, hi, hb =>
    cases hi
    cases hb
    exact .inl ⟨rfl, h⟩
  | i + 1, hi, _ => simp at hi

theorem int_number (k : Nat) : IsNumber (.int k) (k : ℝ) := .inr ⟨k, rfl, by simp⟩

/-- A lattice of 2 × 2 × 2 cells 1 × 1 × 2, whose columns are moved, with 5 molecules of 8. -/
theorem demo_text (hconv : Rampack.Spec.RoundsIntegers conv) :
    matchArrangement conv fuel "lattice(sc(), cell_dim=[1, 1, 2], n_cells=2, transformations=[columnar(\"z\", 7)], fill_partially=serial(5))".toList =
    .ok (.manual .sc (.lengths ⟨1, 1, 2⟩) ⟨2, 2, 2⟩ [.columnar 2 7] (.auto 5)) := by
  have i1 : IsPositive (.int 1) 1 := ⟨by simpa using int_number 1, by norm_num⟩
  have i2 : IsPositive (.int 2) 2 := ⟨by simpa using int_number 2, by norm_num⟩
  have ex : ∀ k : Int, Rampack.Spec.InLong k → Rampack.Spec.Expressible conv (fun _ => []) (.int k : Node ℝ) := fun k h => .int h
  refine (C113_arrangement hconv).mpr ⟨.dataclass "lattice".toList [.dataclass "sc".toList [] []] [("cell_dim".toList, .array [.int 1, .int 1, .int 2]), ("n_cells".toList, .int 2),
    ("transformations".toList, .array [.dataclass "columnar".toList [.string "z".toList, .int 7] []]), ("fill_partially".toList, .dataclass "serial".toList [.int 5] [])],
    parse_text hconv ?_ (by simp only [Rampack.Spec.canonical, Rampack.Spec.canonicals, Rampack.Spec.canonicalEntries, Rampack.Spec.joinText, Rampack.Spec.intText,
      decimals_eq 12, List.append_nil]; rfl), ?_⟩
  · refine .dataclass ⟨'l', "attice".toList, rfl, by unfold Rampack.Spec.Letter; decide⟩ (by unfold Rampack.Spec.Reserved; decide) ?_ ?_ ?_ (by decide)
    · simp only [List.mem_cons, List.not_mem_nil, or_false, forall_eq]
      exact .dataclass ⟨'s', "c".toList, rfl, by unfold Rampack.Spec.Letter; decide⟩ (by unfold Rampack.Spec.Reserved; decide) (by simp) (by simp) (by simp) (by simp)
    · simp only [List.mem_cons, List.not_mem_nil, or_false, forall_eq_or_imp, forall_eq]
      refine ⟨.array ?_, ex _ (by unfold Rampack.Spec.InLong; decide), .array ?_, .dataclass ⟨'s', "erial".toList, rfl, by unfold Rampack.Spec.Letter; decide⟩
        (by unfold Rampack.Spec.Reserved; decide) ?_ (by simp) (by simp) (by simp)⟩
      · simp only [List.mem_cons, List.not_mem_nil, or_false, forall_eq_or_imp, forall_eq]
        exact ⟨ex _ (by unfold Rampack.Spec.InLong; decide), ex _ (by unfold Rampack.Spec.InLong; decide), ex _ (by unfold Rampack.Spec.InLong; decide)⟩
      · simp only [List.mem_cons, List.not_mem_nil, or_false, forall_eq]
        refine .dataclass ⟨'c', "olumnar".toList, rfl, by unfold Rampack.Spec.Letter; decide⟩ (by unfold Rampack.Spec.Reserved; decide) ?_ (by simp) (by simp) (by simp)
        simp only [List.mem_cons, List.not_mem_nil, or_false, forall_eq_or_imp, forall_eq]
        exact ⟨.string, ex _ (by unfold Rampack.Spec.InLong; decide)⟩
      · simp only [List.mem_cons, List.not_mem_nil, or_false, forall_eq]
        exact ex _ (by unfold Rampack.Spec.InLong; decide)
    · simp only [List.mem_cons, List.not_mem_nil, or_false, forall_eq_or_imp, forall_eq]
      exact ⟨⟨'c', "ell_dim".toList, rfl, by unfold Rampack.Spec.Letter; decide⟩, ⟨'n', "_cells".toList, rfl, by unfold Rampack.Spec.Letter; decide⟩,
        ⟨'t', "ransformations".toList, rfl, by unfold Rampack.Spec.Letter; decide⟩, ⟨'f', "ill_partially".toList, rfl, by unfold Rampack.Spec.Letter; decide⟩⟩
  · refine .manual (lattice_positional ?_) ?_ (.sc (call_positional (ps := []) (ds := []) rfl rfl)) ⟨_, ⟨[], _, rfl, ?_⟩, .lengths i1 i1 i2⟩
      ⟨_, ⟨[_], _, rfl, ?_⟩, .one ⟨rfl, by norm_num⟩⟩ (.inl ⟨_, ⟨[_, _], _, rfl, ?_⟩, _, rfl, .cons (.columnar (axis := 2) (seed := 7) (call_positional (ds := []) rfl rfl) rfl (.inl rfl)) .nil⟩)
      (.inl ⟨_, ⟨[_, _, _], _, rfl, ?_⟩, .auto (call_positional (ds := [.string "auto".toList]) rfl rfl) ⟨rfl, by norm_num⟩⟩)
    · simp [NotGiven]
    · simp [OnlyKeys]
    all_goals simp

/-- The hypotheses of `C113_manual` are met. -/
example (hconv : Rampack.Spec.RoundsIntegers conv) : ∃ (B : Box) (g : List Shape) (cells : List (Vec3 Nat)), manual .sc (.lengths ⟨1, 1, 2⟩) ⟨2, 2, 2⟩ [] .full = .ok (B, g) ∧
    FilledBox B ⟨2, 2, 2⟩ (documentedSites .sc) cells g := by
  obtain ⟨_, B, _, g, cells, -, -, -, -, -, -, -, h1, h2, -⟩ := C113_manual hconv (demo_text hconv (fuel := 0)) (by decide)
  exact ⟨B, g, cells, h1, h2⟩

/-- The hypothesis of `C113_in_box` is met. -/
example (hconv : Rampack.Spec.RoundsIntegers conv) : matchArrangement conv fuel "lattice(bcc(), n_cells=2, box_dim=3)".toList = .ok (.inBox .bcc (.number 3) ⟨2, 2, 2⟩ [] .full) := by
  have i3 : IsPositive (.int 3) 3 := ⟨by simpa using int_number 3, by norm_num⟩
  refine (C113_arrangement hconv).mpr ⟨.dataclass "lattice".toList [.dataclass "bcc".toList [] []] [("n_cells".toList, .int 2), ("box_dim".toList, .int 3)],
    parse_text hconv ?_ (by simp only [Rampack.Spec.canonical, Rampack.Spec.canonicals, Rampack.Spec.canonicalEntries, Rampack.Spec.joinText, Rampack.Spec.intText,
      decimals_eq 12, List.append_nil]; rfl), ?_⟩
  · refine .dataclass ⟨'l', "attice".toList, rfl, by unfold Rampack.Spec.Letter; decide⟩ (by unfold Rampack.Spec.Reserved; decide) ?_ ?_ ?_ (by decide)
    · simp only [List.mem_cons, List.not_mem_nil, or_false, forall_eq]
      exact .dataclass ⟨'b', "cc".toList, rfl, by unfold Rampack.Spec.Letter; decide⟩ (by unfold Rampack.Spec.Reserved; decide) (by simp) (by simp) (by simp) (by simp)
    · simp only [List.mem_cons, List.not_mem_nil, or_false, forall_eq_or_imp, forall_eq]
      exact ⟨.int (by unfold Rampack.Spec.InLong; decide), .int (by unfold Rampack.Spec.InLong; decide)⟩
    · simp only [List.mem_cons, List.not_mem_nil, or_false, forall_eq_or_imp, forall_eq]
      exact ⟨⟨'n', "_cells".toList, rfl, by unfold Rampack.Spec.Letter; decide⟩, ⟨'b', "ox_dim".toList, rfl, by unfold Rampack.Spec.Letter; decide⟩⟩
  · refine .inBox (lattice_positional (by simp [NotGiven])) (by simp [OnlyKeys]) (.bcc (call_positional (ps := []) (ds := []) rfl rfl))
      ⟨_, ⟨[], _, rfl, by simp⟩, .one ⟨rfl, by norm_num⟩⟩ ⟨_, ⟨[_], _, rfl, by simp⟩, .number i3⟩ (.inr ⟨by simp [NotGiven], rfl⟩) (.inr ⟨by simp [NotGiven], rfl⟩)

/-- The hypotheses of `C113_automatic_partial` are met: 8 molecules in the box 2 × 2 × 2. -/
example : IsArrangement 8 (.dataclass "lattice".toList [.dataclass "sc".toList [] []] [("box_dim".toList, .int 2), ("n_shapes".toList, .int 8)])
    (.automatic .sc (.number 2) 8 []) := by
  have i2 : IsPositive (.int 2) 2 := ⟨by simpa using int_number 2, by norm_num⟩
  obtain ⟨B, hB, -, -⟩ := dim_box (dim := .number 2) (by norm_num [ProperDim])
  have hh : B.heights = ⟨2, 2, 2⟩ := cuboid_heights (l := ⟨2, 2, 2⟩) (by norm_num) hB
  have hN : ⌈((8 : ℕ) : ℝ) / ((documentedSites .sc).length : ℕ)⌉₊ = 8 := by simp [documentedSites]
  refine (C113_automatic_partial (lattice_positional (by simp [NotGiven])) (by simp [OnlyKeys]) (.sc (call_positional (ps := []) (ds := []) rfl rfl))
    ⟨_, ⟨[], _, rfl, by simp⟩, .number i2⟩ ⟨_, ⟨[_], _, rfl, by simp⟩, rfl, by norm_num⟩ (.inr ⟨by simp [NotGiven], rfl⟩) (by norm_num) le_rfl hB (t := 1) one_pos
    (by rw [hN, hh]; norm_num) (by intro a; rw [hh]; fin_cases a <;> norm_num [Vec3.get])).1

/-- Molecules in a flat box. -/
def flatNode : Node ℝ := .dataclass "lattice".toList [.dataclass "sc".toList [] []] [("box_dim".toList, .array [.int 100, .int 100, .int 1]), ("n_shapes".toList, .int 10)]

theorem flat_keys {k : String} {R : Node ℝ → α → Prop} {x : α}
    (h : At [("box_dim".toList, .array [.int 100, .int 100, .int 1]), ("n_shapes".toList, .int 10)] k R x) : k = "box_dim" ∨ k = "n_shapes" := by
  obtain ⟨n, h, -⟩ := h
  have := given_mem h
  simp only [List.mem_cons, List.not_mem_nil, or_false, Prod.mk.injEq, String.toList_inj] at this
  exact this.imp And.left And.left

theorem flat_dim {d : DimArg} (h : At [("box_dim".toList, .array [.int 100, .int 100, .int 1]), ("n_shapes".toList, .int 10)] "box_dim" IsDim d) : d = .lengths ⟨100, 100, 1⟩ := by
  obtain ⟨n, h, h'⟩ := h
  have := given_mem h
  simp only [List.mem_cons, List.not_mem_nil, or_false, Prod.mk.injEq, String.toList_inj, String.reduceEq, false_and, true_and] at this
  subst this
  have num : ∀ {k : Int} {x : ℝ}, IsPositive (.int k) x → x = k := by
    rintro k x ⟨h | ⟨j, h, rfl⟩, -⟩
    · cases h
    · cases h
      rfl
  cases h' with
  | number h => obtain ⟨h | ⟨_, h, -⟩, -⟩ := h <;> cases h
  | lengths h1 h2 h3 =>
    rw [num h1, num h2, num h3]
    norm_num
  | vectors h _ _ _ => obtain ⟨_, _, _, h, -⟩ := h; cases h

/-- **C113** The documentation allows any number of shapes in any box, but the lattice of 10 molecules in the box 100 × 100 × 1 is never made, however long one waits. -/
theorem C113_flat_violated (fuel : Nat) (r : Arrangement) : ¬ IsArrangement fuel flatNode r := by
  intro h
  unfold flatNode at h
  have args : ∀ {a ks}, LatticeCall flatNode a ks → a = .dataclass "sc".toList [] [] ∧
      ks = [("box_dim".toList, .array [.int 100, .int 100, .int 1]), ("n_shapes".toList, .int 10)] := by
    rintro a ks ⟨ps, e, -, -, h⟩
    cases e
    rcases h 0 "cell" none a rfl rfl with ⟨h, -⟩ | ⟨h, -⟩ | ⟨-, -, h⟩
    · cases h
      exact ⟨rfl, rfl⟩
    · simp at h
    · cases h
  cases h with
  | presimulated h _ => obtain ⟨_, _, h, -⟩ := h; simp at h
  | manual h _ _ h1 _ _ _ =>
    obtain ⟨rfl, rfl⟩ := args h
    simpa using flat_keys h1
  | inBox h _ _ h1 _ _ _ =>
    obtain ⟨rfl, rfl⟩ := args h
    simpa using flat_keys h1
  | automatic h _ hc h1 h2 h3 _ =>
    obtain ⟨rfl, rfl⟩ := args h
    cases flat_dim h1
    obtain ⟨n, hg, hn⟩ := h2
    have := given_mem hg
    simp only [List.mem_cons, List.not_mem_nil, or_false, Prod.mk.injEq, String.toList_inj, String.reduceEq, false_and, true_and, false_or] at this
    subst this
    obtain ⟨hm, -⟩ := hn
    injection hm with hm
    obtain rfl := Int.ofNat.inj hm.symm
    have hcell : ∀ {c}, IsCell (.dataclass "sc".toList [] []) c → documentedSites c = documentedSites .sc := by
      intro c hc
      cases hc with
      | sc _ => rfl
      | _ h => obtain ⟨_, _, h, -⟩ := h; simp at h
    obtain ⟨B, k, hB, hk, -⟩ := h3
    rw [hcell hc] at hk
    obtain ⟨B', hB', hw, -⟩ := dim_box (dim := .lengths ⟨100, 100, 1⟩) (by norm_num [ProperDim])
    rw [hB] at hB'
    cases hB'
    have hh : B.heights = ⟨100, 100, 1⟩ := cuboid_heights (l := ⟨100, 100, 1⟩) (by norm_num) hB
    have hN : ⌈((10 : ℕ) : ℝ) / ((1 : ℕ) : ℝ)⌉₊ = 10 := by simp
    have hd := C107_flat_violated (n := 10) (s := 1) hw (by norm_num) (by norm_num) (t := 10) (by norm_num) (by rw [hN, hh]; norm_num)
      (by intro i; rw [hh]; fin_cases i <;> norm_num [Vec3.get]) (a := 2) (by rw [hh]; norm_num [Vec3.get]) fuel
    have hk : LatticeDimensions.optimize fuel 10 1 B = .ok k := hk
    rw [hd] at hk
    cases hk

/-- The hypotheses of `C113_hex_violated` are met by an expression of the documentation. -/
example : LatticeCall (.dataclass "lattice".toList [.dataclass "hex".toList [.string "z".toList] []] [("cell_dim".toList, .int 1), ("n_cells".toList, .int 5)])
    (.dataclass "hex".toList [.string "z".toList] []) [("cell_dim".toList, .int 1), ("n_cells".toList, .int 5)] :=
  lattice_positional (by simp [NotGiven])

end Rampack.ArrangeExpr
