import Verif.Frontend.ArrangeExprKeywords
/-
What the matchers of arrangements read.
-/
namespace Rampack.ArrangeExpr

open Pyon Pyon.Spec Rampack.Input Rampack.Input.Spec Rampack.Arrange Rampack.ShapeExpr.Spec Rampack.ArrangeExpr.Spec
open Rampack.Spec (axisLetter documentedSites ProperCount ProperDim)

variable {conv : ℚ → Option ℝ}

/-! ### Named arguments -/

section

variable {kw : DictionaryMatcher ℝ V} {ks es : List (Text × Node ℝ)} {as : List (Text × Any ℝ V)} {st : List (Text × Any ℝ V)} (hd : DictionaryOf kw es as)
  (hes : ∀ k n, Given es k n ↔ Given ks k n ∧ k ≠ "cell".toList)
  {α : Type} {k : String} (hk : k.toList ≠ "cell".toList) {m : Matcher ℝ V} (hval : ∀ n a, ValueAt kw k.toList n a ↔ m.run n = .matched a)
  {R : Node ℝ → α → Prop} {wrap : α → V} (hr : Interprets m R wrap) {cast : Any ℝ V → Except String α} (hc : ∀ x, cast (.value (wrap x)) = .ok x)

include hd hes hk hval hr in
theorem find_at {a : Any ℝ V} : find k.toList as = some a ↔ ∃ x, At ks k R x ∧ a = .value (wrap x) := by
  rw [find_given hd]
  constructor
  · rintro ⟨n, h1, h2⟩
    obtain ⟨x, hx, rfl⟩ := (hr _ _).mp ((hval _ _).mp h2)
    exact ⟨x, ⟨n, ((hes _ _).mp h1).1, hx⟩, rfl⟩
  · rintro ⟨x, ⟨n, h1, h2⟩, rfl⟩
    exact ⟨n, (hes _ _).mpr ⟨h1, hk⟩, (hval _ _).mpr ((hr _ _).mpr ⟨x, h2, rfl⟩)⟩

include hd hes hk in
theorem find_not : find k.toList as = none ↔ NotGiven ks k.toList := by
  rw [find_not_given hd, not_given_iff, not_given_iff]
  refine forall_congr' fun n => not_congr ?_
  rw [hes]
  exact ⟨fun h => h.1, fun h => ⟨h, hk⟩⟩

include hd hes hk hval hr hc in
theorem kwarg_at {x : α} : (kwarg ⟨st, [], as⟩ k >>= cast) = .ok x ↔ At ks k R x := by
  unfold kwarg
  simp only
  constructor
  · intro h
    cases hf : find k.toList as with
    | none => rw [hf] at h; cases h
    | some a =>
      rw [hf] at h
      obtain ⟨y, hy, rfl⟩ := (find_at hd hes hk hval hr).mp hf
      rw [ok_bind', hc] at h
      cases h
      exact hy
  · intro h
    rw [(find_at hd hes hk hval hr).mpr ⟨x, h, rfl⟩]
    exact hc x

include hd hes hk hval hr hc in
theorem kwarg_or {d x : α} : (if (find k.toList as).isSome then kwarg ⟨st, [], as⟩ k >>= cast else .ok d) = .ok x ↔ AtOr ks k R d x := by
  by_cases h : find k.toList as = none
  · have hn := (find_not hd hes hk).mp h
    rw [h]
    constructor
    · intro e
      cases e
      exact .inr ⟨hn, rfl⟩
    · rintro (⟨n, h1, -⟩ | ⟨-, rfl⟩)
      · exact absurd h1 (not_given_iff.mp hn n)
      · rfl
  · rw [if_pos (Option.isSome_iff_ne_none.mpr h), kwarg_at hd hes hk hval hr hc]
    constructor
    · exact .inl
    · rintro (h1 | ⟨h1, -⟩)
      · exact h1
      · exact absurd ((find_not hd hes hk).mpr h1) h

end

/-! ### Lattices -/

theorem dim_proper {n : Node ℝ} {d : DimArg} (h : IsDim n d) : ProperDim d := by
  cases h with
  | number h => exact h.2
  | lengths h1 h2 h3 => exact ⟨h1.2, h2.2, h3.2⟩
  | vectors h1 h2 h3 h4 => exact h4

theorem cells_proper {n : Node ℝ} {k : Vec3 Nat} (h : IsCells n k) : ProperCount k := by
  cases h with
  | one h => exact ⟨h.2, h.2, h.2⟩
  | three h1 h2 h3 => exact ⟨h1.2, h2.2, h3.2⟩

theorem create_ok {c : UnitCell} {k : Vec3 Nat} : (∃ L, Lattice.create c k = .ok L) ↔ ProperCount k := by
  unfold Lattice.create ProperCount
  constructor
  · rintro ⟨L, h⟩
    obtain ⟨_, h', -⟩ := Outcome.bind_eq_ok.mp h
    have := Outcome.require_eq_ok.mp h'
    simpa [and_assoc] using this
  · rintro ⟨h1, h2, h3⟩
    simp only [h1, h2, h3, decide_true, Bool.and_self, Outcome.require_true, Outcome.ok_bind]
    exact ⟨_, rfl⟩

theorem manualLattice_ok {c : CellType} {d : DimArg} {k : Vec3 Nat} (hd : ProperDim d) (hk : ProperCount k) : ∃ L, manualLattice c d k = .ok L := by
  obtain ⟨b, -, h, -⟩ := cell_make (c := c) hd
  rw [manualLattice, h, Outcome.ok_bind]
  exact create_ok.mpr hk

theorem inBoxLattice_ok {c : CellType} {d : DimArg} {k : Vec3 Nat} (hd : ProperDim d) (hk : ProperCount k) : ∃ L, inBoxLattice c d k = .ok L := by
  obtain ⟨B, h1, h2, -⟩ := dim_box hd
  obtain ⟨b, -, h, -⟩ := divide_ok (c := c) h2 hk
  rw [inBoxLattice, h1, Outcome.ok_bind, h, Outcome.ok_bind]
  exact create_ok.mpr hk

theorem automaticLattice_ok {fuel : Nat} {c : CellType} {d : DimArg} {m : Nat} (hd : ProperDim d) : (∃ L, automaticLattice fuel c d m = .ok L) ↔ Found fuel c d m := by
  obtain ⟨B, h1, h2, -⟩ := dim_box hd
  obtain ⟨b, -, h3⟩ := withNumber_ok (c := c) one_pos
  rw [automaticLattice, h1, Outcome.ok_bind, h3, Outcome.ok_bind]
  constructor
  · rintro ⟨L, h⟩
    obtain ⟨n, h4, h⟩ := Outcome.bind_eq_ok.mp h
    obtain ⟨u, -, h⟩ := Outcome.bind_eq_ok.mp h
    exact ⟨B, n, h1, h4, create_ok.mp ⟨L, h⟩⟩
  · rintro ⟨B', n, e, h4, h5⟩
    rw [h1] at e
    cases e
    rw [h4, Outcome.ok_bind]
    obtain ⟨b, -, h, -⟩ := divide_ok (c := c) h2 h5
    rw [h, Outcome.ok_bind]
    exact create_ok.mpr h5

/-! ### Classes -/

section

variable (cell : Matcher ℝ V) (tr fill : Matcher ℝ V)

/-- Named arguments of manual lattices. -/
noncomputable def manualWords : DictionaryMatcher ℝ V :=
  keywords [("cell_dim", cellDim.toMatcher), ("n_cells", nCells.toMatcher), ("transformations", tr), ("fill_partially", fill)]
    ["cell_dim", "n_cells", "transformations", "fill_partially"] ["cell_dim", "n_cells"]

/-- Named arguments of lattices with a given number of shapes. -/
noncomputable def automaticWords : DictionaryMatcher ℝ V :=
  keywords [("box_dim", cellDim.toMatcher), ("n_shapes", size [intPositive]), ("transformations", tr)] ["box_dim", "n_shapes", "transformations"] ["box_dim", "n_shapes"]

/-- Named arguments of lattices with a given number of cells in a box. -/
noncomputable def inBoxWords : DictionaryMatcher ℝ V :=
  keywords [("n_cells", nCells.toMatcher), ("box_dim", cellDim.toMatcher), ("transformations", tr), ("fill_partially", fill)]
    ["n_cells", "box_dim", "transformations", "fill_partially"] ["n_cells", "box_dim"]

/-- A class with these named arguments. -/
def latticeClass (kw : DictionaryMatcher ℝ V) (f : ClassData ℝ V → Except String V) : ClassMatcher ℝ V :=
  ClassMatcher.mapTo ⟨"lattice".toList, [⟨"cell".toList, some cell, none⟩], none, some kw, [], fun d => (f d).map .value⟩ f

end

/-- Matchers of values by the key, one after another. -/
theorem value_cons {p : String × Matcher ℝ V} {l : List (String × Matcher ℝ V)} {only mandatory : List String} {k : Text} {n : Node ℝ} {a : Any ℝ V} :
    ValueAt (keywords (p :: l) only mandatory) k n a ↔ if k = p.1.toList then p.2.run n = .matched a else ValueAt (keywords l only mandatory) k n a := by
  unfold keywords
  rw [← matchKey_iff, ← matchKey_iff]
  by_cases h : k = p.1.toList
  · simp only [valuesAt, List.map_cons, matchKey, decide_eq_true h, if_pos h, if_true]
    cases p.2.run n <;> simp [Result.inside]
  · simp only [valuesAt, List.map_cons, matchKey, decide_eq_false h, if_neg h]
    simp

theorem value_nil {only mandatory : List String} {k : Text} {n : Node ℝ} {a : Any ℝ V} : ValueAt (keywords [] only mandatory) k n a ↔ a = .node n := by
  unfold keywords
  rw [← matchKey_iff]
  simp [valuesAt, matchKey, eq_comm]

theorem only_keys {l : List (String × Matcher ℝ V)} {only mandatory : List String} {ks es : List (Text × Node ℝ)} {as : List (Text × Any ℝ V)}
    (hd : DictionaryOf (keywords l only mandatory) es as) (hes : ∀ k n, Given es k n ↔ Given ks k n ∧ k ≠ "cell".toList) : OnlyKeys ks ("cell" :: only) := by
  intro e he
  by_cases hc : e.1 = "cell".toList
  · exact ⟨_, by simp, hc⟩
  · obtain ⟨w, hw⟩ := given_of_mem (k := e.1) (v := e.2) he
    obtain ⟨a, ha, -⟩ := hd.all _ _ ((hes _ _).mpr ⟨hw, hc⟩)
    have := hd.satisfied (hasOnlyKeys only) (by simp [keywords])
    simp only [hasOnlyKeys, Except.ok.injEq, List.all_eq_true, List.any_eq_true, decide_eq_true_eq] at this
    obtain ⟨s, hs, e⟩ := this _ ha
    exact ⟨s, by simp [hs], e⟩

theorem words_exist {l : List (String × Matcher ℝ V)} {only mandatory : List String} {ks : List (Text × Node ℝ)} (ho : OnlyKeys ks ("cell" :: only))
    (hv : ∀ s ∈ only, ∀ n, Given ks s.toList n → ∃ a, ValueAt (keywords l only mandatory) s.toList n a) (hm : ∀ s ∈ mandatory, s ≠ "cell" ∧ ∃ n, Given ks s.toList n) :
    ∃ es as, (∀ k n, Given es k n ↔ Given ks k n ∧ k ≠ "cell".toList) ∧ DictionaryOf (keywords l only mandatory) es as := by
  have hes : ∀ k n, Given ((toMap ks).filter fun e => decide (e.1 ≠ "cell".toList)) k n ↔ Given ks k n ∧ k ≠ "cell".toList := by
    intro k n
    rw [lattice_rest (p := fun k => decide (k ≠ "cell".toList)), decide_eq_true_eq]
  have hkey : ∀ k n, Given ((toMap ks).filter fun e => decide (e.1 ≠ "cell".toList)) k n → ∃ s ∈ only, k = s.toList := by
    intro k n h
    obtain ⟨h1, h2⟩ := (hes k n).mp h
    obtain ⟨s, hs, e⟩ := ho _ (given_mem h1)
    rcases List.mem_cons.mp hs with rfl | hs
    · exact absurd e h2
    · exact ⟨s, hs, e⟩
  obtain ⟨as, -, h2, h3, h4⟩ := dictionary_exists (m := keywords l only mandatory) (es := (toMap ks).filter fun e => decide (e.1 ≠ "cell".toList)) (by
    intro k n h
    obtain ⟨s, hs, rfl⟩ := hkey k n h
    exact hv s hs n ((hes _ _).mp h).1)
  refine ⟨_, as, hes, h2 ?_⟩
  intro f hf
  simp only [keywords, List.mem_cons, List.not_mem_nil, or_false] at hf
  rcases hf with rfl | rfl
  · simp only [hasOnlyKeys, Except.ok.injEq, List.all_eq_true, List.any_eq_true, decide_eq_true_eq]
    rintro ⟨k, a⟩ ha
    obtain ⟨n, hn⟩ := h3 k a ha
    exact hkey k n hn
  · simp only [hasKeys, Except.ok.injEq, List.all_eq_true]
    intro s hs
    obtain ⟨h5, n, h6⟩ := hm s hs
    obtain ⟨a, ha⟩ := h4 s.toList n ((hes _ _).mpr ⟨h6, fun e => h5 (String.toList_inj.mp e)⟩)
    rw [Option.isSome_iff_ne_none, ne_eq, find_none]
    intro h
    exact h _ ha rfl

theorem value_given {α : Type} {kw : DictionaryMatcher ℝ V} {m : Matcher ℝ V} {R : Node ℝ → α → Prop} {wrap : α → V} (hr : Interprets m R wrap) {ks : List (Text × Node ℝ)}
    {k : String} (hval : ∀ n a, ValueAt kw k.toList n a ↔ m.run n = .matched a) {x : α} (h : At ks k R x) {n : Node ℝ} (hn : Given ks k.toList n) :
    ∃ a, ValueAt kw k.toList n a := by
  obtain ⟨n', h1, h2⟩ := h
  cases Pyon.given_unique hn h1
  exact ⟨_, (hval _ _).mpr ((hr _ _).mpr ⟨x, h2, rfl⟩)⟩

theorem value_given_or {α : Type} {kw : DictionaryMatcher ℝ V} {m : Matcher ℝ V} {R : Node ℝ → α → Prop} {wrap : α → V} (hr : Interprets m R wrap) {ks : List (Text × Node ℝ)}
    {k : String} (hval : ∀ n a, ValueAt kw k.toList n a ↔ m.run n = .matched a) {d x : α} (h : AtOr ks k R d x) {n : Node ℝ} (hn : Given ks k.toList n) :
    ∃ a, ValueAt kw k.toList n a := by
  rcases h with h | ⟨h, -⟩
  · exact value_given hr hval h hn
  · exact absurd hn (not_given_iff.mp h n)

section

variable {cell tr fill : Matcher ℝ V} (hcell : Interprets cell IsCell (fun c => .object (.cell c))) (htr : Interprets tr (ListOf IsTransformation) (fun l => .object (.transformations l)))
  (hfill : Interprets fill IsFilling (fun f => .object (.filling f)))

/-- Which matcher there is at which key. -/
macro "at_key" : tactic => `(tactic| (intro n a; simp only [manualWords, automaticWords, inBoxWords, value_cons, String.toList_inj, String.reduceEq, if_true, if_false, reduceIte]))

include hcell htr hfill in
theorem manual_reads : Interprets (latticeClass cell (manualWords tr fill) manualFrom).toMatcher (fun n r => ∃ a ks c d k ts f, LatticeCall n a ks ∧
    OnlyKeys ks ["cell", "cell_dim", "n_cells", "transformations", "fill_partially"] ∧ IsCell a c ∧ At ks "cell_dim" IsDim d ∧ At ks "n_cells" IsCells k ∧
    AtOr ks "transformations" (ListOf IsTransformation) [] ts ∧ AtOr ks "fill_partially" IsFilling .full f ∧ r = .manual c d k ts f)
    (fun r => .object (.arrangement r)) := by
  intro n v
  have k1 : ∀ n a, ValueAt (manualWords tr fill) "cell_dim".toList n a ↔ cellDim.toMatcher.run n = .matched a := by at_key
  have k2 : ∀ n a, ValueAt (manualWords tr fill) "n_cells".toList n a ↔ nCells.toMatcher.run n = .matched a := by at_key
  have k3 : ∀ n a, ValueAt (manualWords tr fill) "transformations".toList n a ↔ tr.run n = .matched a := by at_key
  have k4 : ∀ n a, ValueAt (manualWords tr fill) "fill_partially".toList n a ↔ fill.run n = .matched a := by at_key
  rw [lattice_run rfl rfl rfl rfl]
  have hmap : ∀ {ks es as} {c : CellType} {r : V}, (∀ k n, Given es k n ↔ Given ks k n ∧ k ≠ "cell".toList) → DictionaryOf (manualWords tr fill) es as →
      (manualFrom ⟨[("cell".toList, .value (.object (.cell c)))], [], as⟩ = .ok r ↔ ∃ d k ts f, At ks "cell_dim" IsDim d ∧ At ks "n_cells" IsCells k ∧
        AtOr ks "transformations" (ListOf IsTransformation) [] ts ∧ AtOr ks "fill_partially" IsFilling .full f ∧ r = .object (.arrangement (.manual c d k ts f))) := by
    intro ks es as c r hes hd
    have g1 := fun d => kwarg_at (st := [("cell".toList, .value (.object (.cell c)))]) hd hes (by simp) k1 dim_reads (cast := asDim) (fun x => rfl) (x := d)
    have g2 := fun d => kwarg_at (st := [("cell".toList, .value (.object (.cell c)))]) hd hes (by simp) k2 cells_reads (cast := asCells) (fun x => rfl) (x := d)
    have g3 := fun d => kwarg_or (st := [("cell".toList, .value (.object (.cell c)))]) hd hes (by simp) k3 htr (cast := asTransformations) (fun x => rfl) (d := []) (x := d)
    have g4 := fun d => kwarg_or (st := [("cell".toList, .value (.object (.cell c)))]) hd hes (by simp) k4 hfill (cast := asFilling) (fun x => rfl) (d := .full) (x := d)
    have e0 : (get ⟨[("cell".toList, .value (.object (.cell c)))], [], as⟩ "cell" >>= asCell) = .ok c := by rw [get_cons]; rfl
    unfold manualFrom doTransformations doFilling
    rw [e0, ok_bind']
    simp only [except_bind, construct_iff, ok_pure', Except.ok.injEq]
    constructor
    · rintro ⟨d, h1, k, h2, L, -, ts, h3, f, h4, rfl⟩
      exact ⟨d, k, ts, f, (g1 d).mp (except_bind.mpr h1), (g2 k).mp (except_bind.mpr h2), (g3 ts).mp h3, (g4 f).mp h4, rfl⟩
    · rintro ⟨d, k, ts, f, h1, h2, h3, h4, rfl⟩
      obtain ⟨_, -, h1'⟩ := id h1
      obtain ⟨_, -, h2'⟩ := id h2
      obtain ⟨L, hL⟩ := manualLattice_ok (c := c) (dim_proper h1') (cells_proper h2')
      exact ⟨d, except_bind.mp ((g1 d).mpr h1), k, except_bind.mp ((g2 k).mpr h2), L, hL, ts, (g3 ts).mpr h3, f, (g4 f).mpr h4, rfl⟩
  constructor
  · rintro ⟨a, ks, cv, es, as, hcall, hc, hes, hd, -, hm⟩
    obtain ⟨c, hc', rfl⟩ := (hcell _ _).mp hc
    obtain ⟨r, hr, rfl⟩ := Observ.map_ok_iff.mp hm
    obtain ⟨d, k, ts, f, h1, h2, h3, h4, rfl⟩ := (hmap hes hd).mp hr
    exact ⟨_, ⟨a, ks, c, d, k, ts, f, hcall, only_keys hd hes, hc', h1, h2, h3, h4, rfl⟩, rfl⟩
  · rintro ⟨r, ⟨a, ks, c, d, k, ts, f, hcall, ho, hc, h1, h2, h3, h4, rfl⟩, rfl⟩
    obtain ⟨es, as, hes, hd⟩ : ∃ es as, (∀ k n, Given es k n ↔ Given ks k n ∧ k ≠ "cell".toList) ∧ DictionaryOf (manualWords tr fill) es as := by
      refine words_exist ho ?_ ?_
      · intro s hs n hn
        simp only [List.mem_cons, List.not_mem_nil, or_false] at hs
        rcases hs with rfl | rfl | rfl | rfl
        · exact value_given dim_reads k1 h1 hn
        · exact value_given cells_reads k2 h2 hn
        · exact value_given_or htr k3 h3 hn
        · exact value_given_or hfill k4 h4 hn
      · intro s hs
        simp only [List.mem_cons, List.not_mem_nil, or_false] at hs
        rcases hs with rfl | rfl
        · exact ⟨by simp, h1.imp fun _ h => h.1⟩
        · exact ⟨by simp, h2.imp fun _ h => h.1⟩
    exact ⟨a, ks, _, es, as, hcall, (hcell _ _).mpr ⟨c, hc, rfl⟩, hes, hd, by simp [latticeClass, ClassMatcher.mapTo, Satisfied],
      Observ.map_ok_iff.mpr ⟨_, (hmap hes hd).mpr ⟨d, k, ts, f, h1, h2, h3, h4, rfl⟩, rfl⟩⟩

include hcell htr in
theorem automatic_reads {fuel : Nat} : Interprets (latticeClass cell (automaticWords tr) (automaticFrom fuel)).toMatcher (fun n r => ∃ a ks c d k ts, LatticeCall n a ks ∧
    OnlyKeys ks ["cell", "box_dim", "n_shapes", "transformations"] ∧ IsCell a c ∧ At ks "box_dim" IsDim d ∧ At ks "n_shapes" IsCount k ∧ Found fuel c d k ∧
    AtOr ks "transformations" (ListOf IsTransformation) [] ts ∧ r = .automatic c d k ts)
    (fun r => .object (.arrangement r)) := by
  intro n v
  have k1 : ∀ n a, ValueAt (automaticWords tr) "box_dim".toList n a ↔ cellDim.toMatcher.run n = .matched a := by at_key
  have k2 : ∀ n a, ValueAt (automaticWords tr) "n_shapes".toList n a ↔ (size [intPositive]).run n = .matched a := by at_key
  have k3 : ∀ n a, ValueAt (automaticWords tr) "transformations".toList n a ↔ tr.run n = .matched a := by at_key
  rw [lattice_run rfl rfl rfl rfl]
  have hmap : ∀ {ks es as} {c : CellType} {r : V}, (∀ k n, Given es k n ↔ Given ks k n ∧ k ≠ "cell".toList) → DictionaryOf (automaticWords tr) es as →
      (automaticFrom fuel ⟨[("cell".toList, .value (.object (.cell c)))], [], as⟩ = .ok r ↔ ∃ d k ts, At ks "box_dim" IsDim d ∧ At ks "n_shapes" IsCount k ∧ Found fuel c d k ∧
        AtOr ks "transformations" (ListOf IsTransformation) [] ts ∧ r = .object (.arrangement (.automatic c d k ts))) := by
    intro ks es as c r hes hd
    have g1 := fun d => kwarg_at (st := [("cell".toList, .value (.object (.cell c)))]) hd hes (by simp) k1 dim_reads (cast := asDim) (fun x => rfl) (x := d)
    have g2 := fun d => kwarg_at (st := [("cell".toList, .value (.object (.cell c)))]) hd hes (by simp) k2 count_reads (cast := asSize) (fun x => rfl) (x := d)
    have g3 := fun d => kwarg_or (st := [("cell".toList, .value (.object (.cell c)))]) hd hes (by simp) k3 htr (cast := asTransformations) (fun x => rfl) (d := []) (x := d)
    have e0 : (get ⟨[("cell".toList, .value (.object (.cell c)))], [], as⟩ "cell" >>= asCell) = .ok c := by rw [get_cons]; rfl
    unfold automaticFrom doTransformations
    rw [e0, ok_bind']
    simp only [except_bind, construct_iff, ok_pure', Except.ok.injEq]
    constructor
    · rintro ⟨d, h1, k, h2, L, hL, ts, h3, rfl⟩
      have h1 := (g1 d).mp (except_bind.mpr h1)
      obtain ⟨_, -, h1'⟩ := id h1
      exact ⟨d, k, ts, h1, (g2 k).mp (except_bind.mpr h2), (automaticLattice_ok (dim_proper h1')).mp ⟨L, hL⟩, (g3 ts).mp h3, rfl⟩
    · rintro ⟨d, k, ts, h1, h2, hF, h3, rfl⟩
      obtain ⟨_, -, h1'⟩ := id h1
      obtain ⟨L, hL⟩ := (automaticLattice_ok (dim_proper h1')).mpr hF
      exact ⟨d, except_bind.mp ((g1 d).mpr h1), k, except_bind.mp ((g2 k).mpr h2), L, hL, ts, (g3 ts).mpr h3, rfl⟩
  constructor
  · rintro ⟨a, ks, cv, es, as, hcall, hc, hes, hd, -, hm⟩
    obtain ⟨c, hc', rfl⟩ := (hcell _ _).mp hc
    obtain ⟨r, hr, rfl⟩ := Observ.map_ok_iff.mp hm
    obtain ⟨d, k, ts, h1, h2, hF, h3, rfl⟩ := (hmap hes hd).mp hr
    exact ⟨_, ⟨a, ks, c, d, k, ts, hcall, only_keys hd hes, hc', h1, h2, hF, h3, rfl⟩, rfl⟩
  · rintro ⟨r, ⟨a, ks, c, d, k, ts, hcall, ho, hc, h1, h2, hF, h3, rfl⟩, rfl⟩
    obtain ⟨es, as, hes, hd⟩ : ∃ es as, (∀ k n, Given es k n ↔ Given ks k n ∧ k ≠ "cell".toList) ∧ DictionaryOf (automaticWords tr) es as := by
      refine words_exist ho ?_ ?_
      · intro s hs n hn
        simp only [List.mem_cons, List.not_mem_nil, or_false] at hs
        rcases hs with rfl | rfl | rfl
        · exact value_given dim_reads k1 h1 hn
        · exact value_given count_reads k2 h2 hn
        · exact value_given_or htr k3 h3 hn
      · intro s hs
        simp only [List.mem_cons, List.not_mem_nil, or_false] at hs
        rcases hs with rfl | rfl
        · exact ⟨by simp, h1.imp fun _ h => h.1⟩
        · exact ⟨by simp, h2.imp fun _ h => h.1⟩
    exact ⟨a, ks, _, es, as, hcall, (hcell _ _).mpr ⟨c, hc, rfl⟩, hes, hd, by simp [latticeClass, ClassMatcher.mapTo, Satisfied],
      Observ.map_ok_iff.mpr ⟨_, (hmap hes hd).mpr ⟨d, k, ts, h1, h2, hF, h3, rfl⟩, rfl⟩⟩

include hcell htr hfill in
theorem inBox_reads : Interprets (latticeClass cell (inBoxWords tr fill) inBoxFrom).toMatcher (fun n r => ∃ a ks c d k ts f, LatticeCall n a ks ∧
    OnlyKeys ks ["cell", "n_cells", "box_dim", "transformations", "fill_partially"] ∧ IsCell a c ∧ At ks "n_cells" IsCells k ∧ At ks "box_dim" IsDim d ∧
    AtOr ks "transformations" (ListOf IsTransformation) [] ts ∧ AtOr ks "fill_partially" IsFilling .full f ∧ r = .inBox c d k ts f)
    (fun r => .object (.arrangement r)) := by
  intro n v
  have k1 : ∀ n a, ValueAt (inBoxWords tr fill) "box_dim".toList n a ↔ cellDim.toMatcher.run n = .matched a := by at_key
  have k2 : ∀ n a, ValueAt (inBoxWords tr fill) "n_cells".toList n a ↔ nCells.toMatcher.run n = .matched a := by at_key
  have k3 : ∀ n a, ValueAt (inBoxWords tr fill) "transformations".toList n a ↔ tr.run n = .matched a := by at_key
  have k4 : ∀ n a, ValueAt (inBoxWords tr fill) "fill_partially".toList n a ↔ fill.run n = .matched a := by at_key
  rw [lattice_run rfl rfl rfl rfl]
  have hmap : ∀ {ks es as} {c : CellType} {r : V}, (∀ k n, Given es k n ↔ Given ks k n ∧ k ≠ "cell".toList) → DictionaryOf (inBoxWords tr fill) es as →
      (inBoxFrom ⟨[("cell".toList, .value (.object (.cell c)))], [], as⟩ = .ok r ↔ ∃ d k ts f, At ks "n_cells" IsCells k ∧ At ks "box_dim" IsDim d ∧
        AtOr ks "transformations" (ListOf IsTransformation) [] ts ∧ AtOr ks "fill_partially" IsFilling .full f ∧ r = .object (.arrangement (.inBox c d k ts f))) := by
    intro ks es as c r hes hd
    have g1 := fun d => kwarg_at (st := [("cell".toList, .value (.object (.cell c)))]) hd hes (by simp) k1 dim_reads (cast := asDim) (fun x => rfl) (x := d)
    have g2 := fun d => kwarg_at (st := [("cell".toList, .value (.object (.cell c)))]) hd hes (by simp) k2 cells_reads (cast := asCells) (fun x => rfl) (x := d)
    have g3 := fun d => kwarg_or (st := [("cell".toList, .value (.object (.cell c)))]) hd hes (by simp) k3 htr (cast := asTransformations) (fun x => rfl) (d := []) (x := d)
    have g4 := fun d => kwarg_or (st := [("cell".toList, .value (.object (.cell c)))]) hd hes (by simp) k4 hfill (cast := asFilling) (fun x => rfl) (d := .full) (x := d)
    have e0 : (get ⟨[("cell".toList, .value (.object (.cell c)))], [], as⟩ "cell" >>= asCell) = .ok c := by rw [get_cons]; rfl
    unfold inBoxFrom doTransformations doFilling
    rw [e0, ok_bind']
    simp only [except_bind, construct_iff, ok_pure', Except.ok.injEq]
    constructor
    · rintro ⟨k, h2, d, h1, L, -, ts, h3, f, h4, rfl⟩
      exact ⟨d, k, ts, f, (g2 k).mp (except_bind.mpr h2), (g1 d).mp (except_bind.mpr h1), (g3 ts).mp h3, (g4 f).mp h4, rfl⟩
    · rintro ⟨d, k, ts, f, h2, h1, h3, h4, rfl⟩
      obtain ⟨_, -, h1'⟩ := id h1
      obtain ⟨_, -, h2'⟩ := id h2
      obtain ⟨L, hL⟩ := inBoxLattice_ok (c := c) (dim_proper h1') (cells_proper h2')
      exact ⟨k, except_bind.mp ((g2 k).mpr h2), d, except_bind.mp ((g1 d).mpr h1), L, hL, ts, (g3 ts).mpr h3, f, (g4 f).mpr h4, rfl⟩
  constructor
  · rintro ⟨a, ks, cv, es, as, hcall, hc, hes, hd, -, hm⟩
    obtain ⟨c, hc', rfl⟩ := (hcell _ _).mp hc
    obtain ⟨r, hr, rfl⟩ := Observ.map_ok_iff.mp hm
    obtain ⟨d, k, ts, f, h2, h1, h3, h4, rfl⟩ := (hmap hes hd).mp hr
    exact ⟨_, ⟨a, ks, c, d, k, ts, f, hcall, only_keys hd hes, hc', h2, h1, h3, h4, rfl⟩, rfl⟩
  · rintro ⟨r, ⟨a, ks, c, d, k, ts, f, hcall, ho, hc, h2, h1, h3, h4, rfl⟩, rfl⟩
    obtain ⟨es, as, hes, hd⟩ : ∃ es as, (∀ k n, Given es k n ↔ Given ks k n ∧ k ≠ "cell".toList) ∧ DictionaryOf (inBoxWords tr fill) es as := by
      refine words_exist ho ?_ ?_
      · intro s hs n hn
        simp only [List.mem_cons, List.not_mem_nil, or_false] at hs
        rcases hs with rfl | rfl | rfl | rfl
        · exact value_given cells_reads k2 h2 hn
        · exact value_given dim_reads k1 h1 hn
        · exact value_given_or htr k3 h3 hn
        · exact value_given_or hfill k4 h4 hn
      · intro s hs
        simp only [List.mem_cons, List.not_mem_nil, or_false] at hs
        rcases hs with rfl | rfl
        · exact ⟨by simp, h2.imp fun _ h => h.1⟩
        · exact ⟨by simp, h1.imp fun _ h => h.1⟩
    exact ⟨a, ks, _, es, as, hcall, (hcell _ _).mpr ⟨c, hc, rfl⟩, hes, hd, by simp [latticeClass, ClassMatcher.mapTo, Satisfied],
      Observ.map_ok_iff.mpr ⟨_, (hmap hes hd).mpr ⟨d, k, ts, f, h2, h1, h3, h4, rfl⟩, rfl⟩⟩

/-! ### Expressions of another kind -/

include hcell htr in
theorem manual_fails_automatic {n a : Node ℝ} {ks : List (Text × Node ℝ)} {c : CellType} {d : DimArg} {ts : List Transformation} (hcall : LatticeCall n a ks)
    (ho : OnlyKeys ks ["cell", "box_dim", "n_shapes", "transformations"]) (hc : IsCell a c) (hd : At ks "box_dim" IsDim d)
    (ht : AtOr ks "transformations" (ListOf IsTransformation) [] ts) : Fails n (latticeClass cell (manualWords tr fill) manualFrom).toMatcher := by
  have k3 : ∀ n a, ValueAt (manualWords tr fill) "transformations".toList n a ↔ tr.run n = .matched a := by at_key
  obtain ⟨b, hb, -⟩ := hd
  refine lattice_fails rfl rfl rfl rfl hcall ((hcell _ _).mpr ⟨c, hc, rfl⟩) ?_ hb (by simp) (by simp)
  intro k x hx hk
  obtain ⟨s, hs, e⟩ := ho _ (given_mem hx)
  simp only at e
  subst e
  simp only [List.mem_cons, List.not_mem_nil, or_false] at hs
  rcases hs with rfl | rfl | rfl | rfl
  · exact absurd rfl hk
  · exact ⟨.node x, by simp [value_cons, value_nil]⟩
  · exact ⟨.node x, by simp [value_cons, value_nil]⟩
  · exact value_given_or htr k3 ht hx

include hcell htr hfill in
theorem manual_fails_inBox {n a : Node ℝ} {ks : List (Text × Node ℝ)} {c : CellType} {d : DimArg} {k : Vec3 Nat} {ts : List Transformation} {f : Filling}
    (hcall : LatticeCall n a ks) (ho : OnlyKeys ks ["cell", "n_cells", "box_dim", "transformations", "fill_partially"]) (hc : IsCell a c)
    (hn : At ks "n_cells" IsCells k) (hd : At ks "box_dim" IsDim d) (ht : AtOr ks "transformations" (ListOf IsTransformation) [] ts)
    (hf : AtOr ks "fill_partially" IsFilling .full f) : Fails n (latticeClass cell (manualWords tr fill) manualFrom).toMatcher := by
  have k2 : ∀ n a, ValueAt (manualWords tr fill) "n_cells".toList n a ↔ nCells.toMatcher.run n = .matched a := by at_key
  have k3 : ∀ n a, ValueAt (manualWords tr fill) "transformations".toList n a ↔ tr.run n = .matched a := by at_key
  have k4 : ∀ n a, ValueAt (manualWords tr fill) "fill_partially".toList n a ↔ fill.run n = .matched a := by at_key
  obtain ⟨b, hb, -⟩ := hd
  refine lattice_fails rfl rfl rfl rfl hcall ((hcell _ _).mpr ⟨c, hc, rfl⟩) ?_ hb (by simp) (by simp)
  intro k x hx hk
  obtain ⟨s, hs, e⟩ := ho _ (given_mem hx)
  simp only at e
  subst e
  simp only [List.mem_cons, List.not_mem_nil, or_false] at hs
  rcases hs with rfl | rfl | rfl | rfl | rfl
  · exact absurd rfl hk
  · exact value_given cells_reads k2 hn hx
  · exact ⟨.node x, by simp [value_cons, value_nil]⟩
  · exact value_given_or htr k3 ht hx
  · exact value_given_or hfill k4 hf hx

include hcell htr in
theorem automatic_fails_inBox {fuel : Nat} {n a : Node ℝ} {ks : List (Text × Node ℝ)} {c : CellType} {d : DimArg} {k : Vec3 Nat} {ts : List Transformation}
    (hcall : LatticeCall n a ks) (ho : OnlyKeys ks ["cell", "n_cells", "box_dim", "transformations", "fill_partially"]) (hc : IsCell a c)
    (hn : At ks "n_cells" IsCells k) (hd : At ks "box_dim" IsDim d) (ht : AtOr ks "transformations" (ListOf IsTransformation) [] ts) :
    Fails n (latticeClass cell (automaticWords tr) (automaticFrom fuel)).toMatcher := by
  have k1 : ∀ n a, ValueAt (automaticWords tr) "box_dim".toList n a ↔ cellDim.toMatcher.run n = .matched a := by at_key
  have k3 : ∀ n a, ValueAt (automaticWords tr) "transformations".toList n a ↔ tr.run n = .matched a := by at_key
  obtain ⟨b, hb, -⟩ := hn
  refine lattice_fails rfl rfl rfl rfl hcall ((hcell _ _).mpr ⟨c, hc, rfl⟩) ?_ hb (by simp) (by simp)
  intro k x hx hk
  obtain ⟨s, hs, e⟩ := ho _ (given_mem hx)
  simp only at e
  subst e
  simp only [List.mem_cons, List.not_mem_nil, or_false] at hs
  rcases hs with rfl | rfl | rfl | rfl | rfl
  · exact absurd rfl hk
  · exact ⟨.node x, by simp [value_cons, value_nil]⟩
  · exact value_given dim_reads k1 hd hx
  · exact value_given_or htr k3 ht hx
  · exact ⟨.node x, by simp [value_cons, value_nil]⟩

end

theorem presimulated_reads : ∃ c, createPresimulated = .ok c ∧ c.name = "presimulated".toList ∧ Interprets c.toMatcher
    (fun n r => ∃ a file, Call n "presimulated" [("file", none)] [a] ∧ IsText a file ∧ r = .presimulated file) (fun r => .object (.arrangement r)) := by
  refine ⟨_, rfl, rfl, fun n v => ?_⟩
  rw [class_run (.required .nil) rfl (by decide) rfl rfl]
  simp only [exists_read filename_reads, exists_unread]
  eval_arr
  constructor
  · rintro ⟨a, file, hf, h, -, rfl⟩
    exact ⟨_, ⟨a, file, h, hf, rfl⟩, rfl⟩
  · rintro ⟨r, ⟨a, file, h, hf, rfl⟩, rfl⟩
    exact ⟨a, file, hf, h, by simp [Satisfied], rfl⟩

/-- Matching of arrangements. -/
theorem arrangement_reads {conv : ℚ → Option ℝ} (hconv : Rampack.Spec.RoundsIntegers conv) {fuel : Nat} : ∃ c, createArrangement conv fuel = .ok c ∧
    Interprets c.toMatcher (IsArrangement fuel) (fun r => .object (.arrangement r)) := by
  obtain ⟨cell, ecell, hcell⟩ := cell_reads hconv
  obtain ⟨tr, etr, htr⟩ := transformations_reads hconv
  obtain ⟨fill, efill, hfill⟩ := filling_reads hconv
  obtain ⟨pre, epre, hname, hpre⟩ := presimulated_reads
  have e1 : createManual conv = .ok (latticeClass cell.toMatcher (manualWords tr fill.toMatcher) manualFrom) := by
    rw [createManual, ecell, Outcome.ok_bind, etr, Outcome.ok_bind, efill, Outcome.ok_bind]
    rfl
  have e2 : createAutomatic conv fuel = .ok (latticeClass cell.toMatcher (automaticWords tr) (automaticFrom fuel)) := by
    rw [createAutomatic, ecell, Outcome.ok_bind, etr, Outcome.ok_bind]
    rfl
  have e3 : createInBox conv = .ok (latticeClass cell.toMatcher (inBoxWords tr fill.toMatcher) inBoxFrom) := by
    rw [createInBox, ecell, Outcome.ok_bind, etr, Outcome.ok_bind, efill, Outcome.ok_bind]
    rfl
  refine ⟨_, by rw [createArrangement, epre, Outcome.ok_bind, e1, Outcome.ok_bind, e2, Outcome.ok_bind, e3, Outcome.ok_bind]; rfl, fun n v => ?_⟩
  rw [(C79_first_partial (by simp [Sound])).1]
  simp only [options, List.cons_append, List.nil_append]
  rw [first_cons (by simp), first_cons (by simp), first_cons (by simp), first_cons (by simp), hpre n v, manual_reads hcell htr hfill n v, automatic_reads hcell htr n v,
    inBox_reads hcell htr hfill n v]
  have hlat : ∀ {a ks}, LatticeCall n a ks → Fails n pre.toMatcher := by
    rintro a ks ⟨ps, rfl, -⟩
    exact class_fails_name (by rw [hname]; simp)
  constructor
  · rintro (⟨r, ⟨a, file, h1, h2, rfl⟩, rfl⟩ | ⟨-, ⟨r, ⟨a, ks, c, d, k, ts, f, h0, h1, h2, h3, h4, h5, h6, rfl⟩, rfl⟩ |
      ⟨-, ⟨r, ⟨a, ks, c, d, k, ts, h0, h1, h2, h3, h4, h5, h6, rfl⟩, rfl⟩ | ⟨-, ⟨r, ⟨a, ks, c, d, k, ts, f, h0, h1, h2, h3, h4, h5, h6, rfl⟩, rfl⟩ | ⟨-, h⟩⟩⟩⟩)
    · exact ⟨_, .presimulated h1 h2, rfl⟩
    · exact ⟨_, .manual h0 h1 h2 h3 h4 h5 h6, rfl⟩
    · exact ⟨_, .automatic h0 h1 h2 h3 h4 h5 h6, rfl⟩
    · exact ⟨_, .inBox h0 h1 h2 h3 h4 h5 h6, rfl⟩
    · simp [First] at h
  · rintro ⟨r, h, rfl⟩
    cases h with
    | presimulated h1 h2 => exact .inl ⟨_, ⟨_, _, h1, h2, rfl⟩, rfl⟩
    | manual h0 h1 h2 h3 h4 h5 h6 => exact .inr ⟨hlat h0, .inl ⟨_, ⟨_, _, _, _, _, _, _, h0, h1, h2, h3, h4, h5, h6, rfl⟩, rfl⟩⟩
    | automatic h0 h1 h2 h3 h4 h5 h6 =>
      exact .inr ⟨hlat h0, .inr ⟨manual_fails_automatic hcell htr h0 h1 h2 h3 h6, .inl ⟨_, ⟨_, _, _, _, _, _, h0, h1, h2, h3, h4, h5, h6, rfl⟩, rfl⟩⟩⟩
    | inBox h0 h1 h2 h3 h4 h5 h6 =>
      exact .inr ⟨hlat h0, .inr ⟨manual_fails_inBox hcell htr hfill h0 h1 h2 h3 h4 h5 h6, .inr ⟨automatic_fails_inBox hcell htr h0 h1 h2 h3 h4 h5,
        .inl ⟨_, ⟨_, _, _, _, _, _, _, h0, h1, h2, h3, h4, h5, h6, rfl⟩, rfl⟩⟩⟩⟩

end Rampack.ArrangeExpr
