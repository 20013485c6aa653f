import Verif.Frontend.ArrangeExprParts
/-
Classes which take further named arguments.
-/
namespace Rampack.ArrangeExpr

open Pyon Pyon.Spec Rampack.Input Rampack.Input.Spec Rampack.Arrange Rampack.ArrangeExpr.Spec

theorem except_bind {α β : Type} {x : Except String α} {f : α → Except String β} {v : β} : (x >>= f) = .ok v ↔ ∃ a, x = .ok a ∧ f a = .ok v := by
  cases x with
  | ok a => exact ⟨fun h => ⟨a, rfl, h⟩, fun ⟨b, h1, h2⟩ => (by cases h1; exact h2)⟩
  | error m => exact ⟨fun h => (by cases h), fun ⟨b, h1, h2⟩ => (by cases h1)⟩

/-! ### Dictionaries -/

theorem find_given {m : DictionaryMatcher ℝ V} {es : List (Text × Node ℝ)} {as : List (Text × Any ℝ V)} (h : DictionaryOf m es as) {k : Text} {a : Any ℝ V} :
    find k as = some a ↔ ∃ n, Given es k n ∧ ValueAt m k n a := by
  rw [find_ordered h.ordered]
  refine ⟨h.only k a, ?_⟩
  rintro ⟨n, h1, h2⟩
  obtain ⟨b, h3, h4⟩ := h.all k n h1
  have e1 := (matchKey_iff (fs := m.filters) (g := m.mapping)).mpr h2
  have e2 := (matchKey_iff (fs := m.filters) (g := m.mapping)).mpr h4
  rw [e1] at e2
  injection e2 with e2
  rw [e2]
  exact h3

theorem find_not_given {m : DictionaryMatcher ℝ V} {es : List (Text × Node ℝ)} {as : List (Text × Any ℝ V)} (h : DictionaryOf m es as) {k : Text} :
    find k as = none ↔ NotGiven es k := by
  rw [not_given_iff]
  constructor
  · intro h1 n hn
    obtain ⟨a, h2, -⟩ := h.all k n hn
    rw [(find_ordered h.ordered).mpr h2] at h1
    cases h1
  · intro h1
    cases hf : find k as with
    | none => rfl
    | some a =>
      obtain ⟨n, h2, -⟩ := (find_given h).mp hf
      exact absurd h2 (h1 n)

theorem entries_exist {m : DictionaryMatcher ℝ V} {es : List (Text × Node ℝ)} (h : ∀ e ∈ es, ∃ a, ValueAt m e.1 e.2 a) : ∃ as, List.Forall₂ (EntryTurns m) es as := by
  induction es with
  | nil => exact ⟨[], .nil⟩
  | cons e es ih =>
    obtain ⟨a, ha⟩ := h e (by simp)
    obtain ⟨as, has⟩ := ih (fun e he => h e (by simp [he]))
    exact ⟨(e.1, a) :: as, .cons ⟨rfl, ha⟩ has⟩

theorem dictionary_exists {m : DictionaryMatcher ℝ V} {es : List (Text × Node ℝ)} (h : ∀ k n, Given es k n → ∃ a, ValueAt m k n a) :
    ∃ as, matchEntries m (toMap es) = .matched as ∧ (Satisfied m.filters as → DictionaryOf m es as) ∧ (∀ k a, (k, a) ∈ as → ∃ n, Given es k n) ∧
      (∀ k n, Given es k n → ∃ a, (k, a) ∈ as) := by
  obtain ⟨as, has⟩ := entries_exist (m := m) (es := toMap es) (fun e he => h e.1 e.2 (((toMap_spec es).2 e.1 e.2).mp he))
  obtain ⟨h1, h2, h3⟩ := (forall2_entries (toMap_spec es).1).mp has
  simp only [(toMap_spec es).2] at h2 h3
  exact ⟨as, matchEntries_iff'.mpr has, fun hs => ⟨h1, h2, h3, hs⟩, fun k a ha => (h3 k a ha).imp fun n hn => hn.1, fun k n hn => (h2 k n hn).imp fun a ha => ha.1⟩

/-! ### Classes -/

theorem lattice_rest {ks : List (Text × Node ℝ)} {p : Text → Bool} : ∀ k n, Given ((toMap ks).filter fun e => p e.1) k n ↔ Given ks k n ∧ p k = true := by
  intro k n
  have ho : Ordered ((toMap ks).filter fun e => p e.1) := List.Pairwise.filter _ (toMap_spec ks).1
  rw [toMap_of_ordered ho, List.mem_filter, (toMap_spec ks).2]

/-- A class with one argument, a cell, and further named arguments. -/
theorem lattice_run {c : ClassMatcher ℝ V} {m : Matcher ℝ V} {kw : DictionaryMatcher ℝ V} (ha : c.arguments = [⟨"cell".toList, some m, none⟩])
    (hname : c.name = "lattice".toList) (hv : c.variadic = none) (hk : c.keyword = some kw) {n : Node ℝ} {v : Any ℝ V} :
    c.toMatcher.run n = .matched v ↔ ∃ a ks cell es as, LatticeCall n a ks ∧ m.run a = .matched cell ∧
      (∀ k n, Given es k n ↔ Given ks k n ∧ k ≠ "cell".toList) ∧ DictionaryOf kw es as ∧ Satisfied c.filters ⟨[("cell".toList, cell)], [], as⟩ ∧
      c.mapping ⟨[("cell".toList, cell)], [], as⟩ = .ok v := by
  change c.run n = _ ↔ _
  have hd : Declares c.arguments [("cell", none)] [m] := by rw [ha]; exact .required .nil
  have hnd : (c.arguments.map (·.name)).Nodup := by rw [ha]; simp
  have hdecl : ∀ k, Declared c k ↔ k = "cell".toList := by intro k; rw [declared_iff hd]; simp
  have hall : ∀ args vals, RunAll [m] args vals ↔ ∃ a cell, args = [a] ∧ vals = [cell] ∧ m.run a = .matched cell := by
    intro args vals
    constructor
    · intro h
      cases args with
      | nil => simp [RunAll] at h
      | cons a args =>
        cases vals with
        | nil => simp [RunAll] at h
        | cons b vals =>
          cases args with
          | nil =>
            cases vals with
            | nil => simp [RunAll] at h; exact ⟨a, b, rfl, rfl, h⟩
            | cons => simp [RunAll] at h
          | cons => cases vals <;> simp [RunAll] at h
    · rintro ⟨a, b, rfl, rfl, h⟩
      simpa [RunAll] using h
  constructor
  · intro h
    obtain ⟨ps, ks, rfl⟩ := C46_kind h
    obtain ⟨_, ⟨st, va, kws⟩, hb, hf, hm⟩ := (C46_binds hnd).mp h
    have hrest := hb.rest
    have hnamed := hb.named
    unfold Rest at hrest
    unfold NamedRest at hnamed
    rw [hv] at hrest
    rw [hk] at hnamed
    obtain ⟨hr1, rfl⟩ := hrest
    obtain ⟨es, he, hes⟩ := hnamed
    obtain ⟨args, vals, h1, h2, rfl⟩ := (arguments_iff hd).mp ⟨hb.names, hb.values⟩
    obtain ⟨a, cell, rfl, rfl, hcell⟩ := (hall _ _).mp h2
    simp only [hdecl] at he
    rw [ha] at hr1
    exact ⟨a, ks, cell, es, kws, ⟨ps, by rw [hname], hr1, h1⟩, hcell, he, hes, hf, hm⟩
  · rintro ⟨a, ks, cell, es, as, ⟨ps, rfl, h1, h3⟩, hcell, he, hes, h5, h6⟩
    rw [C46_binds hnd]
    obtain ⟨g1, g2⟩ := (arguments_iff hd).mpr ⟨[a], [cell], h3, (hall _ _).mpr ⟨_, _, rfl, rfl, hcell⟩, rfl⟩
    refine ⟨hname.symm, ⟨[("cell".toList, cell)], [], as⟩, ⟨g1, g2, ?_, ?_⟩, h5, h6⟩
    · unfold Rest
      rw [hv, ha]
      exact ⟨h1, rfl⟩
    · unfold NamedRest
      rw [hk]
      refine ⟨es, ?_, hes⟩
      simpa only [hdecl] using he

/-- If some named argument is not among the allowed ones, and the others can be read, the class does not match. -/
theorem lattice_fails {c : ClassMatcher ℝ V} {m : Matcher ℝ V} {l : List (String × Matcher ℝ V)} {only mandatory : List String}
    (ha : c.arguments = [⟨"cell".toList, some m, none⟩]) (hname : c.name = "lattice".toList) (hv : c.variadic = none) (hk : c.keyword = some (keywords l only mandatory))
    {n a : Node ℝ} {ks : List (Text × Node ℝ)} {cell : Any ℝ V} (hn : LatticeCall n a ks) (hcell : m.run a = .matched cell)
    (hval : ∀ k b, Given ks k b → k ≠ "cell".toList → ∃ x, ValueAt (keywords l only mandatory) k b x) {k : Text} {b : Node ℝ} (hb : Given ks k b) (hc : k ≠ "cell".toList)
    (hkey : ∀ s ∈ only, k ≠ s.toList) : Fails n c.toMatcher := by
  obtain ⟨ps, rfl, hps, hargs⟩ := hn
  let kw : DictionaryMatcher ℝ V := { keywords l only mandatory with filters := [] }
  let c' : ClassMatcher ℝ V := { c with keyword := some kw, filters := [], mapping := fun _ => .ok cell }
  let es := (toMap ks).filter fun e => !c.isStandard e.1
  have hstd : ∀ k, (!c.isStandard k) = true ↔ k ≠ "cell".toList := by
    intro k
    rw [ClassMatcher.isStandard, ha]
    simp only [List.any_cons, List.any_nil, Bool.or_false, Bool.not_eq_true', beq_eq_false_iff_ne, ne_eq]
    exact not_congr eq_comm
  have hes : ∀ k n, Given es k n ↔ Given ks k n ∧ k ≠ "cell".toList := by
    intro k n
    rw [← hstd]
    exact lattice_rest (p := fun k => !c.isStandard k) k n
  have hval' : ∀ k n, Given es k n → ∃ a, ValueAt (keywords l only mandatory) k n a := fun k n h => hval k n ((hes k n).mp h).1 ((hes k n).mp h).2
  obtain ⟨as, h1, -, -, h4⟩ := dictionary_exists hval'
  obtain ⟨as', h1', h2', -, -⟩ := dictionary_exists (m := kw) (es := es) (by
    intro k n h
    obtain ⟨x, hx⟩ := hval' k n h
    exact ⟨x, (matchKey_iff (fs := kw.filters) (g := kw.mapping)).mp ((matchKey_iff (fs := (keywords l only mandatory).filters) (g := (keywords l only mandatory).mapping)).mpr hx)⟩)
  have hm : c'.toMatcher.run (.dataclass "lattice".toList ps ks) = .matched cell :=
    (lattice_run (c := c') (kw := kw) ha hname hv rfl).mpr ⟨a, ks, cell, es, as', ⟨ps, rfl, hps, hargs⟩, hcell, hes, h2' (by simp [kw, Satisfied]), by simp [c', Satisfied], rfl⟩
  change c'.run (.dataclass "lattice".toList ps ks) = .matched cell at hm
  rw [ClassMatcher.run, if_neg (by rw [show c'.name = c.name from rfl, hname]; simp)] at hm
  obtain ⟨st, hst, hm⟩ := Result.bind_eq_matched.mp hm
  obtain ⟨va, hva, hm⟩ := Result.bind_eq_matched.mp hm
  have hst' : c.matchStandard ps (toMap ks) = .matched st := by
    have hu : c'.unknown (toMap ks) = c.unknown (toMap ks) := by
      rw [ClassMatcher.unknown, ClassMatcher.unknown, hk]
      rfl
    have hvd : c'.validate ps (toMap ks) = c.validate ps (toMap ks) := by
      rw [ClassMatcher.validate, ClassMatcher.validate, hu]
      rfl
    rw [ClassMatcher.matchStandard, ← hvd]
    exact hst
  have hva' : c.matchVariadic ps = .matched va := hva
  have hfail : ∃ r, c.matchKeyword (toMap ks) = .unmatched r := by
    obtain ⟨x, hx⟩ := h4 k b ((hes k b).mpr ⟨hb, hc⟩)
    have hno : hasOnlyKeys only as = .ok false := by
      unfold hasOnlyKeys
      congr 1
      rw [List.all_eq_false]
      refine ⟨(k, x), hx, ?_⟩
      simp only [Bool.not_eq_true, List.any_eq_false, decide_eq_true_eq]
      intro s hs
      exact hkey s hs
    have hrun : (keywords l only mandatory).run (.dictionary es) = .unmatched .condition := by
      rw [DictionaryMatcher.run, h1]
      change finish (keywords l only mandatory).filters (keywords l only mandatory).mapping as = _
      simp only [finish, keywords, checkFilters, hno]
      rfl
    have hkm : c.keywordMatcher = keywords l only mandatory := by
      rw [ClassMatcher.keywordMatcher, hk]
      rfl
    rw [ClassMatcher.matchKeyword, hkm, show (keywords l only mandatory).run (.dictionary ((toMap ks).filter fun e => !c.isStandard e.1)) = _ from hrun]
    exact ⟨_, rfl⟩
  obtain ⟨r, hr⟩ := hfail
  refine ⟨r, ?_⟩
  change c.run (.dataclass "lattice".toList ps ks) = .unmatched r
  rw [ClassMatcher.run, if_neg (by rw [hname]; simp), hst']
  change (do
    let variadic ← c.matchVariadic ps
    let keyword ← c.matchKeyword (toMap ks)
    finish c.filters c.mapping ⟨st, variadic, keyword⟩) = _
  rw [hva']
  change (do
    let keyword ← c.matchKeyword (toMap ks)
    finish c.filters c.mapping ⟨st, va, keyword⟩) = _
  rw [hr]
  rfl

end Rampack.ArrangeExpr
