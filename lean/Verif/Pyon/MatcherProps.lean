import Verif.Pyon.AlternativeLemmas
import Verif.Pyon.ParserProps
import Mathlib.Data.List.Nodup
/-
C46: arguments of classes are bound as in Python. C78: literals and collections match exactly when their kind is right and their parts match.
C79: an alternative is the first of its options which matches.
-/
namespace Rampack

open Pyon Pyon.Spec

variable {F V : Type}

/-! ### C46 -/

/-- There is at most one way of binding the arguments. -/
theorem C46_unique {c : ClassMatcher F V} {ps : List (Node F)} {ks : List (Text × Node F)} {d d' : ClassData F V} (h : Binds c ps ks d)
    (h' : Binds c ps ks d') : d = d' := binds_unique h h'

/-- A class matches exactly invocations with its name whose arguments can be bound (with the conditions satisfied), and what is converted
are these bound arguments. -/
theorem C46_binds {c : ClassMatcher F V} (hc : (c.arguments.map (·.name)).Nodup) {name : Text} {ps : List (Node F)} {ks : List (Text × Node F)}
    {v : Any F V} :
    c.run (.dataclass name ps ks) = .matched v ↔
      name = c.name ∧ ∃ d, Binds c ps ks d ∧ Satisfied c.filters d ∧ c.mapping d = .ok v := by
  rw [class_run_iff]
  simp [hc]

/-- Nothing else than class invocations matches. -/
theorem C46_kind {c : ClassMatcher F V} {n : Node F} {v : Any F V} (h : c.run n = .matched v) : ∃ ps ks, n = .dataclass c.name ps ks := by
  cases n with
  | dataclass name ps ks => exact ⟨ps, ks, by rw [(class_run_iff.mp h).1]⟩
  | _ => cases h

/-- The invocation is refused because of its arguments exactly when there are too many of them, or some are missing, given twice or unknown;
the report says which. -/
theorem C46_refuses {c : ClassMatcher F V} {ps : List (Node F)} {ks : List (Text × Node F)} :
    (Wrong c ps ks ↔ ∃ r, c.run (.dataclass c.name ps ks) = .unmatched (.arguments r)) ∧
    ∀ r, c.run (.dataclass c.name ps ks) = .unmatched (.arguments r) → Truthful c ps ks r := by
  simp only [class_run_arguments]
  refine ⟨?_, fun r h => validate_some h⟩
  constructor
  · intro hw
    cases h : c.validate ps (toMap ks) with
    | none => exact absurd hw (validate_none h)
    | some r => exact ⟨r, rfl⟩
  · rintro ⟨r, h⟩
    exact truthful_wrong (validate_some h)

/-- A bound argument is read by its index and by its name; a named argument which is not declared is read by its name. -/
theorem C46_access {c : ClassMatcher F V} (hc : (c.arguments.map (·.name)).Nodup) {ps : List (Node F)} {ks : List (Text × Node F)}
    {d : ClassData F V} (h : Binds c ps ks d) :
    (∀ i a v, c.arguments[i]? = some a → Bound ps ks i a v → d.atIndex i = .ok v ∧ d.atName a.name = .ok v) ∧
    (∀ i v, d.variadic[i]? = some v → d.atIndex (c.arguments.length + i) = .ok v) ∧
    ∀ k v, ¬ Declared c k → ((k, v) ∈ d.keyword ↔ d.atName k = .ok v) := by
  have hl : d.standard.length = c.arguments.length := by simpa using congrArg List.length h.names
  refine ⟨?_, ?_, ?_⟩
  · intro i a v ha hv
    obtain ⟨h1, h2⟩ := find_standard hc h ha hv
    unfold ClassData.atIndex ClassData.atName
    rw [h1, h2]
    exact ⟨rfl, rfl⟩
  · intro i v hv
    unfold ClassData.atIndex
    rw [List.getElem?_eq_none (by omega), hl, Nat.add_sub_cancel_left, hv]
  · intro k v hk
    have ho : Ordered d.keyword := by
      have := h.named
      unfold NamedRest at this
      cases hkw : c.keyword with
      | none =>
        rw [hkw] at this
        rw [this.2]
        exact List.Pairwise.nil
      | some m =>
        rw [hkw] at this
        obtain ⟨es, _, hd⟩ := this
        exact hd.ordered
    unfold ClassData.atName
    rw [not_declared_find h hk, ← find_ordered ho]
    cases find k d.keyword <;> simp

/-- Leaving out an argument with a default value is the same as giving the text of the default value. -/
theorem C46_default {c : ClassMatcher F V} (hc : (c.arguments.map (·.name)).Nodup) {conv : ℚ → Option F} {name text : Text} {m : Matcher F V}
    {a : Argument F V} (ha : Argument.withDefault conv name m text = .ok a) {n : Node F} (hn : Pyon.parse conv text = .ok n) {i : Nat}
    (hi : c.arguments[i]? = some a) {ps : List (Node F)} {ks : List (Text × Node F)} (hp : ps.length ≤ i) (hk : NotGiven ks name)
    {d : ClassData F V} (h : Binds c ps ks d) : Binds c ps (ks ++ [(name, n)]) d := by
  unfold Argument.withDefault at ha
  rw [hn] at ha
  simp only at ha
  cases hm : m.run n with
  | unmatched r => rw [hm] at ha; cases ha
  | thrown msg => rw [hm] at ha; cases ha
  | matched w =>
    rw [hm] at ha
    simp only [Outcome.ok.injEq] at ha
    have hname : a.name = name := by rw [← ha]
    have hother : ∀ k, k ≠ name → ∀ x, Given (ks ++ [(name, n)]) k x ↔ Given ks k x := by
      intro k hkn x
      rw [given_snoc]
      constructor
      · rintro (h' | h')
        · exact absurd (congrArg Prod.fst h').symm hkn
        · exact h'.1
      · intro h'
        exact .inr ⟨h', hkn⟩
    have hotherN : ∀ k, k ≠ name → (NotGiven (ks ++ [(name, n)]) k ↔ NotGiven ks k) := by
      intro k hkn
      simp only [not_given_iff, hother k hkn]
    have hdecl : Declared c name := ⟨a, List.mem_of_getElem? hi, hname⟩
    refine ⟨h.names, ?_, h.rest, ?_⟩
    · intro j b hb
      obtain ⟨v, hv, hbound⟩ := h.values j b hb
      refine ⟨v, hv, ?_⟩
      by_cases hbn : b.name = name
      · have hij : i = j := by
          have h1 : (c.arguments.map (·.name))[i]? = some name := by rw [List.getElem?_map, hi]; simp [hname]
          have h2 : (c.arguments.map (·.name))[j]? = some name := by rw [List.getElem?_map, hb]; simp [hbn]
          obtain ⟨l1, e1⟩ := List.getElem?_eq_some_iff.mp h1
          obtain ⟨l2, e2⟩ := List.getElem?_eq_some_iff.mp h2
          exact (List.Nodup.getElem_inj_iff hc).mp (e1.trans e2.symm)
        subst hij
        rw [hi] at hb
        injection hb with hb
        subst hb
        have hd : Bound ps ks i a w := .default hp (hname ▸ hk) (by rw [← ha])
        rw [bound_unique hbound hd]
        refine .keyword hp (n := n) ?_ ?_
        · rw [hname, given_snoc]
          exact .inl rfl
        · rw [← ha]
          exact hm
      · rcases hbound with ⟨h1, h2, h3⟩ | ⟨h1, h2, h3⟩ | ⟨h1, h2, h3⟩
        · exact .positional h1 ((hotherN _ hbn).mpr h2) h3
        · exact .keyword h1 ((hother _ hbn _).mpr h2) h3
        · exact .default h1 ((hotherN _ hbn).mpr h2) h3
    · have := h.named
      unfold NamedRest at this ⊢
      cases hkw : c.keyword with
      | none =>
        rw [hkw] at this
        refine ⟨?_, this.2⟩
        intro e he
        rcases List.mem_append.mp he with he | he
        · exact this.1 e he
        · rw [List.mem_singleton.mp he]
          exact hdecl
      | some km =>
        rw [hkw] at this
        obtain ⟨es, hes, hd⟩ := this
        refine ⟨es, fun k x => ?_, hd⟩
        rw [hes]
        by_cases hkn : k = name
        · subst hkn
          simp [hdecl]
        · rw [hother k hkn]

/-- A class can be declared when it has a name and arguments with default values come last. -/
theorem C46_declared {name : Text} {as : List (Argument F V)} :
    (∃ c, createClass name as = .ok c) ↔
      name ≠ [] ∧ ∀ (i j : Nat) (a b : Argument F V), i < j → as[i]? = some a → as[j]? = some b → a.default ≠ none → b.default ≠ none := by
  rw [← defaultsLast_iff]
  unfold createClass
  split_ifs with h1 h2
  · simp [h1]
  · simp [h1, h2]
  · simp [h1, h2]

/-- Two arguments of the same name can be declared; then no invocation matches, and one with the right arguments throws. -/
theorem C46_same_names_violated :
    ∃ c : ClassMatcher Int Int, createClass "f".toList [⟨"a".toList, none, none⟩, ⟨"a".toList, none, none⟩] = .ok c ∧
      (∀ n v, c.run n ≠ .matched v) ∧ c.run (.dataclass "f".toList [.int 1, .int 2] []) = .thrown "duplicate argument names" := by
  refine ⟨⟨"f".toList, [⟨"a".toList, none, none⟩, ⟨"a".toList, none, none⟩], none, none, [],
    fun d => .ok (.dataclass d.standard d.variadic d.keyword)⟩, rfl, ?_, rfl⟩
  intro n v h
  obtain ⟨ps, ks, rfl⟩ := C46_kind h
  have := (class_run_iff.mp h).2.1
  simp at this

/-- A class `rod(l, r = 2)` whose arguments are positive integers, with no conversion. -/
def rodClass (arguments : List (Argument Int Int)) : ClassMatcher Int Int :=
  ⟨"rod".toList, arguments, none, none, [], fun d => .ok (.dataclass d.standard d.variadic d.keyword)⟩

/-- Positive integers. -/
def positiveInt : Matcher Int Int := matcherInt [fun i => .ok (decide (0 < i))] (fun i => .ok (.value i))

/-- The arguments of `rod`. -/
def rodArguments : List (Argument Int Int) := [⟨"l".toList, some positiveInt, none⟩, ⟨"r".toList, some positiveInt, some (.value 2)⟩]

example : createClass "rod".toList rodArguments = .ok (rodClass rodArguments) := rfl
example : (rodArguments.map (·.name)).Nodup := by decide

/-- `rod(5)`. -/
example : (rodClass rodArguments).run (.dataclass "rod".toList [.int 5] []) =
    .matched (.dataclass [("l".toList, .value 5), ("r".toList, .value 2)] [] []) := rfl

/-- `rod(r=1, l=5)`. -/
example : (rodClass rodArguments).run (.dataclass "rod".toList [] [("r".toList, .int 1), ("l".toList, .int 5)]) =
    .matched (.dataclass [("l".toList, .value 5), ("r".toList, .value 1)] [] []) := rfl

/-- Too many, missing, given twice, unknown. -/
example : (rodClass rodArguments).run (.dataclass "rod".toList [.int 5, .int 1, .int 2] []) = .unmatched (.arguments .excessive) := rfl
example : (rodClass rodArguments).run (.dataclass "rod".toList [] [("r".toList, .int 1)]) = .unmatched (.arguments (.missing ["l".toList])) := rfl
example : (rodClass rodArguments).run (.dataclass "rod".toList [.int 5] [("l".toList, .int 1)]) = .unmatched (.arguments (.redefined "l".toList)) := rfl
example : (rodClass rodArguments).run (.dataclass "rod".toList [.int 5] [("x".toList, .int 1)]) = .unmatched (.arguments (.unknown "x".toList)) := rfl

/-- With `*args` and `**kwargs`: `rod(5, 1, 7, 8, z=9, y=3)`. -/
example : ({ rodClass rodArguments with variadic := some ⟨none, [], fun as => .ok (.array as)⟩, keyword := some ⟨[], none, [], fun es => .ok (.dictionary es)⟩ } :
    ClassMatcher Int Int).run (.dataclass "rod".toList [.int 5, .int 1, .int 7, .int 8] [("z".toList, .int 9), ("y".toList, .int 3)]) =
    .matched (.dataclass [("l".toList, .value 5), ("r".toList, .value 1)] [.node (.int 7), .node (.int 8)]
      [("y".toList, .node (.int 3)), ("z".toList, .node (.int 9))]) := rfl

theorem parse_two : parse (fun _ => some 0 : ℚ → Option Int) "2".toList = .ok (.int 2) := by
  have h : Spec.canonical (fun _ : Int => []) (.int 2) = "2".toList := by
    have h2 : Spec.intText 2 = ['2'] := by rw [Spec.intText, if_neg (by decide), show (2 : Int).natAbs = 2 from rfl, Spec.decimalText]; decide
    simp only [Spec.canonical, h2]
    rfl
  rw [← h]
  exact C45_canonical (fun _ _ => rfl) (.int (by unfold Spec.InLong; decide))

/-- The default value given as a text. -/
example : Argument.withDefault (fun _ => some 0) "r".toList positiveInt "2".toList = .ok ⟨"r".toList, some positiveInt, some (.value 2)⟩ := by
  unfold Argument.withDefault
  rw [parse_two]
  rfl

/-! ### C78 -/

/-- An array matches exactly when its elements do, one by one, and the conditions hold; what is converted are the elements in their order. -/
theorem C78_array {m : ArrayMatcher F V} {n : Node F} {v : Any F V} :
    m.run n = .matched v ↔ ∃ ns as, n = .array ns ∧ ArrayOf m ns as ∧ m.mapping as = .ok v := by
  constructor
  · intro h
    cases n with
    | array ns =>
      obtain ⟨as, h1, h2⟩ := array_run_iff.mp h
      exact ⟨ns, as, rfl, h1, h2⟩
    | _ => cases h
  · rintro ⟨ns, as, rfl, h1, h2⟩
    exact array_run_iff.mpr ⟨as, h1, h2⟩

/-- The report on an array names its first element which does not match. -/
theorem C78_index {m : ArrayMatcher F V} {ns : List (Node F)} {i : Nat} {r : Report} (h : m.run (.array ns) = .unmatched (.index i r)) :
    ∃ e n, m.element = some e ∧ ns[i]? = some n ∧ e.run n = .unmatched r ∧ ∀ j n, j < i → ns[j]? = some n → ∃ a, e.run n = .matched a := by
  have hfin : ∀ as : List (Any F V), finish m.filters m.mapping as ≠ .unmatched (.index i r) := by
    intro as
    unfold finish
    intro h
    have : ∀ fs : List (List (Any F V) → Except String Bool), checkFilters fs as ≠ .unmatched (.index i r) := by
      intro fs
      induction fs with
      | nil => simp [checkFilters]
      | cons f fs ih =>
        unfold checkFilters
        cases f as with
        | error e => simp
        | ok b => cases b <;> simp [ih]
    cases h1 : checkFilters m.filters as with
    | unmatched q =>
      rw [h1] at h
      simp only [Result.unmatched_bind, Result.unmatched.injEq] at h
      exact this _ (by rw [h1, h])
    | thrown q => rw [h1] at h; cases h
    | matched u =>
      rw [h1] at h
      simp only [Result.matched_bind] at h
      cases h2 : m.mapping as with
      | ok v => rw [h2] at h; cases h
      | error v => rw [h2] at h; cases h
  rw [ArrayMatcher.run] at h
  unfold ArrayMatcher.elements at h
  cases he : m.element with
  | none =>
    rw [he] at h
    exact absurd h (hfin _)
  | some e =>
    rw [he] at h
    simp only at h
    have gen : ∀ k, matchElements e k ns = .unmatched (.index i r) →
        ∃ j n, i = k + j ∧ ns[j]? = some n ∧ e.run n = .unmatched r ∧ ∀ j' n, j' < j → ns[j']? = some n → ∃ a, e.run n = .matched a := by
      clear h hfin
      induction ns with
      | nil => intro k h; cases h
      | cons n ns ih =>
        intro k h
        rw [matchElements] at h
        cases h1 : e.run n with
        | unmatched q =>
          rw [h1] at h
          simp only [Result.inside, Result.unmatched_bind, Result.unmatched.injEq, Report.index.injEq] at h
          exact ⟨0, n, by omega, rfl, by rw [h1, h.2], by omega⟩
        | thrown q => rw [h1] at h; cases h
        | matched a =>
          rw [h1] at h
          simp only [Result.inside, Result.matched_bind] at h
          cases h2 : matchElements e (k + 1) ns with
          | matched as => rw [h2] at h; cases h
          | thrown q => rw [h2] at h; cases h
          | unmatched q =>
            rw [h2] at h
            simp only [Result.unmatched_bind, Result.unmatched.injEq] at h
            subst h
            obtain ⟨j, x, hj, hx, hr, hlt⟩ := ih (k + 1) h2
            refine ⟨j + 1, x, by omega, by simpa using hx, hr, ?_⟩
            intro j' y hj' hy
            cases j' with
            | zero =>
              have : n = y := by simpa using hy
              exact ⟨a, by rw [← this]; exact h1⟩
            | succ j' => exact hlt j' y (by omega) (by simpa using hy)
    cases h2 : matchElements e 0 ns with
    | matched as =>
      rw [h2] at h
      exact absurd h (hfin as)
    | thrown q => rw [h2] at h; cases h
    | unmatched q =>
      rw [h2] at h
      simp only [Result.unmatched_bind, Result.unmatched.injEq] at h
      subst h
      obtain ⟨j, n, hj, hn, hr, hlt⟩ := gen 0 h2
      have : i = j := by omega
      subst this
      exact ⟨e, n, rfl, hn, hr, hlt⟩

/-- A dictionary matches exactly when the value of every key does, and the conditions hold. -/
theorem C78_dictionary {m : DictionaryMatcher F V} {n : Node F} {v : Any F V} :
    m.run n = .matched v ↔ ∃ es as, n = .dictionary es ∧ DictionaryOf m es as ∧ m.mapping as = .ok v := by
  constructor
  · intro h
    cases n with
    | dictionary es =>
      obtain ⟨as, h1, h2⟩ := dictionary_run_iff.mp h
      exact ⟨es, as, rfl, h1, h2⟩
    | _ => cases h
  · rintro ⟨ns, as, rfl, h1, h2⟩
    exact dictionary_run_iff.mpr ⟨as, h1, h2⟩

/-- What is converted is determined by the dictionary, whatever the order of its entries in the text. -/
theorem C78_order {m : DictionaryMatcher F V} {es es' : List (Text × Node F)} (hes : (es.map Prod.fst).Nodup) (hp : es.Perm es') (v : Any F V) :
    m.run (.dictionary es) = .matched v ↔ m.run (.dictionary es') = .matched v := by
  have hes' : (es'.map Prod.fst).Nodup := (hp.map _).nodup_iff.mp hes
  have hg : ∀ k n, Given es k n ↔ Given es' k n := by
    intro k n
    rw [given_of_nodup hes, given_of_nodup hes', hp.mem_iff]
  rw [dictionary_run_iff, dictionary_run_iff]
  constructor
  · rintro ⟨as, h, h'⟩
    exact ⟨as, dictionaryOf_congr hg h, h'⟩
  · rintro ⟨as, h, h'⟩
    exact ⟨as, dictionaryOf_congr (fun k n => (hg k n).symm) h, h'⟩

/-- Integers match integers only; floats match integers, converted, and floats; the conditions must hold. -/
theorem C78_numbers {ofInt : Int → F} {fi : List (Int → Except String Bool)} {gi : Int → Except String (Any F V)} {ff : List (F → Except String Bool)}
    {gf : F → Except String (Any F V)} {n : Node F} {v : Any F V} :
    ((matcherInt fi gi).run n = .matched v ↔ ∃ i, n = .int i ∧ Satisfied fi i ∧ gi i = .ok v) ∧
    ((matcherFloat ofInt ff gf).run n = .matched v ↔ ∃ x, (n = .float x ∨ ∃ i, n = .int i ∧ x = ofInt i) ∧ Satisfied ff x ∧ gf x = .ok v) := by
  constructor
  · cases n <;> simp [matcherInt, finish_iff]
  · cases n <;> simp [matcherFloat, finish_iff]

/-- Strings, booleans and `None` match their own kind only. -/
theorem C78_literals {fs : List (Text → Except String Bool)} {gs : Text → Except String (Any F V)} {b : Option Bool} {gb : Bool → Except String (Any F V)}
    {gn : Except String (Any F V)} {n : Node F} {v : Any F V} :
    ((matcherString fs gs).run n = .matched v ↔ ∃ s, n = .string s ∧ Satisfied fs s ∧ gs s = .ok v) ∧
    ((matcherBoolean b gb).run n = .matched v ↔ ∃ x, n = .boolean x ∧ (∀ y, b = some y → y = x) ∧ gb x = .ok v) ∧
    ((matcherNone gn).run n = .matched v ↔ n = .none ∧ gn = .ok v) := by
  refine ⟨?_, ?_, ?_⟩
  · cases n <;> simp [matcherString, finish_iff]
  · cases n with
    | boolean x =>
      simp only [matcherBoolean, Node.boolean.injEq, exists_eq_left']
      cases b with
      | none => simp [converted_iff]
      | some y => cases x <;> cases y <;> simp [converted_iff]
    | _ => simp [matcherBoolean]
  · cases n <;> simp [matcherNone, converted_iff]

/-- All matchers fail on nodes of the kinds they do not declare, so an option of an alternative is never left out wrongly. -/
theorem C78_kinds {ofInt : Int → F} {fi : List (Int → Except String Bool)} {gi : Int → Except String (Any F V)} {ff : List (F → Except String Bool)}
    {gf : F → Except String (Any F V)} {fs : List (Text → Except String Bool)} {gs : Text → Except String (Any F V)} {b : Option Bool}
    {gb : Bool → Except String (Any F V)} {gn : Except String (Any F V)} {a : ArrayMatcher F V} {d : DictionaryMatcher F V} {c : ClassMatcher F V} :
    Honest (matcherInt fi gi) ∧ Honest (matcherFloat ofInt ff gf) ∧ Honest (matcherString fs gs) ∧ Honest (matcherBoolean b gb) ∧
      Honest (matcherNone gn) ∧ Honest a.toMatcher ∧ Honest d.toMatcher ∧ Honest c.toMatcher := by
  refine ⟨?_, ?_, ?_, ?_, ?_, ?_, ?_, class_honest c⟩
  all_goals
    intro n hn
    cases n <;> first | exact ⟨_, rfl⟩ | cases (show true = false from hn)

/-- Arrays of positive integers. -/
def positives : ArrayMatcher Int Int := ⟨some positiveInt, [fun as => .ok (decide (as.length = 2))], fun as => .ok (.array as)⟩

example : positives.run (.array [.int 1, .int 5]) = .matched (.array [.value 1, .value 5]) := rfl
example : positives.run (.array [.int 1, .int 0, .int (-1)]) = .unmatched (.index 1 .condition) := rfl

/-- A dictionary in which the key `n` is special. -/
def special : DictionaryMatcher Int Int := ⟨[(fun k => k == "n".toList, positiveInt)], none, [], fun as => .ok (.dictionary as)⟩

example : special.run (.dictionary [("n".toList, .int 3), ("a".toList, .none)]) = .matched (.dictionary [("a".toList, .node .none), ("n".toList, .value 3)]) := rfl
example : (List.map Prod.fst [("n".toList, (.int 3 : Node Int)), ("a".toList, .none)]).Nodup := by decide

/-! ### C79 -/

/-- An alternative gives what the first of its options gives which does not fail, in the order in which they are written, however they are
joined; it fails when all of them fail. Options other than classes must not take classes. -/
theorem C79_first_partial {l r : Choice F V} (h : Sound (.join l r)) {n : Node F} :
    (∀ v, (Choice.join l r).toMatcher.run n = .matched v ↔ First (options (.join l r)) n (.matched v)) ∧
    (∀ m, (Choice.join l r).toMatcher.run n = .thrown m ↔ First (options (.join l r)) n (.thrown m)) ∧
    ((∃ q, (Choice.join l r).toMatcher.run n = .unmatched q) ↔ ∀ m ∈ options (.join l r), ∃ q, m.run n = .unmatched q) := by
  refine ⟨fun v => (alternative_run h (by simp)).1, fun m => (alternative_run h (by simp)).1, ?_⟩
  exact (alternative_run h (x := .thrown "") (by simp)).2

/-- Joining is associative. -/
theorem C79_associative {a b c : Choice F V} (h : Sound (.join a (.join b c))) {n : Node F} {v : Any F V} :
    (Choice.join (.join a b) c).toMatcher.run n = .matched v ↔ (Choice.join a (.join b c)).toMatcher.run n = .matched v := by
  have h' : Sound (.join (.join a b) c) := ⟨⟨h.1, h.2.1⟩, h.2.2⟩
  rw [(C79_first_partial h).1, (C79_first_partial h').1]
  simp only [options, List.append_assoc]

/-- An option which stands for a class but is not a class itself, like a recursive matcher attached to a class, is never tried for class
invocations, although it would match. -/
theorem C79_recursive_violated :
    ∃ (l r : Choice Int Int) (n : Node Int) (v : Any Int Int),
      First (options (.join l r)) n (.matched v) ∧ (∀ m ∈ options (.join l r), Honest m) ∧
      (Choice.join l r).toMatcher.run n = .unmatched .unknownClass := by
  refine ⟨.other positiveInt, .other (recursive (rodClass rodArguments).toMatcher), .dataclass "rod".toList [.int 5] [],
    .dataclass [("l".toList, .value 5), ("r".toList, .value 2)] [] [], ?_, ?_, rfl⟩
  · exact ⟨[positiveInt], recursive (rodClass rodArguments).toMatcher, [], rfl, by
      intro m hm
      rw [List.mem_singleton.mp hm]
      exact ⟨.nodeType, rfl⟩, rfl⟩
  · intro m hm
    rcases List.mem_cons.mp hm with rfl | hm
    · intro n hn
      cases n <;> first | exact ⟨_, rfl⟩ | cases (show true = false from hn)
    · rw [List.mem_singleton.mp hm]
      exact class_honest _

/-- `rod(l, r = 2) | Integer | rod(l)`, with the invocation taken by the first variant of the class. -/
example : Sound (.join (.join (.dataclass (rodClass rodArguments)) (.other positiveInt)) (.dataclass (rodClass [⟨"l".toList, none, none⟩]))) := by
  refine ⟨⟨trivial, ?_, rfl⟩, trivial⟩
  intro n hn
  cases n <;> first | exact ⟨_, rfl⟩ | cases (show true = false from hn)

example : (Choice.join (.join (.dataclass (rodClass rodArguments)) (.other positiveInt)) (.dataclass (rodClass [⟨"l".toList, none, none⟩]))).toMatcher.run
    (.dataclass "rod".toList [.none] []) = .matched (.dataclass [("l".toList, .node .none)] [] []) := rfl

end Rampack
