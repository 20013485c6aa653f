import Verif.Pyon.MatcherLemmas
/-
Lemmas on the binding of arguments of classes.
-/
namespace Rampack.Pyon

open Spec

variable {F V : Type} {c : ClassMatcher F V} {ps : List (Node F)} {ks : List (Text × Node F)}

theorem isStandard_iff {k : Text} : c.isStandard k = true ↔ Declared c k := by
  simp [ClassMatcher.isStandard, Declared]

/-! ### The checks of arguments -/

theorem excessive_iff : c.excessive ps = true ↔ Excessive c ps := by
  simp [ClassMatcher.excessive, Excessive]

theorem mem_drop_iff {α : Type} {l : List α} {n : Nat} {a : α} : a ∈ l.drop n ↔ ∃ i, n ≤ i ∧ l[i]? = some a := by
  rw [List.mem_iff_getElem?]
  simp only [List.getElem?_drop]
  constructor
  · rintro ⟨i, h⟩
    exact ⟨n + i, by omega, h⟩
  · rintro ⟨i, h, h'⟩
    refine ⟨i - n, ?_⟩
    rw [show n + (i - n) = i by omega]
    exact h'

theorem mem_take_iff {α : Type} {l : List α} {n : Nat} {a : α} : a ∈ l.take n ↔ ∃ i, i < n ∧ l[i]? = some a := by
  rw [List.mem_iff_getElem?]
  simp only [List.getElem?_take]
  constructor
  · rintro ⟨i, h⟩
    split_ifs at h with h1
    exact ⟨i, h1, h⟩
  · rintro ⟨i, h, h'⟩
    exact ⟨i, by rw [if_pos h]; exact h'⟩

theorem missing_iff {k : Text} : k ∈ c.missing ps (toMap ks) ↔ Missing c ps ks k := by
  unfold ClassMatcher.missing Missing
  simp only [List.mem_map, List.mem_filter, mem_drop_iff, Bool.and_eq_true, Option.isNone_iff_eq_none, find_toMap_none]
  constructor
  · rintro ⟨a, ⟨⟨i, hi, ha⟩, hg, hd⟩, rfl⟩
    exact ⟨i, a, ha, rfl, hi, hd, hg⟩
  · rintro ⟨i, a, ha, rfl, hi, hd, hg⟩
    exact ⟨a, ⟨⟨i, hi, ha⟩, hg, hd⟩, rfl⟩

theorem isSome_find_iff {k : Text} : (find k (toMap ks)).isSome = true ↔ ¬ NotGiven ks k := by
  rw [← find_toMap_none]
  cases find k (toMap ks) <;> simp

theorem redefined_some {k : Text} (h : c.redefined ps (toMap ks) = some k) : Redefined c ps ks k := by
  unfold ClassMatcher.redefined at h
  obtain ⟨a, ha, rfl⟩ := Option.map_eq_some_iff.mp h
  obtain ⟨i, hi, hi'⟩ := mem_take_iff.mp (List.mem_of_find?_eq_some ha)
  have hs := List.find?_some (p := fun a : Argument F V => (find a.name (toMap ks)).isSome) ha
  exact ⟨i, a, hi', rfl, hi, isSome_find_iff.mp hs⟩

theorem redefined_none (h : c.redefined ps (toMap ks) = none) (k : Text) : ¬ Redefined c ps ks k := by
  unfold ClassMatcher.redefined at h
  rw [Option.map_eq_none_iff, List.find?_eq_none] at h
  rintro ⟨i, a, ha, rfl, hi, hg⟩
  exact h a (mem_take_iff.mpr ⟨i, hi, ha⟩) (isSome_find_iff.mpr hg)

theorem mem_toMap_not_given {e : Text × Node F} (h : e ∈ toMap ks) : ¬ NotGiven ks e.1 := by
  intro hn
  exact not_given_iff.mp hn e.2 (((toMap_spec ks).2 e.1 e.2).mp h)

theorem unknown_some {k : Text} (h : c.unknown (toMap ks) = some k) : Unknown c ks k := by
  unfold ClassMatcher.unknown at h
  split_ifs at h with hk
  obtain ⟨e, he, rfl⟩ := Option.map_eq_some_iff.mp h
  refine ⟨by simpa using hk, mem_toMap_not_given (List.mem_of_find?_eq_some he), ?_⟩
  have := List.find?_some he
  rw [Bool.not_eq_true'] at this
  intro hd
  rw [isStandard_iff.mpr hd] at this
  cases this

theorem unknown_none (h : c.unknown (toMap ks) = none) (k : Text) : ¬ Unknown c ks k := by
  rintro ⟨hk, hg, hd⟩
  unfold ClassMatcher.unknown at h
  rw [hk] at h
  simp only [Option.isSome_none, Bool.false_eq_true, if_false, Option.map_eq_none_iff, List.find?_eq_none] at h
  rw [not_given_iff] at hg
  push Not at hg
  obtain ⟨v, hv⟩ := hg
  have := h (k, v) (((toMap_spec ks).2 k v).mpr hv)
  simp only [Bool.not_eq_true', Bool.not_eq_false] at this
  exact hd (isStandard_iff.mp this)

theorem validate_some {r : ArgumentsReport} (h : c.validate ps (toMap ks) = some r) : Truthful c ps ks r := by
  unfold ClassMatcher.validate at h
  split_ifs at h with h1 h2
  · injection h with h
    subst h
    exact excessive_iff.mp h1
  · injection h with h
    subst h
    exact ⟨h2, fun k => missing_iff⟩
  · cases h3 : c.redefined ps (toMap ks) with
    | some k =>
      rw [h3] at h
      injection h with h
      subst h
      exact redefined_some h3
    | none =>
      rw [h3] at h
      obtain ⟨k, hk, rfl⟩ := Option.map_eq_some_iff.mp h
      exact unknown_some hk

theorem truthful_wrong {r : ArgumentsReport} (h : Truthful c ps ks r) : Wrong c ps ks := by
  cases r with
  | excessive => exact .inl h
  | missing names =>
    obtain ⟨h1, h2⟩ := h
    obtain ⟨k, hk⟩ := List.exists_mem_of_ne_nil _ h1
    exact .inr (.inl ⟨k, (h2 k).mp hk⟩)
  | redefined k => exact .inr (.inr (.inl ⟨k, h⟩))
  | unknown k => exact .inr (.inr (.inr ⟨k, h⟩))

theorem validate_none (h : c.validate ps (toMap ks) = none) : ¬ Wrong c ps ks := by
  unfold ClassMatcher.validate at h
  split_ifs at h with h1 h2
  cases h3 : c.redefined ps (toMap ks) with
  | some k => rw [h3] at h; cases h
  | none =>
    rw [h3] at h
    have h4 : c.unknown (toMap ks) = none := Option.map_eq_none_iff.mp h
    rintro (h | ⟨k, h⟩ | ⟨k, h⟩ | ⟨k, h⟩)
    · exact h1 (excessive_iff.mpr h)
    · rw [not_not] at h2
      have := missing_iff.mpr h
      rw [h2] at this
      cases this
    · exact redefined_none h3 k h
    · exact unknown_none h4 k h

theorem validate_none_iff : c.validate ps (toMap ks) = none ↔ ¬ Wrong c ps ks := by
  refine ⟨validate_none, fun h => ?_⟩
  cases h' : c.validate ps (toMap ks) with
  | none => rfl
  | some r => exact absurd (truthful_wrong (validate_some h')) h

/-! ### The values of arguments -/

theorem convert_iff {a : Argument F V} {n : Node F} {v : Any F V} : a.convert n = .matched v ↔ Turns a.matcher n v := by
  unfold Argument.convert Turns
  cases a.matcher with
  | none => simp [eq_comm]
  | some m => simp

theorem byName_iff {a : Argument F V} {v : Any F V} :
    a.byName (toMap ks) = .matched v ↔
      (∃ n, Given ks a.name n ∧ Turns a.matcher n v) ∨ (NotGiven ks a.name ∧ a.default = some v) := by
  unfold Argument.byName
  cases h : find a.name (toMap ks) with
  | some n =>
    have hg := (find_toMap ks a.name n).mp h
    simp only [convert_iff]
    constructor
    · intro ht
      exact .inl ⟨n, hg, ht⟩
    · rintro (⟨n', hg', ht⟩ | ⟨hn, _⟩)
      · rw [given_unique hg hg']
        exact ht
      · exact absurd hg (not_given_iff.mp hn n)
  | none =>
    have hn := (find_toMap_none ks a.name).mp h
    simp only
    constructor
    · intro ht
      cases hd : a.default with
      | none => rw [hd] at ht; cases ht
      | some w =>
        rw [hd] at ht
        injection ht with ht
        exact .inr ⟨hn, by rw [ht]⟩
    · rintro (⟨n', hg', _⟩ | ⟨_, hd⟩)
      · exact absurd hg' (not_given_iff.mp hn n')
      · rw [hd]

/-- The value of an argument without the check that it is not redefined. -/
def Value (ps : List (Node F)) (ks : List (Text × Node F)) (i : Nat) (a : Argument F V) (v : Any F V) : Prop :=
  (∃ n, ps[i]? = some n ∧ Turns a.matcher n v) ∨ (ps.length ≤ i ∧ a.byName (toMap ks) = .matched v)

theorem bindArguments_iff {as : List (Argument F V)} {vs : List (Text × Any F V)} :
    bindArguments (toMap ks) as ps = .matched vs ↔
      vs.map Prod.fst = as.map (·.name) ∧ ∀ i a, as[i]? = some a → ∃ v, vs[i]? = some (a.name, v) ∧ Value ps ks i a v := by
  induction as generalizing ps vs with
  | nil =>
    simp only [bindArguments, Result.matched.injEq, List.map_nil, List.map_eq_nil_iff]
    constructor
    · rintro rfl
      exact ⟨rfl, by simp⟩
    · rintro ⟨h, _⟩
      exact h.symm
  | cons a as ih =>
    have key : bindArguments (toMap ks) (a :: as) ps = .matched vs ↔
        ∃ v us, Value ps ks 0 a v ∧ bindArguments (toMap ks) as ps.tail = .matched us ∧ vs = (a.name, v) :: us := by
      cases ps with
      | nil =>
        rw [bindArguments]
        simp only [Result.bind_eq_matched, Result.pure_eq, Value, List.tail_nil]
        constructor
        · rintro ⟨v, hv, us, hus, h⟩
          injection h with h
          exact ⟨v, us, .inr ⟨by simp, hv⟩, hus, h.symm⟩
        · rintro ⟨v, us, ⟨n, h, _⟩ | ⟨_, hv⟩, hus, rfl⟩
          · simp at h
          · exact ⟨v, hv, us, hus, rfl⟩
      | cons n ns =>
        rw [bindArguments]
        simp only [Result.bind_eq_matched, Result.pure_eq, Value, List.tail_cons, convert_iff]
        constructor
        · rintro ⟨v, hv, us, hus, h⟩
          injection h with h
          exact ⟨v, us, .inl ⟨n, rfl, hv⟩, hus, h.symm⟩
        · rintro ⟨v, us, ⟨n', h, hv⟩ | ⟨h, _⟩, hus, rfl⟩
          · have : n = n' := by simpa using h
            subst this
            exact ⟨v, hv, us, hus, rfl⟩
          · simp at h
    have tail : ∀ (i : Nat) (a : Argument F V) (v : Any F V), Value ps.tail ks i a v ↔ Value ps ks (i + 1) a v := by
      intro i a v
      unfold Value
      cases ps with
      | nil => simp
      | cons n ns => simp
    rw [key]
    simp only [ih]
    constructor
    · rintro ⟨v, us, h0, ⟨hn, hv⟩, rfl⟩
      refine ⟨by simp [hn], ?_⟩
      intro i b hb
      cases i with
      | zero =>
        have : a = b := by simpa using hb
        subst this
        exact ⟨v, rfl, h0⟩
      | succ i =>
        obtain ⟨w, hw, hw'⟩ := hv i b (by simpa using hb)
        exact ⟨w, by simpa using hw, (tail i b w).mp hw'⟩
    · rintro ⟨hn, hv⟩
      obtain ⟨v, hv0, hv0'⟩ := hv 0 a rfl
      cases vs with
      | nil => simp at hv0
      | cons x us =>
        have hx : x = (a.name, v) := by simpa using hv0
        subst hx
        refine ⟨v, us, hv0', ⟨by simpa using hn, ?_⟩, rfl⟩
        intro i b hb
        obtain ⟨w, hw, hw'⟩ := hv (i + 1) b (by simpa using hb)
        exact ⟨w, by simpa using hw, (tail i b w).mpr hw'⟩

theorem bound_iff {i : Nat} {a : Argument F V} {v : Any F V} (ha : c.arguments[i]? = some a) (hw : ¬ Wrong c ps ks) :
    Bound ps ks i a v ↔ Value ps ks i a v := by
  unfold Value
  rw [byName_iff]
  constructor
  · rintro (⟨hn, _, ht⟩ | ⟨hl, hg, ht⟩ | ⟨hl, hn, hd⟩)
    · exact .inl ⟨_, hn, ht⟩
    · exact .inr ⟨hl, .inl ⟨_, hg, ht⟩⟩
    · exact .inr ⟨hl, .inr ⟨hn, hd⟩⟩
  · rintro (⟨n, hn, ht⟩ | ⟨hl, ⟨n, hg, ht⟩ | ⟨hn, hd⟩⟩)
    · refine .positional hn ?_ ht
      by_contra hg
      refine hw (.inr (.inr (.inl ⟨a.name, i, a, ha, rfl, ?_, hg⟩)))
      exact (List.getElem?_eq_some_iff.mp hn).1
    · exact .keyword hl hg ht
    · exact .default hl hn hd

/-! ### Variadic arguments -/

theorem empty_array {as : List (Any F V)} {ns : List (Node F)} {g : List (Any F V) → Except String (Any F V)} :
    ArrayOf ⟨none, [fun as => .ok as.isEmpty], g⟩ ns as ↔ ns = [] ∧ as = [] := by
  unfold ArrayOf Satisfied
  simp only [List.mem_singleton, forall_eq, Except.ok.injEq, List.isEmpty_iff]
  constructor
  · rintro ⟨h, rfl⟩
    rw [List.forall₂_nil_right_iff] at h
    exact ⟨h, rfl⟩
  · rintro ⟨rfl, rfl⟩
    exact ⟨.nil, rfl⟩

theorem matchVariadic_iff {as : List (Any F V)} : c.matchVariadic ps = .matched as ↔ Rest c ps as := by
  unfold ClassMatcher.matchVariadic Rest
  simp only [Result.bind_eq_matched, Result.inside_eq_matched, array_run_iff]
  unfold ClassMatcher.variadicMatcher
  cases h : c.variadic with
  | none =>
    simp only [empty_array, Except.ok.injEq]
    constructor
    · rintro ⟨a, ⟨bs, ⟨hn, rfl⟩, rfl⟩, h⟩
      simp only [Any.asArray, Result.matched.injEq] at h
      exact ⟨List.drop_eq_nil_iff.mp hn, h.symm⟩
    · rintro ⟨hn, rfl⟩
      exact ⟨_, ⟨_, ⟨List.drop_eq_nil_iff.mpr hn, rfl⟩, rfl⟩, rfl⟩
  | some m =>
    simp only [Except.ok.injEq]
    constructor
    · rintro ⟨a, ⟨bs, hb, rfl⟩, h⟩
      simp only [Any.asArray, Result.matched.injEq] at h
      rw [← h]
      exact hb
    · intro h
      exact ⟨_, ⟨as, h, rfl⟩, rfl⟩

theorem dictionaryOf_congr {m : DictionaryMatcher F V} {es es' : List (Text × Node F)} (h : ∀ k n, Given es k n ↔ Given es' k n)
    {as : List (Text × Any F V)} (hd : DictionaryOf m es as) : DictionaryOf m es' as :=
  ⟨hd.ordered, fun k n hg => hd.all k n ((h k n).mpr hg), fun k a ha => by
    obtain ⟨n, hn, hv⟩ := hd.only k a ha
    exact ⟨n, (h k n).mp hn, hv⟩, hd.satisfied⟩

theorem dictionaryOf_mapping {ms : List ((Text → Bool) × Matcher F V)} {o : Option (Matcher F V)}
    {fs : List (List (Text × Any F V) → Except String Bool)} {g g' : List (Text × Any F V) → Except String (Any F V)} {es : List (Text × Node F)}
    {as : List (Text × Any F V)} (hd : DictionaryOf ⟨ms, o, fs, g⟩ es as) : DictionaryOf ⟨ms, o, fs, g'⟩ es as := by
  have hv : ∀ k n a, ValueAt ⟨ms, o, fs, g⟩ k n a → ValueAt ⟨ms, o, fs, g'⟩ k n a := fun k n a h =>
    matchKey_iff.mp (matchKey_iff.mpr h)
  refine ⟨hd.ordered, ?_, ?_, hd.satisfied⟩
  · intro k n hg
    obtain ⟨a, ha, h⟩ := hd.all k n hg
    exact ⟨a, ha, hv _ _ _ h⟩
  · intro k a ha
    obtain ⟨n, hn, h⟩ := hd.only k a ha
    exact ⟨n, hn, hv _ _ _ h⟩

/-- The named arguments which have not been declared, as the program finds them. -/
def others (c : ClassMatcher F V) (ks : List (Text × Node F)) : List (Text × Node F) := (toMap ks).filter (fun e => !c.isStandard e.1)

theorem others_given (k : Text) (n : Node F) : Given (others c ks) k n ↔ Given ks k n ∧ ¬ Declared c k := by
  have ho : Ordered (others c ks) := List.Pairwise.filter _ (toMap_spec ks).1
  rw [toMap_of_ordered ho]
  unfold others
  rw [List.mem_filter, (toMap_spec ks).2]
  simp only [Bool.not_eq_true', ← isStandard_iff, Bool.not_eq_true]

theorem empty_dictionary {as : List (Text × Any F V)} {es : List (Text × Node F)} {g : List (Text × Any F V) → Except String (Any F V)} :
    DictionaryOf ⟨[], none, [fun as => .ok as.isEmpty], g⟩ es as ↔ es = [] ∧ as = [] := by
  constructor
  · intro h
    have h0 := h.satisfied _ List.mem_cons_self
    have ha : as = [] := by simpa using h0
    refine ⟨?_, ha⟩
    cases es with
    | nil => rfl
    | cons e es =>
      obtain ⟨w, hw⟩ := given_of_mem (k := e.1) (v := e.2) (es := e :: es) List.mem_cons_self
      obtain ⟨a, h', _⟩ := h.all _ _ hw
      rw [ha] at h'
      cases h'
  · rintro ⟨rfl, rfl⟩
    refine ⟨List.Pairwise.nil, ?_, by simp, ?_⟩
    · intro k n h
      cases given_mem h
    · intro f hf
      rw [List.mem_singleton.mp hf]
      rfl

theorem others_empty : others c ks = [] ↔ ∀ e ∈ ks, Declared c e.1 := by
  constructor
  · intro h e he
    by_contra hd
    obtain ⟨w, hw⟩ := given_of_mem (k := e.1) (v := e.2) he
    have := given_mem ((others_given (c := c) e.1 w).mpr ⟨hw, hd⟩)
    rw [h] at this
    cases this
  · intro h
    rw [List.eq_nil_iff_forall_not_mem]
    intro e he
    obtain ⟨w, hw⟩ := given_of_mem (k := e.1) (v := e.2) he
    obtain ⟨hg, hd⟩ := (others_given (c := c) e.1 w).mp hw
    exact hd (h (e.1, w) (given_mem hg))

theorem matchKeyword_iff {as : List (Text × Any F V)} : c.matchKeyword (toMap ks) = .matched as ↔ NamedRest c ks as := by
  unfold ClassMatcher.matchKeyword NamedRest
  simp only [Result.bind_eq_matched, Result.inside_eq_matched, dictionary_run_iff]
  change (∃ a, (∃ bs, DictionaryOf c.keywordMatcher (others c ks) bs ∧ _) ∧ _) ↔ _
  unfold ClassMatcher.keywordMatcher
  cases h : c.keyword with
  | none =>
    simp only [empty_dictionary, Except.ok.injEq, others_empty]
    constructor
    · rintro ⟨a, ⟨bs, ⟨hn, rfl⟩, rfl⟩, h⟩
      simp only [Any.asDictionary, Result.matched.injEq] at h
      exact ⟨hn, h.symm⟩
    · rintro ⟨hn, rfl⟩
      exact ⟨_, ⟨_, ⟨hn, rfl⟩, rfl⟩, rfl⟩
  | some m =>
    simp only [Except.ok.injEq]
    constructor
    · rintro ⟨a, ⟨bs, hb, rfl⟩, h⟩
      simp only [Any.asDictionary, Result.matched.injEq] at h
      subst h
      exact ⟨others c ks, others_given, dictionaryOf_mapping (g' := m.mapping) hb⟩
    · rintro ⟨es, hes, hd⟩
      refine ⟨_, ⟨as, ?_, rfl⟩, rfl⟩
      exact dictionaryOf_mapping (dictionaryOf_congr (fun k n => (hes k n).trans (others_given k n).symm) hd)

/-! ### The whole -/

theorem matchStandard_iff {vs : List (Text × Any F V)} :
    c.matchStandard ps (toMap ks) = .matched vs ↔ ¬ Wrong c ps ks ∧ (c.arguments.map (·.name)).Nodup ∧
      vs.map Prod.fst = c.arguments.map (·.name) ∧
      ∀ i a, c.arguments[i]? = some a → ∃ v, vs[i]? = some (a.name, v) ∧ Bound ps ks i a v := by
  unfold ClassMatcher.matchStandard
  cases h : c.validate ps (toMap ks) with
  | some r =>
    simp only [reduceCtorEq, false_iff]
    rintro ⟨hw, _⟩
    exact hw (truthful_wrong (validate_some h))
  | none =>
    have hw := validate_none h
    simp only [Result.bind_eq_matched, bindArguments_iff, standardArguments]
    constructor
    · rintro ⟨us, ⟨hn, hv⟩, h'⟩
      split_ifs at h' with hd
      injection h' with h'
      subst h'
      refine ⟨hw, hn ▸ hd, hn, ?_⟩
      intro i a ha
      obtain ⟨v, hv1, hv2⟩ := hv i a ha
      exact ⟨v, hv1, (bound_iff ha hw).mpr hv2⟩
    · rintro ⟨_, hd, hn, hv⟩
      refine ⟨vs, ⟨hn, ?_⟩, ?_⟩
      · intro i a ha
        obtain ⟨v, hv1, hv2⟩ := hv i a ha
        exact ⟨v, hv1, (bound_iff ha hw).mp hv2⟩
      · rw [if_pos (hn ▸ hd)]

/-- Bound arguments are the right ones. -/
theorem binds_not_wrong {d : ClassData F V} (h : Binds c ps ks d) : ¬ Wrong c ps ks := by
  rintro (⟨h1, h2⟩ | ⟨k, i, a, ha, rfl, hi, hd, hn⟩ | ⟨k, i, a, ha, rfl, hi, hg⟩ | ⟨k, hk, hg, hd⟩)
  · have := h.rest
    unfold Rest at this
    rw [h1] at this
    exact absurd this.1 (by omega)
  · obtain ⟨v, _, hv⟩ := h.values i a ha
    rcases hv with ⟨hp, _, _⟩ | ⟨_, hg, _⟩ | ⟨_, _, hd'⟩
    · have := (List.getElem?_eq_some_iff.mp hp).1
      omega
    · exact not_given_iff.mp hn _ hg
    · rw [hd] at hd'
      cases hd'
  · obtain ⟨v, _, hv⟩ := h.values i a ha
    rcases hv with ⟨_, hn, _⟩ | ⟨hl, _, _⟩ | ⟨hl, _, _⟩
    · exact hg hn
    · omega
    · omega
  · have := h.named
    unfold NamedRest at this
    rw [hk] at this
    rw [not_given_iff] at hg
    push Not at hg
    obtain ⟨v, hv⟩ := hg
    exact hd (this.1 _ (given_mem hv))

theorem class_run_iff {name : Text} {v : Any F V} :
    c.run (.dataclass name ps ks) = .matched v ↔ name = c.name ∧ (c.arguments.map (·.name)).Nodup ∧
      ∃ d, Binds c ps ks d ∧ Satisfied c.filters d ∧ c.mapping d = .ok v := by
  rw [ClassMatcher.run]
  split_ifs with hname
  · simp only [reduceCtorEq, false_iff]
    rintro ⟨h, _⟩
    exact hname h
  · rw [not_not] at hname
    simp only [Result.bind_eq_matched, matchStandard_iff, matchVariadic_iff, matchKeyword_iff, finish_iff]
    constructor
    · rintro ⟨s, ⟨_, hd, hn, hv⟩, r, hr, k, hk, hf, hm⟩
      exact ⟨hname, hd, ⟨s, r, k⟩, ⟨hn, hv, hr, hk⟩, hf, hm⟩
    · rintro ⟨_, hd, ⟨s, r, k⟩, hb, hf, hm⟩
      exact ⟨s, ⟨binds_not_wrong hb, hd, hb.names, hb.values⟩, r, hb.rest, k, hb.named, hf, hm⟩

/-! ### Reports on arguments -/

/-- The result is not a report on arguments. -/
def NotArguments {α : Type} (x : Result α) : Prop := ∀ r, x ≠ .unmatched (.arguments r)

theorem notArguments_bind {α β : Type} {x : Result α} {f : α → Result β} (hx : NotArguments x) (hf : ∀ a, NotArguments (f a)) :
    NotArguments (x >>= f) := by
  cases x with
  | matched a => exact hf a
  | unmatched r =>
    intro q h
    simp only [Result.unmatched_bind, Result.unmatched.injEq] at h
    exact hx q (by rw [h])
  | thrown m =>
    intro q h
    cases h

theorem notArguments_matched {α : Type} (a : α) : NotArguments (.matched a) := by
  intro q h
  cases h

theorem notArguments_thrown {α : Type} (m : String) : NotArguments (.thrown m : Result α) := by
  intro q h
  cases h

theorem notArguments_inside {α : Type} {g : Report → Report} (hg : ∀ r q, g r ≠ .arguments q) (x : Result α) : NotArguments (x.inside g) := by
  intro q h
  cases x with
  | unmatched r =>
    simp only [Result.inside, Result.unmatched.injEq] at h
    exact hg r q h
  | matched a => cases h
  | thrown m => cases h

theorem notArguments_convert (a : Argument F V) (n : Node F) : NotArguments (a.convert n) := by
  unfold Argument.convert
  cases a.matcher with
  | none => exact notArguments_matched _
  | some m => exact notArguments_inside (fun _ _ => by simp) _

theorem notArguments_bindArguments (as : List (Argument F V)) (ps : List (Node F)) (ks : List (Text × Node F)) :
    NotArguments (bindArguments ks as ps) := by
  induction as generalizing ps with
  | nil => exact notArguments_matched _
  | cons a as ih =>
    cases ps with
    | nil =>
      rw [bindArguments]
      refine notArguments_bind ?_ (fun v => notArguments_bind (ih _) (fun _ => notArguments_matched _))
      unfold Argument.byName
      cases find a.name ks with
      | some n => exact notArguments_convert a n
      | none =>
        cases a.default with
        | none => exact notArguments_thrown _
        | some v => exact notArguments_matched _
    | cons n ns =>
      rw [bindArguments]
      exact notArguments_bind (notArguments_convert a n) (fun v => notArguments_bind (ih _) (fun _ => notArguments_matched _))

theorem notArguments_finish {α : Type} (fs : List (α → Except String Bool)) (g : α → Except String (Any F V)) (a : α) :
    NotArguments (finish fs g a) := by
  unfold finish
  refine notArguments_bind ?_ (fun _ => ?_)
  · induction fs with
    | nil => exact notArguments_matched _
    | cons f fs ih =>
      unfold checkFilters
      cases f a with
      | ok b =>
        cases b
        · intro q h
          cases h
        · exact ih
      | error m => exact notArguments_thrown _
  · cases g a with
    | ok v => exact notArguments_matched _
    | error m => exact notArguments_thrown _

theorem class_run_arguments {r : ArgumentsReport} :
    c.run (.dataclass c.name ps ks) = .unmatched (.arguments r) ↔ c.validate ps (toMap ks) = some r := by
  rw [ClassMatcher.run, if_neg (by simp), ClassMatcher.matchStandard]
  cases h : c.validate ps (toMap ks) with
  | some q => simp
  | none =>
    simp only [reduceCtorEq, iff_false]
    refine notArguments_bind (notArguments_bind (notArguments_bindArguments _ _ _) (fun vs => ?_)) (fun s =>
      notArguments_bind (notArguments_bind (notArguments_inside (fun _ _ => by simp) _) (fun a => ?_)) (fun v =>
        notArguments_bind (notArguments_bind (notArguments_inside (fun _ _ => by simp) _) (fun a => ?_)) (fun k =>
          notArguments_finish _ _ _))) r
    · unfold standardArguments
      split_ifs
      · exact notArguments_matched _
      · exact notArguments_thrown _
    · cases a <;> first | exact notArguments_thrown _ | exact notArguments_matched _
    · cases a <;> first | exact notArguments_thrown _ | exact notArguments_matched _

/-! ### The binding is unique -/

theorem turns_unique {m : Option (Matcher F V)} {n : Node F} {a b : Any F V} (ha : Turns m n a) (hb : Turns m n b) : a = b := by
  cases m with
  | none => exact ha.trans hb.symm
  | some m =>
    unfold Turns at ha hb
    simp only at ha hb
    rw [ha] at hb
    injection hb

theorem bound_unique {i : Nat} {a : Argument F V} {v w : Any F V} (hv : Bound ps ks i a v) (hw : Bound ps ks i a w) : v = w := by
  rcases hv with ⟨h1, h2, h3⟩ | ⟨h1, h2, h3⟩ | ⟨h1, h2, h3⟩ <;> rcases hw with ⟨g1, g2, g3⟩ | ⟨g1, g2, g3⟩ | ⟨g1, g2, g3⟩
  · rw [h1] at g1
    injection g1 with g1
    subst g1
    exact turns_unique h3 g3
  · have := (List.getElem?_eq_some_iff.mp h1).1
    omega
  · have := (List.getElem?_eq_some_iff.mp h1).1
    omega
  · have := (List.getElem?_eq_some_iff.mp g1).1
    omega
  · rw [given_unique h2 g2] at h3
    exact turns_unique h3 g3
  · exact absurd h2 (not_given_iff.mp g2 _)
  · have := (List.getElem?_eq_some_iff.mp g1).1
    omega
  · exact absurd g2 (not_given_iff.mp h2 _)
  · rw [h3] at g3
    injection g3

theorem forall2_unique {α β : Type} {R : α → β → Prop} (hR : ∀ a b b', R a b → R a b' → b = b') {l : List α} {m m' : List β}
    (h : List.Forall₂ R l m) (h' : List.Forall₂ R l m') : m = m' := by
  induction h generalizing m' with
  | nil => rw [List.forall₂_nil_left_iff.mp h']
  | cons h _ ih =>
    rcases h' with _ | ⟨g, gs⟩
    rw [hR _ _ _ h g, ih gs]

theorem dictionaryOf_unique {m : DictionaryMatcher F V} {es es' : List (Text × Node F)} (he : ∀ k n, Given es k n ↔ Given es' k n)
    {as bs : List (Text × Any F V)} (h : DictionaryOf m es as) (h' : DictionaryOf m es' bs) : as = bs := by
  apply ordered_ext h.ordered h'.ordered
  intro k a
  constructor
  · intro ha
    obtain ⟨n, hn, hv⟩ := h.only k a ha
    obtain ⟨b, hb, hv'⟩ := h'.all k n ((he k n).mp hn)
    rw [valueAt_unique hv hv']
    exact hb
  · intro ha
    obtain ⟨n, hn, hv⟩ := h'.only k a ha
    obtain ⟨b, hb, hv'⟩ := h.all k n ((he k n).mpr hn)
    rw [valueAt_unique hv hv']
    exact hb

theorem binds_unique {d d' : ClassData F V} (h : Binds c ps ks d) (h' : Binds c ps ks d') : d = d' := by
  obtain ⟨s, r, k⟩ := d
  obtain ⟨s', r', k'⟩ := d'
  have hl : s.length = c.arguments.length := by simpa using congrArg List.length h.names
  have hl' : s'.length = c.arguments.length := by simpa using congrArg List.length h'.names
  have h1 : s = s' := by
    apply List.ext_getElem?
    intro i
    cases ha : c.arguments[i]? with
    | none =>
      have := List.getElem?_eq_none_iff.mp ha
      rw [List.getElem?_eq_none (by omega), List.getElem?_eq_none (by omega)]
    | some a =>
      obtain ⟨v, hv, hb⟩ := h.values i a ha
      obtain ⟨w, hw, hb'⟩ := h'.values i a ha
      simp only at hv hw
      rw [hv, hw, bound_unique hb hb']
  have h2 : r = r' := by
    have e := matchVariadic_iff.mpr h.rest
    have e' := matchVariadic_iff.mpr h'.rest
    rw [e] at e'
    injection e'
  have h3 : k = k' := by
    have e := matchKeyword_iff.mpr h.named
    have e' := matchKeyword_iff.mpr h'.named
    rw [e] at e'
    injection e'
  rw [h1, h2, h3]

/-! ### Access to bound arguments -/

theorem find_standard {d : ClassData F V} (hc : (c.arguments.map (·.name)).Nodup) (h : Binds c ps ks d) {i : Nat} {a : Argument F V}
    {v : Any F V} (ha : c.arguments[i]? = some a) (hv : Bound ps ks i a v) : d.standard[i]? = some (a.name, v) ∧ find a.name d.standard = some v := by
  obtain ⟨w, hw, hb⟩ := h.values i a ha
  rw [bound_unique hb hv] at hw
  refine ⟨hw, ?_⟩
  have hn : (d.standard.map Prod.fst).Nodup := by rw [h.names]; exact hc
  have hm : (a.name, v) ∈ d.standard := List.mem_of_getElem? hw
  generalize d.standard = l at hn hm
  induction l with
  | nil => simp at hm
  | cons e l ih =>
    rw [List.map_cons, List.nodup_cons] at hn
    unfold find
    rcases List.mem_cons.mp hm with hm | hm
    · rw [← hm]
      simp
    · rw [if_neg]
      · exact ih hn.2 hm
      · intro he
        exact hn.1 (List.mem_map.mpr ⟨_, hm, he.symm⟩)

theorem not_declared_find {d : ClassData F V} (h : Binds c ps ks d) {k : Text} (hk : ¬ Declared c k) : find k d.standard = none := by
  rw [find_none]
  intro e he hek
  have : k ∈ d.standard.map Prod.fst := List.mem_map.mpr ⟨e, he, hek⟩
  rw [h.names] at this
  obtain ⟨a, ha, hak⟩ := List.mem_map.mp this
  exact hk ⟨a, ha, hak⟩

/-! ### The order of declared arguments -/

theorem defaultsLast_iff {as : List (Argument F V)} :
    defaultsLast as = true ↔ ∀ (i j : Nat) (a b : Argument F V), i < j → as[i]? = some a → as[j]? = some b → a.default ≠ none → b.default ≠ none := by
  induction as with
  | nil => simp [defaultsLast]
  | cons a as ih =>
    unfold defaultsLast
    rw [Bool.and_eq_true, ih]
    constructor
    · rintro ⟨h1, h2⟩ i j x y hij hx hy hd
      cases j with
      | zero => omega
      | succ j =>
        cases i with
        | zero =>
          have hxa : a = x := by simpa using hx
          subst hxa
          cases as with
          | nil => simp at hy
          | cons b as =>
            have hb : b.default ≠ none := by
              simp only [Bool.not_eq_true', Bool.and_eq_false_iff] at h1
              rcases h1 with h1 | h1
              · simp at h1
                exact absurd h1 hd
              · intro hb
                rw [hb] at h1
                cases h1
            cases j with
            | zero =>
              have : b = y := by simpa using hy
              rw [← this]
              exact hb
            | succ j => exact h2 0 (j + 1) b y (by omega) rfl (by simpa using hy) hb
        | succ i => exact h2 i j x y (by omega) (by simpa using hx) (by simpa using hy) hd
    · intro h
      refine ⟨?_, fun i j x y hij hx hy => h (i + 1) (j + 1) x y (by omega) (by simpa using hx) (by simpa using hy)⟩
      cases as with
      | nil => rfl
      | cons b as =>
        have := h 0 1 a b (by omega) rfl rfl
        simp only [Bool.not_eq_true', Bool.and_eq_false_iff]
        cases ha : a.default with
        | none => left; rfl
        | some v =>
          right
          have hb := this (by simp [ha])
          cases hbd : b.default with
          | none => exact absurd hbd hb
          | some w => rfl

end Rampack.Pyon
