import Verif.Pyon.CanonicalLemmas
/-
C45: what the parser of PYON takes.

Every value printed in the canonical form is parsed back, with any white space and comments between tokens; every text of the grammar is taken with its value,
except for floating-point literals whose digits before the point do not fit in a 64-bit integer; what is taken belongs to the grammar, except for `0b` followed by
white space or a sign; everything else, in particular a value followed by something else, is refused with an exception. The parser always ends.
-/
namespace Rampack

open Pyon Spec

variable {F : Type} {conv : ℚ → Option F}

/-- C45. Texts of the grammar are taken, with their values; gaps are anywhere between tokens. -/
theorem C45_parses_partial (hconv : RoundsIntegers conv) {t : Text} {v : Node F} (h : TextMeans (PlainNumeral conv) t v) : parse conv t = .ok v := by
  obtain ⟨g, u, g', hg, hu, hg', rfl⟩ := h
  obtain ⟨r', he, hr'⟩ := takes hconv u.length (2 * (g ++ u ++ g').length + 1) (g ++ u ++ g') u v g' le_rfl hu (follow_last hg') (by simp; omega)
    (by rw [List.append_assoc, ws_gap hg, ws_means hu])
  unfold parse
  rw [he, Outcome.ok_bind]
  simp only [hr', ws_lastGap hg', Outcome.pure_eq]

/-- C45. The canonical form of every value is parsed back to the value. -/
theorem C45_canonical (hconv : RoundsIntegers conv) {lit : F → Text} {v : Node F} (h : Expressible conv lit v) : parse conv (canonical lit v) = .ok v :=
  C45_parses_partial hconv ⟨[], canonical lit v, [], .nil, canonical_means h, .inl .nil, by simp⟩

/-- C45. What is taken belongs to the grammar, with the same value; binary numbers may have white space or a sign after `0b`. -/
theorem C45_accepts_partial {t : Text} {v : Node F} (h : parse conv t = .ok v) : TextMeans (fun t v => Numeral conv t v ∨ OddBinary t v) t v := by
  unfold parse at h
  obtain ⟨⟨v', r⟩, he, h⟩ := Outcome.bind_eq_ok.mp h
  obtain ⟨g, u, w, hg, hu, hw, ht⟩ := item_ws ((all_sound _).1 _ _ _ he)
  rcases hwr : ws r with _ | ⟨c, r'⟩
  · simp only [hwr] at h
    have h := Outcome.ok_inj.mp h
    subst h
    refine ⟨g, u, w, hg, hu, hw.1, ?_⟩
    rw [ht, hwr, List.append_nil]
  · simp [hwr] at h

/-- C45. The parser ends, with a value or an exception. -/
theorem C45_ends (t : Text) : (∃ v, parse conv t = .ok v) ∨ ∃ m, parse conv t = .throw m := by
  have h : Settled (parse conv t) := by
    unfold parse
    refine settled_bind ((all_settled _).1 t le_rfl) fun p _ => ?_
    obtain ⟨v, r⟩ := p
    simp only
    split
    · exact settled_ok _
    · exact settled_throw _
  cases hp : parse conv t with
  | ok v => exact .inl ⟨v, rfl⟩
  | throw m => exact .inr ⟨m, rfl⟩
  | ub => exact absurd hp h.2
  | diverge => exact absurd hp h.1

/-- C45. Texts out of the grammar are refused. -/
theorem C45_refuses {t : Text} (h : ∀ v, ¬ TextMeans (fun t v => Numeral conv t v ∨ OddBinary t v) t v) : ∃ m, parse conv t = .throw m := by
  rcases C45_ends (conv := conv) t with ⟨v, hv⟩ | hm
  · exact absurd (C45_accepts_partial hv) (h v)
  · exact hm

/-- C45. A value followed by something else is refused: `g` is what is between them, and `c` begins what follows. -/
theorem C45_trailing (hconv : RoundsIntegers conv) {g u g' r : Text} {c : Char} {v : Node F} (hg : Gap g) (hu : Means (PlainNumeral conv) u v) (hg' : Gap g')
    (hc : c ∉ [' ', '\t', '\n', '\x0b', '\x0c', '\r', '#', '(', '=']) (hsep : g' ≠ [] ∨ c ∈ [',', ']', '}', ')', '[', '{', '"', ':', '*', '/', '%']) :
    ∃ m, parse conv (g ++ u ++ g' ++ c :: r) = .throw m := by
  have hcs : isSpace c = false ∧ c ≠ '#' ∧ c ≠ '(' ∧ c ≠ '=' := by
    simp only [List.mem_cons, List.not_mem_nil, or_false, not_or] at hc
    refine ⟨?_, hc.2.2.2.2.2.2.1, hc.2.2.2.2.2.2.2.1, hc.2.2.2.2.2.2.2.2⟩
    rw [Bool.eq_false_iff]
    intro hs
    have := isSpace_iff.mp hs
    simp only [List.mem_cons, List.not_mem_nil, or_false] at this
    tauto
  have hw : ws (g' ++ c :: r) = c :: r := by
    rw [ws_gap hg', ws_noop]
    intro d hd
    have : d = c := by simpa using hd.symm
    rw [this]; exact ⟨hcs.1, hcs.2.1⟩
  have hf : Follow (g' ++ c :: r) := by
    refine ⟨?_, ?_⟩
    · intro d hd
      cases g' with
      | nil =>
        have hdc : d = c := by simpa using hd.symm
        have hsep : c ∈ [',', ']', '}', ')', '[', '{', '"', ':', '*', '/', '%'] := hsep.resolve_left (by simp)
        rw [hdc]
        have : isHex c = false ∧ c ∉ ['+', '-', '.', 'x', 'X', 'p', 'P'] ∧ isName c = false :=
          (by decide : ∀ c ∈ [',', ']', '}', ')', '[', '{', '"', ':', '*', '/', '%'], isHex c = false ∧ c ∉ ['+', '-', '.', 'x', 'X', 'p', 'P'] ∧ isName c = false) c hsep
        refine ⟨?_, this.2.2⟩
        rintro (h | h)
        · rw [this.1] at h; simp at h
        · exact this.2.1 h
      | cons e g' =>
        have : d = e := by simpa using hd.symm
        rw [this]
        exact (space_not_name (gap_head hg' e rfl)).symm
    · rw [hw]
      intro d hd
      have : d = c := by simpa using hd.symm
      rw [this]; exact hcs.2.2
  obtain ⟨r', he, hr'⟩ := takes hconv u.length (2 * (g ++ u ++ g' ++ c :: r).length + 1) (g ++ u ++ g' ++ c :: r) u v (g' ++ c :: r) le_rfl hu hf (by simp; omega)
    (by rw [show g ++ u ++ g' ++ c :: r = g ++ (u ++ (g' ++ c :: r)) by simp, ws_gap hg, ws_means hu])
  unfold parse
  rw [he, Outcome.ok_bind]
  simp only [hr', hw]
  exact ⟨_, rfl⟩

/-- C45. A text has one meaning. -/
theorem C45_unambiguous (hconv : RoundsIntegers conv) {t : Text} {v v' : Node F} (h : TextMeans (PlainNumeral conv) t v) (h' : TextMeans (PlainNumeral conv) t v') :
    v = v' := by
  have h1 := C45_parses_partial hconv h
  rw [C45_parses_partial hconv h'] at h1
  exact (Outcome.ok_inj.mp h1).symm

/-! ### Where it is not so -/

theorem rounds_exact : RoundsIntegers (some : ℚ → Option ℚ) := fun _ _ => rfl

/-- C45. A floating-point number is refused when its digits before the point do not fit in a 64-bit integer. -/
theorem C45_long_float_violated : ∃ (t : Text) (v : Node ℚ), TextMeans (Numeral some) t v ∧ parse some t = .throw "integer out of range" := by
  refine ⟨"9223372036854775808.5".toList, .float _, ⟨[], "9223372036854775808.5".toList, [], .nil, .number (.float (.decimal (s := []) (neg := false)
    (a := "9223372036854775808".toList) (b := ['5']) (p := ['.', '5']) (x := []) (k := 0) .none (number_of (by norm_num) (by decide)) (by simp) (.inr rfl) (.inl ⟨rfl, rfl⟩))
    ?_ rfl), .inl .nil, rfl⟩, rfl⟩
  intro i hi
  obtain ⟨⟨w, hw⟩, _⟩ := int_prefix (s := []) (neg := false) (a := "9223372036854775808".toList) (b := ['5']) (p := ['.', '5']) (x := []) (k := 0) (r := [])
    .none (by decide) (by simp) (.inr rfl) (.inl ⟨rfl, rfl⟩) (by rfl) hi
  simp at hw

theorem numeral_chars {t : Text} {v : Node F} (h : Numeral conv t v) : ∀ c ∈ t, Numeric c := by
  cases h with
  | int h _ => exact intForm_numeric h
  | binary h _ =>
    obtain ⟨d, n, hn, _, rfl, _⟩ := h
    intro c hc
    rcases List.mem_cons.mp hc with rfl | hc
    · exact .inl (by decide)
    · rcases List.mem_cons.mp hc with rfl | hc
      · exact .inl (by decide)
      · exact number_numeric (by norm_num) hn c hc
  | float h _ _ => exact (floatForm_numeric h).2

/-- C45. A binary number with white space and a sign after `0b` is taken. -/
theorem C45_binary_violated : ∃ t : Text, parse (some : ℚ → Option ℚ) t = .ok (.int (-1)) ∧ ∀ v, ¬ TextMeans (Numeral (some : ℚ → Option ℚ)) t v := by
  refine ⟨['0', 'b', ' ', '-', '1'], rfl, ?_⟩
  rintro v ⟨g, u, g', hg, hu, hg', ht⟩
  have hg0 : g = [] := by
    cases g with
    | nil => rfl
    | cons c g =>
      have : c = '0' := by simpa using (List.cons.inj ht).1.symm
      have h := gap_head hg c rfl
      rw [this] at h
      exact absurd h (by decide)
  subst hg0
  rw [List.nil_append] at ht
  have hws := ws_lastGap hg'
  -- the value is the whole text
  have hnil : g' = [] := by
    match u, g', ht, hws with
    | [], g', ht, hws => rw [← show _ = g' from ht] at hws; exact absurd hws (by decide)
    | [_], g', ht, hws => rw [← show _ = g' from (List.cons.inj ht).2] at hws; exact absurd hws (by decide)
    | [_, _], g', ht, hws => rw [← show _ = g' from (List.cons.inj (List.cons.inj ht).2).2] at hws; exact absurd hws (by decide)
    | [_, _, _], g', ht, hws => rw [← show _ = g' from (List.cons.inj (List.cons.inj (List.cons.inj ht).2).2).2] at hws; exact absurd hws (by decide)
    | [_, _, _, _], g', ht, hws =>
      rw [← show _ = g' from (List.cons.inj (List.cons.inj (List.cons.inj (List.cons.inj ht).2).2).2).2] at hws; exact absurd hws (by decide)
    | _ :: _ :: _ :: _ :: _ :: u, g', ht, hws =>
      have : [] = u ++ g' := (List.cons.inj (List.cons.inj (List.cons.inj (List.cons.inj (List.cons.inj ht).2).2).2).2).2
      exact (List.append_eq_nil_iff.mp this.symm).2
  subst hnil
  rw [List.append_nil] at ht
  subst ht
  have hid : ∀ {n r : Text}, IsIdentifier n → ['0', 'b', ' ', '-', '1'] ≠ n ++ r := by
    rintro n r ⟨c, n', rfl, hc, _⟩ h
    have : '0' = c := (List.cons.inj h).1
    rw [← this] at hc
    have := isFirst_iff.mpr hc
    revert this; decide
  generalize hu' : ['0', 'b', ' ', '-', '1'] = u at hu
  cases hu with
  | number h =>
    have h := numeral_chars h ' ' (by rw [← hu']; simp)
    rcases h with h | h
    · revert h; decide
    · simp at h
  | true => exact absurd (List.cons.inj hu').1 (by decide)
  | false => exact absurd (List.cons.inj hu').1 (by decide)
  | none => exact absurd (List.cons.inj hu').1 (by decide)
  | string h =>
    obtain ⟨b, _, rfl⟩ := h
    exact absurd (List.cons.inj hu').1 (by decide)
  | emptyArray _ => exact absurd (List.cons.inj hu').1 (by decide)
  | array _ => exact absurd (List.cons.inj hu').1 (by decide)
  | emptyDictionary _ => exact absurd (List.cons.inj hu').1 (by decide)
  | dictionary _ _ => exact absurd (List.cons.inj hu').1 (by decide)
  | name h _ => exact hid h (by rw [hu', List.append_nil])
  | emptyCall h _ _ _ => simp only [List.append_assoc] at hu'; exact hid h hu'
  | call h _ _ _ _ _ => simp only [List.append_assoc] at hu'; exact hid h hu'

/-! ### Examples -/

theorem intText_one : intText 1 = ['1'] := by
  rw [intText, if_neg (by decide), show (1 : Int).natAbs = 1 from rfl, decimalText, if_pos (by decide)]

theorem intText_two : intText 2 = ['2'] := by
  rw [intText, if_neg (by decide), show (2 : Int).natAbs = 2 from rfl, decimalText, if_pos (by decide)]

theorem one_form : IntForm ['1'] 1 := by
  have := intText_form 1
  rwa [intText_one] at this

theorem two_form : IntForm ['2'] 2 := by
  have := intText_form 2
  rwa [intText_two] at this

/-- Printing of some numbers. -/
def exampleLiteral (q : ℚ) : Text := if q = 5 / 2 then "2.5".toList else "1.".toList

/-- `Foo({"a\n": [1, -20], "": 2.5}, True, x=[], y=Bar(None))`. -/
def exampleNode : Node ℚ :=
  .dataclass "Foo".toList [.dictionary [("a\n".toList, .array [.int 1, .int (-20)]), ("".toList, .float (5 / 2))], .boolean true]
    [("x".toList, .array []), ("y".toList, .dataclass "Bar".toList [.none] [])]

theorem exampleNode_text : canonical exampleLiteral exampleNode = "Foo({\"a\\n\": [1, -20], \"\": 2.5}, True, x=[], y=Bar(None))".toList := by
  have h := intText_one
  have h' : intText (-20) = ['-', '2', '0'] := by rw [intText, if_pos (by decide)]; rw [show (-20 : Int).natAbs = 20 from rfl, decimalText, decimalText]; decide
  simp only [exampleNode, canonical, canonicals, canonicalEntries, h, h', exampleLiteral, if_true]
  decide

theorem exampleNode_expressible : Expressible some exampleLiteral exampleNode := by
  have hid : ∀ {c : Char} {r : Text}, isFirst c = true → (∀ d ∈ r, isName d = true) → IsIdentifier (c :: r) :=
    fun hc hr => ⟨_, _, rfl, isFirst_iff.mp hc, fun d hd => isName_iff.mp (hr d hd)⟩
  unfold exampleNode
  refine .dataclass (hid (c := 'F') (r := ['o', 'o']) (by decide) (by decide)) (by unfold Reserved; decide) ?_ ?_ ?_ (by decide)
  · simp only [List.forall_mem_cons, List.not_mem_nil, false_imp_iff, implies_true, and_true]
    refine ⟨.dictionary ?_ (by decide), .boolean⟩
    simp only [List.forall_mem_cons, List.not_mem_nil, false_imp_iff, implies_true, and_true]
    refine ⟨.array ?_, .float ?_⟩
    · simp only [List.forall_mem_cons, List.not_mem_nil, false_imp_iff, implies_true, and_true]
      exact ⟨.int (by unfold InLong; decide), .int (by unfold InLong; decide)⟩
    · refine ⟨[], false, ['2'], ['5'], ['.', '5'], [], 25, 0, .none, ?_, by simp, .inr rfl, .inl ⟨rfl, rfl⟩, by simp, by simp, ?_, ?_⟩
      · exact number_of (by norm_num) (by decide)
      · unfold exampleLiteral; rw [if_pos rfl]; rfl
      · norm_num
  · simp only [List.forall_mem_cons, List.not_mem_nil, false_imp_iff, implies_true, and_true]
    refine ⟨.array (by simp), .dataclass (hid (c := 'B') (r := ['a', 'r']) (by decide) (by decide)) (by unfold Reserved; decide) ?_ (by simp) (by simp) (by simp)⟩
    simp only [List.forall_mem_cons, List.not_mem_nil, false_imp_iff, implies_true, and_true]
    exact .none
  · simp only [List.forall_mem_cons, List.not_mem_nil, false_imp_iff, implies_true, and_true]
    exact ⟨hid (c := 'x') (r := []) (by decide) (by decide), hid (c := 'y') (r := []) (by decide) (by decide)⟩

/-- The canonical form of the example is parsed back. -/
example : parse some "Foo({\"a\\n\": [1, -20], \"\": 2.5}, True, x=[], y=Bar(None))".toList = .ok exampleNode := by
  rw [← exampleNode_text]
  exact C45_canonical rounds_exact exampleNode_expressible

/-- Gaps and comments between tokens are skipped: `# c⏎ [ 1 ,2 ]#d`. -/
example : parse (some : ℚ → Option ℚ) "# c\n [ 1 ,2 ]#d".toList = .ok (.array [.int 1, .int 2]) := by
  have n1 : Means (PlainNumeral (some : ℚ → Option ℚ)) ['1'] (.int 1) := .number ⟨.int one_form (by unfold InLong; decide), by simp⟩
  have n2 : Means (PlainNumeral (some : ℚ → Option ℚ)) ['2'] (.int 2) := .number ⟨.int two_form (by unfold InLong; decide), by simp⟩
  refine C45_parses_partial rounds_exact ⟨"# c\n ".toList, "[ 1 ,2 ]".toList, "#d".toList, ?_, ?_, ?_, rfl⟩
  · exact .comment (l := [' ', 'c']) (by decide) space_gap
  · exact .array (.more space_gap n1 space_gap (.one .nil n2 space_gap))
  · exact .inr ⟨[], ['d'], .nil, by decide, rfl⟩

/-- A second value after the first one is refused. -/
example : ∃ m, parse (some : ℚ → Option ℚ) "1 2".toList = .throw m :=
  C45_trailing rounds_exact (g := []) (u := ['1']) (g' := [' ']) (c := '2') (r := []) .nil
    (.number ⟨.int one_form (by unfold InLong; decide), by simp⟩) space_gap (by decide) (.inl (by simp))

end Rampack
