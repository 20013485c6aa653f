import Verif.Pyon.LexLemmas
/-
What single steps of the parser of expressions do.
-/
namespace Rampack.Pyon

open Rampack Spec

variable {F : Type} {conv : ℚ → Option F}

theorem expression_eof {f : Nat} {t : Text} (h : ws t = []) : ∃ m, expression conv (f + 1) t = .throw m := by
  simp only [expression, h]
  exact ⟨_, rfl⟩

theorem expression_array {f : Nat} {t r : Text} (h : ws t = '[' :: r) :
    expression conv (f + 1) t = (elements conv f [] (ws r) >>= fun p => .ok (.array p.1, p.2)) := by
  simp only [expression, h, if_true]
  rfl

theorem expression_dictionary {f : Nat} {t r : Text} (h : ws t = '{' :: r) :
    expression conv (f + 1) t = (entries conv f [] (ws r) >>= fun p => .ok (.dictionary p.1, p.2)) := by
  have : ('{' : Char) ≠ '[' := by decide
  simp only [expression, h, if_neg this, if_true]
  rfl

theorem expression_string {f : Nat} {t r : Text} (h : ws t = '"' :: r) :
    expression conv (f + 1) t = (stringBody r >>= fun p => .ok (.string p.1, p.2)) := by
  have h1 : ('"' : Char) ≠ '[' := by decide
  have h2 : ('"' : Char) ≠ '{' := by decide
  simp only [expression, h, if_neg h1, if_neg h2, if_true]
  rfl

theorem first_not_open {c : Char} (h : isFirst c = true) : c ≠ '[' ∧ c ≠ '{' ∧ c ≠ '"' := by
  refine ⟨?_, ?_, ?_⟩ <;> (rintro rfl; revert h; decide)

theorem identifier_head {t n r : Text} (h : identifier t = some (n, r)) : ∃ c t', t = c :: t' ∧ isFirst c = true := by
  cases t with
  | nil => simp [identifier] at h
  | cons c t =>
    refine ⟨c, t, rfl, ?_⟩
    by_contra hc
    simp [identifier, hc] at h

theorem expression_builtin {f : Nat} {t n r : Text} {b : Node F} (h : identifier (ws t) = some (n, r)) (hb : builtin n = some b) :
    expression conv (f + 1) t = .ok (b, r) := by
  obtain ⟨c, t', ht, hc⟩ := identifier_head h
  obtain ⟨h1, h2, h3⟩ := first_not_open hc
  rw [ht] at h
  simp only [expression, ht, if_neg h1, if_neg h2, if_neg h3, h, hb]

theorem expression_name {f : Nat} {t n r : Text} (h : identifier (ws t) = some (n, r)) (hb : builtin (F := F) n = none)
    (hr : ∀ c ∈ (ws r).head?, c ≠ '(') : expression conv (f + 1) t = .ok (.dataclass n [] [], ws r) := by
  obtain ⟨c, t', ht, hc⟩ := identifier_head h
  obtain ⟨h1, h2, h3⟩ := first_not_open hc
  rw [ht] at h
  simp only [expression, ht, if_neg h1, if_neg h2, if_neg h3, h, hb]
  split
  · rename_i hw; rw [hw]
  · rename_i c r' hw
    rw [hw] at hr ⊢
    rw [if_neg (hr c rfl)]

theorem expression_call {f : Nat} {t n r r' : Text} (h : identifier (ws t) = some (n, r)) (hb : builtin (F := F) n = none)
    (hr : ws r = '(' :: r') : expression conv (f + 1) t = (arguments conv f [] [] (ws r') >>= fun p => .ok (.dataclass n p.1.1 p.1.2, p.2)) := by
  obtain ⟨c, t', ht, hc⟩ := identifier_head h
  obtain ⟨h1, h2, h3⟩ := first_not_open hc
  rw [ht] at h
  simp only [expression, ht, if_neg h1, if_neg h2, if_neg h3, h, hb, hr, if_true]
  rfl

theorem expression_numeral {f : Nat} {t r : Text} {c : Char} (h : ws t = c :: r) (h1 : c ≠ '[') (h2 : c ≠ '{') (h3 : c ≠ '"') (hi : identifier (c :: r) = none) :
    expression conv (f + 1) t = (numeral conv (c :: r) >>= fun n => match n with | some n => .ok n | none => .throw "unexpected character") := by
  simp only [expression, h, if_neg h1, if_neg h2, if_neg h3, hi]
  rfl

theorem elements_end {f : Nat} {es : List (Node F)} {r : Text} : elements conv (f + 1) es (']' :: r) = .ok (es, r) := by
  simp only [elements, if_true]

theorem elements_step {f : Nat} {es : List (Node F)} {c : Char} {r : Text} (hc : c ≠ ']') :
    elements conv (f + 1) es (c :: r) = (comma es.isEmpty (c :: r) "missing comma ',' while parsing array" >>= fun t => expression conv f t >>= fun p =>
      elements conv f (es ++ [p.1]) (ws p.2)) := by
  simp only [elements, if_neg hc]

theorem entries_end {f : Nat} {es : List (Text × Node F)} {r : Text} : entries conv (f + 1) es ('}' :: r) = .ok (es, r) := by
  simp only [entries, if_true]

theorem entries_step {f : Nat} {es : List (Text × Node F)} {c : Char} {r : Text} (hc : c ≠ '}') :
    entries conv (f + 1) es (c :: r) = (comma es.isEmpty (c :: r) "missing comma ',' while parsing dictionary" >>= fun t => dictionaryKey t >>= fun q =>
      expression conv f q.2 >>= fun p => if q.1 ∈ es.map Prod.fst then .throw "duplicate dictionary key" else entries conv f (es ++ [(q.1, p.1)]) (ws p.2)) := by
  simp only [entries, if_neg hc]

theorem arguments_end {f : Nat} {ps : List (Node F)} {ks : List (Text × Node F)} {r : Text} : arguments conv (f + 1) ps ks (')' :: r) = .ok ((ps, ks), r) := by
  simp only [arguments, if_true]

theorem arguments_step {f : Nat} {ps : List (Node F)} {ks : List (Text × Node F)} {c : Char} {r : Text} (hc : c ≠ ')') :
    arguments conv (f + 1) ps ks (c :: r) = (comma (ps.isEmpty && ks.isEmpty) (c :: r) "missing comma ',' while parsing dataclass" >>= fun t =>
      match keywordName t with
      | some (name, t) => expression conv f t >>= fun p =>
          if name ∈ ks.map Prod.fst then .throw "duplicate keyword argument" else arguments conv f ps (ks ++ [(name, p.1)]) (ws p.2)
      | none => expression conv f t >>= fun p =>
          if ks.isEmpty then arguments conv f (ps ++ [p.1]) ks (ws p.2) else .throw "positional arguments cannot follow keyword arguments") := by
  simp only [arguments, if_neg hc]
  rfl

theorem comma_ok {first : Bool} {t t' : Text} {m : String} (h : comma first t m = .ok t') :
    (first = true ∧ t' = t) ∨ (first = false ∧ ∃ r, t = ',' :: r ∧ t' = ws r) := by
  unfold comma at h
  split at h
  · rename_i hf
    exact .inl ⟨hf, (Outcome.ok_inj.mp h).symm⟩
  · rename_i hf
    refine .inr ⟨by simpa using hf, ?_⟩
    split at h
    · simp at h
    · split at h
      · rename_i hc
        rw [hc]
        exact ⟨_, rfl, (Outcome.ok_inj.mp h).symm⟩
      · simp at h

theorem comma_settled (first : Bool) (t : Text) (m : String) : Settled (comma first t m) := by
  unfold comma
  split
  · exact settled_ok _
  · split
    · exact settled_throw _
    · split
      · exact settled_ok _
      · exact settled_throw _

theorem comma_first {t : Text} {m : String} : comma true t m = .ok t := by simp [comma]

theorem comma_next {t : Text} {m : String} : comma false (',' :: t) m = .ok (ws t) := by simp [comma]

theorem dictionaryKey_ok {t k r : Text} (h : dictionaryKey t = .ok (k, r)) : ∃ q g, Quoted q k ∧ Gap g ∧ t = q ++ g ++ ':' :: r := by
  cases t with
  | nil => simp [dictionaryKey] at h
  | cons c t =>
    simp only [dictionaryKey] at h
    split at h
    · rename_i hc
      obtain ⟨⟨s, r1⟩, h1, h2⟩ := Outcome.bind_eq_ok.mp h
      obtain ⟨b, hb, rfl⟩ := stringBody_sound _ le_rfl h1
      obtain ⟨g, hg, hgap⟩ := ws_split r1
      rcases hw : ws r1 with _ | ⟨c', r'⟩
      · simp [hw] at h2
      · simp only [hw] at h2
        split at h2
        · rename_i hc'
          have h2 := Outcome.ok_inj.mp h2
          simp only [Prod.mk.injEq] at h2
          obtain ⟨rfl, rfl⟩ := h2
          rw [hw] at hg hgap
          refine ⟨_, g, ⟨b, hb, rfl⟩, hgap.2 (by simp), ?_⟩
          rw [hc, hg, hc']; simp
        · simp at h2
    · simp at h

theorem dictionaryKey_complete {q k g r : Text} (hq : Quoted q k) (hg : Gap g) : dictionaryKey (q ++ g ++ ':' :: r) = .ok (k, r) := by
  obtain ⟨b, hb, rfl⟩ := hq
  have hw : ws (g ++ ':' :: r) = ':' :: r := by
    rw [ws_gap hg, ws_noop]
    intro c hc
    have : c = ':' := by simpa using hc.symm
    rw [this]; decide
  have e : '"' :: b ++ ['"'] ++ g ++ ':' :: r = '"' :: (b ++ '"' :: (g ++ ':' :: r)) := by simp
  rw [e]
  simp only [dictionaryKey, if_true, stringBody_complete hb, Outcome.ok_bind, hw, Outcome.pure_eq]

theorem dictionaryKey_settled (t : Text) : Settled (dictionaryKey t) := by
  cases t with
  | nil => exact settled_throw _
  | cons c t =>
    simp only [dictionaryKey]
    split
    · refine settled_bind (stringBody_settled _ le_rfl) ?_
      rintro ⟨s, r⟩ -
      simp only
      split
      · exact settled_throw _
      · split
        · exact settled_ok _
        · exact settled_throw _
    · exact settled_throw _

theorem keywordName_some {t n r : Text} (h : keywordName t = some (n, r)) : IsIdentifier n ∧ ∃ g r', Gap g ∧ t = n ++ g ++ '=' :: r' ∧ r = ws r' := by
  unfold keywordName at h
  split at h
  · simp at h
  · rename_i n' r1 hi
    obtain ⟨h1, rfl, _⟩ := identifier_sound hi
    obtain ⟨g, hg, hgap⟩ := ws_split r1
    split at h
    · simp at h
    · rename_i c r' hw
      split at h
      · rename_i hc
        simp only [Option.some.injEq, Prod.mk.injEq] at h
        obtain ⟨rfl, rfl⟩ := h
        rw [hw] at hg hgap
        refine ⟨h1, g, r', hgap.2 (by simp), ?_, rfl⟩
        rw [hg, hc]; simp
      · simp at h

theorem gap_head {g : Text} (h : Gap g) : ∀ c ∈ g.head?, isSpace c = true ∨ c = '#' := by
  cases h with
  | nil => simp
  | space hc _ => intro c' hc'; left; have := isSpace_iff.mpr hc; simp at hc'; rw [← hc']; exact this
  | comment _ _ => intro c' hc'; right; simpa using hc'.symm

theorem space_not_name {c : Char} (h : isSpace c = true ∨ c = '#') : isName c = false ∧ ¬ Numeric c := by
  have h : c ∈ [' ', '\t', '\n', '\x0b', '\x0c', '\r', '#'] := by
    rcases h with h | h
    · have := isSpace_iff.mp h; simp at this ⊢; tauto
    · simp [h]
  have nn : ∀ {c : Char}, isHex c = false → c ∉ ['+', '-', '.', 'x', 'X', 'p', 'P'] → ¬ Numeric c := by
    intro c h1 h2 h3
    rcases h3 with h3 | h3
    · rw [h1] at h3; simp at h3
    · exact h2 h3
  simp only [List.mem_cons, List.not_mem_nil, or_false] at h
  rcases h with rfl | rfl | rfl | rfl | rfl | rfl | rfl <;> exact ⟨by decide, nn (by decide) (by decide)⟩

theorem keywordName_complete {n g t : Text} (h : IsIdentifier n) (hg : Gap g) : keywordName (n ++ g ++ '=' :: t) = some (n, ws t) := by
  have hw : ws (g ++ '=' :: t) = '=' :: t := by
    rw [ws_gap hg, ws_noop]
    intro c hc
    have : c = '=' := by simpa using hc.symm
    rw [this]; decide
  unfold keywordName
  rw [List.append_assoc, identifier_complete h]
  · simp only [hw, if_true]
  · intro c hc
    cases g with
    | nil => have : c = '=' := by simpa using hc.symm
             rw [this]; decide
    | cons d g =>
      have : c = d := by simpa using hc.symm
      rw [this]
      exact (space_not_name (gap_head hg d rfl)).1

theorem builtin_some {n : Text} {b : Node F} (h : builtin n = some b) :
    (n = "True".toList ∧ b = .boolean true) ∨ (n = "False".toList ∧ b = .boolean false) ∨ (n = "None".toList ∧ b = .none) := by
  unfold builtin at h
  split at h
  · rename_i hn; left; exact ⟨hn, (Option.some.inj h).symm⟩
  · split at h
    · rename_i hn; right; left; exact ⟨hn, (Option.some.inj h).symm⟩
    · split at h
      · rename_i hn; right; right; exact ⟨hn, (Option.some.inj h).symm⟩
      · simp at h

theorem builtin_none {n : Text} : builtin (F := F) n = none ↔ ¬ Reserved n := by
  unfold builtin Reserved
  constructor
  · intro h hr
    split at h
    · simp at h
    · rename_i h1
      split at h
      · simp at h
      · rename_i h2
        split at h
        · simp at h
        · rename_i h3
          rcases hr with hr | hr | hr
          · exact h1 hr
          · exact h2 hr
          · exact h3 hr
  · intro h
    have h1 : n ≠ ['T', 'r', 'u', 'e'] := fun e => h (.inl e)
    have h2 : n ≠ ['F', 'a', 'l', 's', 'e'] := fun e => h (.inr (.inl e))
    have h3 : n ≠ ['N', 'o', 'n', 'e'] := fun e => h (.inr (.inr e))
    rw [if_neg h1, if_neg h2, if_neg h3]

end Rampack.Pyon
