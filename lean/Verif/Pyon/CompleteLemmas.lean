import Verif.Pyon.SoundLemmas
/-
What belongs to the grammar is taken by the parser.
-/
namespace Rampack.Pyon

open Rampack Spec

variable {F : Type} {conv : ℚ → Option F}

/-- The texts of numbers for which the parser is complete. -/
abbrev Plain (conv : ℚ → Option F) : Text → Node F → Prop := PlainNumeral conv

/-- The characters which end a value. -/
def Closer (c : Char) : Prop := c ∈ [',', ']', '}', ')']

/-- What may follow a value. -/
def Follow (r : Text) : Prop := (∀ c ∈ r.head?, ¬ Numeric c ∧ isName c = false) ∧ ∀ c ∈ (ws r).head?, c ≠ '(' ∧ c ≠ '='

theorem closer_prop {c : Char} (h : Closer c) : isSpace c = false ∧ c ≠ '#' ∧ isName c = false ∧ isHex c = false ∧
    c ∉ ['+', '-', '.', 'x', 'X', 'p', 'P'] ∧ isFirst c = false ∧ c ≠ '(' ∧ c ≠ '=' := by
  simp only [Closer, List.mem_cons, List.not_mem_nil, or_false] at h
  rcases h with rfl | rfl | rfl | rfl <;> decide

theorem closer_not_numeric {c : Char} (h : Closer c) : ¬ Numeric c := by
  obtain ⟨_, _, _, h1, h2, _⟩ := closer_prop h
  rintro (h3 | h3)
  · rw [h1] at h3; simp at h3
  · exact h2 h3

theorem ws_closer {c : Char} (h : Closer c) (r : Text) : ws (c :: r) = c :: r := by
  refine ws_noop ?_
  intro d hd
  have : d = c := by simpa using hd.symm
  rw [this]
  exact ⟨(closer_prop h).1, (closer_prop h).2.1⟩

theorem ws_gap_closer {g : Text} {c : Char} (hg : Gap g) (h : Closer c) (r : Text) : ws (g ++ c :: r) = c :: r := by
  rw [ws_gap hg, ws_closer h]

theorem follow_closer {g : Text} {c : Char} (hg : Gap g) (h : Closer c) (r : Text) : Follow (g ++ c :: r) := by
  refine ⟨?_, ?_⟩
  · intro d hd
    cases g with
    | nil =>
      have : d = c := by simpa using hd.symm
      rw [this]
      exact ⟨closer_not_numeric h, (closer_prop h).2.2.1⟩
    | cons e g =>
      have : d = e := by simpa using hd.symm
      rw [this]
      exact (space_not_name (gap_head hg e rfl)).symm
  · intro d hd
    rw [ws_gap_closer hg h] at hd
    have : d = c := by simpa using hd.symm
    rw [this]; exact (closer_prop h).2.2.2.2.2.2

theorem follow_last {g : Text} (h : LastGap g) : Follow g := by
  refine ⟨?_, ?_⟩
  · intro d hd
    have : isSpace d = true ∨ d = '#' := by
      rcases h with h | ⟨g, l, hg, _, rfl⟩
      · exact gap_head h d hd
      · cases g with
        | nil => right; simpa using hd.symm
        | cons e g => exact gap_head hg d (by simpa using hd)
    exact (space_not_name this).symm
  · rw [ws_lastGap h]; simp

/-! ### The first characters -/

theorem numeral_head {t : Text} {v : Node F} (h : Numeral conv t v) :
    ∃ c r, t = c :: r ∧ (isDigit 10 c = true ∨ c = '.' ∨ c = '+' ∨ c = '-') := by
  have hsign : ∀ {s d : Text} {neg : Bool}, Signed s neg → (∃ c r, d = c :: r ∧ (isDigit 10 c = true ∨ c = '.')) →
      ∃ c r, s ++ d = c :: r ∧ (isDigit 10 c = true ∨ c = '.' ∨ c = '+' ∨ c = '-') := by
    rintro s d neg hs ⟨c, r, rfl, hc⟩
    cases hs with
    | none => exact ⟨c, r, rfl, by tauto⟩
    | plus => exact ⟨'+', c :: r, rfl, by simp⟩
    | minus => exact ⟨'-', c :: r, rfl, by simp⟩
  have h0 : isDigit 10 '0' = true := by decide
  cases h with
  | int h _ =>
    obtain ⟨s, neg, d, n, hs, hb, rfl, _⟩ := intForm_iff.mp h
    refine hsign hs ?_
    cases hb with
    | decimal hn h1 h2 =>
      cases d with
      | nil => exact absurd rfl h1
      | cons c d => exact ⟨c, d, rfl, .inl (((number_iff (by norm_num)).mp hn).1 c List.mem_cons_self)⟩
    | octal hn => exact ⟨'0', _, rfl, .inl h0⟩
    | hex hx hn h1 => exact ⟨'0', _, rfl, .inl h0⟩
  | binary h _ =>
    obtain ⟨d, n, _, _, rfl, _⟩ := h
    exact ⟨'0', _, rfl, .inl h0⟩
  | float h _ _ =>
    obtain ⟨s, neg, d, hs, hb, rfl⟩ := floatForm_iff.mp h
    exact hsign hs (floatBody_head hb)

theorem number_char {c : Char} (h : isDigit 10 c = true ∨ c = '.' ∨ c = '+' ∨ c = '-') :
    isSpace c = false ∧ c ≠ '#' ∧ ¬ Closer c ∧ isFirst c = false ∧ c ≠ '[' ∧ c ≠ '{' ∧ c ≠ '"' := by
  unfold Closer
  rcases h with h | rfl | rfl | rfl
  · have hx : isHex c = true := by simp only [isDigit, Bool.and_eq_true] at h; exact h.1
    exact char_lt (P := fun c => isDigit 10 c = true → isSpace c = false ∧ c ≠ '#' ∧ ¬ c ∈ [',', ']', '}', ')'] ∧ isFirst c = false ∧ c ≠ '[' ∧ c ≠ '{' ∧ c ≠ '"')
      128 (by decide) c (isHex_lt hx) h
  all_goals decide

theorem first_char {c : Char} (h : isFirst c = true) : isSpace c = false ∧ c ≠ '#' ∧ ¬ Closer c := by
  unfold Closer
  exact char_lt (P := fun c => isFirst c = true → isSpace c = false ∧ c ≠ '#' ∧ ¬ c ∈ [',', ']', '}', ')']) 128 (by decide) c (isFirst_lt h) h

/-- The first character of a value. -/
theorem means_head {u : Text} {v : Node F} (h : Means (Plain conv) u v) : ∃ c r, u = c :: r ∧ isSpace c = false ∧ c ≠ '#' ∧ ¬ Closer c := by
  have hid : ∀ {n : Text} (r : Text), IsIdentifier n → ∃ c r', n ++ r = c :: r' ∧ isSpace c = false ∧ c ≠ '#' ∧ ¬ Closer c := by
    rintro n r ⟨c, n', rfl, hc, _⟩
    exact ⟨c, n' ++ r, rfl, first_char (isFirst_iff.mpr hc)⟩
  cases h with
  | number h =>
    obtain ⟨c, r, rfl, hc⟩ := numeral_head h.1
    obtain ⟨h1, h2, h3, _⟩ := number_char hc
    exact ⟨c, r, rfl, h1, h2, h3⟩
  | true => exact ⟨'T', _, rfl, by unfold Closer; decide⟩
  | false => exact ⟨'F', _, rfl, by unfold Closer; decide⟩
  | none => exact ⟨'N', _, rfl, by unfold Closer; decide⟩
  | string h => obtain ⟨b, _, rfl⟩ := h; exact ⟨'"', _, rfl, by unfold Closer; decide⟩
  | emptyArray _ => exact ⟨'[', _, rfl, by unfold Closer; decide⟩
  | array _ => exact ⟨'[', _, rfl, by unfold Closer; decide⟩
  | emptyDictionary _ => exact ⟨'{', _, rfl, by unfold Closer; decide⟩
  | dictionary _ _ => exact ⟨'{', _, rfl, by unfold Closer; decide⟩
  | name h _ => simpa using hid [] h
  | emptyCall h _ _ _ => simp only [List.append_assoc]; exact hid _ h
  | call h _ _ _ _ _ => simp only [List.append_assoc]; exact hid _ h

theorem ws_means {u r : Text} {v : Node F} (h : Means (Plain conv) u v) : ws (u ++ r) = u ++ r := by
  obtain ⟨c, u', rfl, h1, h2, _⟩ := means_head h
  refine ws_noop ?_
  intro d hd
  have : d = c := by simpa using hd.symm
  rw [this]; exact ⟨h1, h2⟩

/-- A value is not taken for a keyword argument. -/
theorem keywordName_none {u r : Text} {v : Node F} (h : Means (Plain conv) u v) (hr : Follow r) : keywordName (u ++ r) = none := by
  have hname : ∀ {n r' : Text}, IsIdentifier n → (∀ c ∈ r'.head?, isName c = false) → (∀ c ∈ (ws r').head?, c ≠ '=') → keywordName (n ++ r') = none := by
    intro n r' hn h1 h2
    unfold keywordName
    rw [identifier_complete hn h1]
    simp only
    split
    · rfl
    · rename_i c r'' hw
      rw [hw] at h2
      rw [if_neg (h2 c rfl)]
  have hother : ∀ {c : Char} {t : Text}, isFirst c = false → keywordName (c :: t) = none := by
    intro c t hc
    unfold keywordName
    rw [identifier_none hc]
  have hr1 : ∀ c ∈ r.head?, isName c = false := fun c hc => (hr.1 c hc).2
  have hr2 : ∀ c ∈ (ws r).head?, c ≠ '=' := fun c hc => (hr.2 c hc).2
  have hcall : ∀ {n g t : Text}, IsIdentifier n → Gap g → keywordName (n ++ (g ++ '(' :: t)) = none := by
    intro n g t hn hg
    refine hname hn ?_ ?_
    · intro c hc
      cases g with
      | nil => have : c = '(' := by simpa using hc.symm
               rw [this]; decide
      | cons d g =>
        have : c = d := by simpa using hc.symm
        rw [this]
        exact (space_not_name (gap_head hg d rfl)).1
    · rw [ws_gap hg, ws_noop]
      · intro c hc
        have : c = '(' := by simpa using hc.symm
        rw [this]; decide
      · intro c hc
        have : c = '(' := by simpa using hc.symm
        rw [this]; decide
  have hT : ∀ {n : Text}, Reserved n → IsIdentifier n := by
    intro n hn
    rcases hn with rfl | rfl | rfl
    · exact ⟨'T', ['r', 'u', 'e'], rfl, isFirst_iff.mp (by decide), fun d hd => isName_iff.mp ((by decide : ∀ d ∈ ['r', 'u', 'e'], isName d = true) d hd)⟩
    · exact ⟨'F', ['a', 'l', 's', 'e'], rfl, isFirst_iff.mp (by decide), fun d hd => isName_iff.mp ((by decide : ∀ d ∈ ['a', 'l', 's', 'e'], isName d = true) d hd)⟩
    · exact ⟨'N', ['o', 'n', 'e'], rfl, isFirst_iff.mp (by decide), fun d hd => isName_iff.mp ((by decide : ∀ d ∈ ['o', 'n', 'e'], isName d = true) d hd)⟩
  cases h with
  | number h =>
    obtain ⟨c, r, rfl, hc⟩ := numeral_head h.1
    exact hother (number_char hc).2.2.2.1
  | true => exact hname (hT (.inl rfl)) hr1 hr2
  | false => exact hname (hT (.inr (.inl rfl))) hr1 hr2
  | none => exact hname (hT (.inr (.inr rfl))) hr1 hr2
  | string h => obtain ⟨b, _, rfl⟩ := h; exact hother (c := '"') (by decide)
  | emptyArray _ => exact hother (c := '[') (by decide)
  | array _ => exact hother (c := '[') (by decide)
  | emptyDictionary _ => exact hother (c := '{') (by decide)
  | dictionary _ _ => exact hother (c := '{') (by decide)
  | name h _ => exact hname h hr1 hr2
  | emptyCall h _ hg _ => simp only [List.append_assoc, List.cons_append]; exact hcall h hg
  | call h _ hg _ _ _ => simp only [List.append_assoc, List.cons_append]; exact hcall h hg

theorem reserved_identifier {n : Text} (hn : Reserved n) : IsIdentifier n := by
  rcases hn with rfl | rfl | rfl
  · exact ⟨'T', ['r', 'u', 'e'], rfl, isFirst_iff.mp (by decide), fun d hd => isName_iff.mp ((by decide : ∀ d ∈ ['r', 'u', 'e'], isName d = true) d hd)⟩
  · exact ⟨'F', ['a', 'l', 's', 'e'], rfl, isFirst_iff.mp (by decide), fun d hd => isName_iff.mp ((by decide : ∀ d ∈ ['a', 'l', 's', 'e'], isName d = true) d hd)⟩
  · exact ⟨'N', ['o', 'n', 'e'], rfl, isFirst_iff.mp (by decide), fun d hd => isName_iff.mp ((by decide : ∀ d ∈ ['o', 'n', 'e'], isName d = true) d hd)⟩

/-! ### The loops -/

/-- The parser takes the values of texts no longer than `k`. -/
def Takes (conv : ℚ → Option F) (k : Nat) : Prop := ∀ f t u v r, u.length ≤ k → Means (Plain conv) u v → Follow r → 2 * u.length + 1 ≤ f → ws t = u ++ r →
  ∃ r', expression conv f t = .ok (v, r') ∧ ws r' = ws r

theorem closer_comma : Closer ',' := by unfold Closer; decide
theorem closer_array : Closer ']' := by unfold Closer; decide
theorem closer_dictionary : Closer '}' := by unfold Closer; decide
theorem closer_call : Closer ')' := by unfold Closer; decide

theorem elements_complete {k : Nat} (hk : Takes conv k) {ts : Text} {vs : List (Node F)} (h : CommaList (Means (Plain conv)) ts vs) (r : Text) :
    ts.length ≤ k → ∀ (f : Nat) (es : List (Node F)) (c : Char) (r0 t1 : Text), 2 * ts.length + 2 ≤ f → c ≠ ']' →
    (∀ m, comma es.isEmpty (c :: r0) m = .ok t1) → ws t1 = ws (ts ++ ']' :: r) → elements conv f es (c :: r0) = .ok (es ++ vs, r) := by
  induction h with
  | @one g g' t a hg ha hg' =>
    intro hl f es c r0 t1 hf hc hcomma hw
    obtain ⟨f, rfl⟩ : ∃ f', f = f' + 1 := ⟨f - 1, by omega⟩
    simp only [List.length_append] at hl hf
    have hw : ws t1 = t ++ (g' ++ ']' :: r) := by
      rw [hw, show g ++ t ++ g' ++ ']' :: r = g ++ (t ++ (g' ++ ']' :: r)) by simp, ws_gap hg, ws_means ha]
    obtain ⟨r', he, hr'⟩ := hk f t1 t a _ (by omega) ha (follow_closer hg' closer_array r) (by omega) hw
    rw [ws_gap_closer hg' closer_array] at hr'
    rw [elements_step hc, hcomma, Outcome.ok_bind, he, Outcome.ok_bind]
    simp only [hr']
    obtain ⟨f, rfl⟩ : ∃ f', f = f' + 1 := ⟨f - 1, by omega⟩
    exact elements_end
  | @more g g' t ts a as hg ha hg' hs ih =>
    intro hl f es c r0 t1 hf hc hcomma hw
    obtain ⟨f, rfl⟩ : ∃ f', f = f' + 1 := ⟨f - 1, by omega⟩
    simp only [List.length_append, List.length_cons] at hl hf
    have hw : ws t1 = t ++ (g' ++ ',' :: (ts ++ ']' :: r)) := by
      rw [hw, show g ++ t ++ g' ++ ',' :: ts ++ ']' :: r = g ++ (t ++ (g' ++ ',' :: (ts ++ ']' :: r))) by simp, ws_gap hg, ws_means ha]
    obtain ⟨r', he, hr'⟩ := hk f t1 t a _ (by omega) ha (follow_closer hg' closer_comma _) (by omega) hw
    rw [ws_gap_closer hg' closer_comma] at hr'
    rw [elements_step hc, hcomma, Outcome.ok_bind, he, Outcome.ok_bind]
    simp only [hr']
    rw [ih (by omega) f (es ++ [a]) ',' (ts ++ ']' :: r) (ws (ts ++ ']' :: r)) (by omega) (by decide) (by intro m; rw [isEmpty_snoc]; exact comma_next) (ws_ws _)]
    simp

theorem quoted_head {q k : Text} (h : Quoted q k) (r : Text) : ws (q ++ r) = q ++ r := by
  obtain ⟨b, _, rfl⟩ := h
  refine ws_noop ?_
  intro d hd
  have : d = '"' := by simpa using hd.symm
  rw [this]; decide

theorem entries_complete {k : Nat} (hk : Takes conv k) {ts : Text} {vs : List (Text × Node F)} (h : CommaList (EntryOf (Means (Plain conv))) ts vs) (r : Text) :
    ts.length ≤ k → ∀ (f : Nat) (es : List (Text × Node F)) (c : Char) (r0 t1 : Text), 2 * ts.length + 2 ≤ f → c ≠ '}' →
    (∀ m, comma es.isEmpty (c :: r0) m = .ok t1) → t1 = ws (ts ++ '}' :: r) → ((es ++ vs).map Prod.fst).Nodup →
    entries conv f es (c :: r0) = .ok (es ++ vs, r) := by
  induction h with
  | @one g g' t e hg he hg' =>
    intro hl f es c r0 t1 hf hc hcomma hw hn
    obtain ⟨f, rfl⟩ : ∃ f', f = f' + 1 := ⟨f - 1, by omega⟩
    obtain @⟨q, key, g1, g2, t, a, hq, hg1, hg2, ha⟩ := he
    simp only [List.length_append, List.length_cons] at hl hf
    have hw : t1 = q ++ g1 ++ ':' :: (g2 ++ t ++ (g' ++ '}' :: r)) := by
      rw [hw, show g ++ (q ++ g1 ++ ':' :: g2 ++ t) ++ g' ++ '}' :: r = g ++ (q ++ (g1 ++ ':' :: (g2 ++ t ++ (g' ++ '}' :: r)))) by simp, ws_gap hg, quoted_head hq]
      simp
    obtain ⟨r', he, hr'⟩ := hk f (g2 ++ t ++ (g' ++ '}' :: r)) t a _ (by omega) ha (follow_closer hg' closer_dictionary r) (by omega)
      (by rw [List.append_assoc, ws_gap hg2, ws_means ha])
    rw [ws_gap_closer hg' closer_dictionary] at hr'
    rw [entries_step hc, hcomma, Outcome.ok_bind, hw, dictionaryKey_complete hq hg1, Outcome.ok_bind]
    simp only
    rw [he, Outcome.ok_bind]
    have hnk : key ∉ es.map Prod.fst := by
      rw [List.map_append, List.nodup_append] at hn
      intro hm
      exact hn.2.2 key hm key (by simp) rfl
    rw [if_neg hnk]
    simp only [hr']
    obtain ⟨f, rfl⟩ : ∃ f', f = f' + 1 := ⟨f - 1, by omega⟩
    exact entries_end
  | @more g g' t ts e as hg he hg' hs ih =>
    intro hl f es c r0 t1 hf hc hcomma hw hn
    obtain ⟨f, rfl⟩ : ∃ f', f = f' + 1 := ⟨f - 1, by omega⟩
    obtain @⟨q, key, g1, g2, t, a, hq, hg1, hg2, ha⟩ := he
    simp only [List.length_append, List.length_cons] at hl hf
    have hw : t1 = q ++ g1 ++ ':' :: (g2 ++ t ++ (g' ++ ',' :: (ts ++ '}' :: r))) := by
      rw [hw, show g ++ (q ++ g1 ++ ':' :: g2 ++ t) ++ g' ++ ',' :: ts ++ '}' :: r = g ++ (q ++ (g1 ++ ':' :: (g2 ++ t ++ (g' ++ ',' :: (ts ++ '}' :: r))))) by simp,
        ws_gap hg, quoted_head hq]
      simp
    obtain ⟨r', he, hr'⟩ := hk f (g2 ++ t ++ (g' ++ ',' :: (ts ++ '}' :: r))) t a _ (by omega) ha (follow_closer hg' closer_comma _) (by omega)
      (by rw [List.append_assoc, ws_gap hg2, ws_means ha])
    rw [ws_gap_closer hg' closer_comma] at hr'
    rw [entries_step hc, hcomma, Outcome.ok_bind, hw, dictionaryKey_complete hq hg1, Outcome.ok_bind]
    simp only
    rw [he, Outcome.ok_bind]
    have hnk : key ∉ es.map Prod.fst := by
      rw [List.map_append, List.nodup_append] at hn
      intro hm
      exact hn.2.2 key hm key (by simp) rfl
    rw [if_neg hnk]
    simp only [hr']
    rw [ih (by omega) f (es ++ [(key, a)]) ',' (ts ++ '}' :: r) (ws (ts ++ '}' :: r)) (by omega) (by decide) (by intro m; rw [isEmpty_snoc]; exact comma_next) rfl
      (by simpa using hn)]
    simp

theorem arguments_complete {k : Nat} (hk : Takes conv k) {ts : Text} {as : List (Option Text × Node F)} (h : CommaList (ArgumentOf (Means (Plain conv))) ts as) (r : Text) :
    ts.length ≤ k → ∀ (f : Nat) (ps p : List (Node F)) (ks e : List (Text × Node F)) (c : Char) (r0 t1 : Text), 2 * ts.length + 2 ≤ f → c ≠ ')' →
    (∀ m, comma (ps.isEmpty && ks.isEmpty) (c :: r0) m = .ok t1) → t1 = ws (ts ++ ')' :: r) →
    as = p.map (fun v => (none, v)) ++ e.map (fun k => (some k.1, k.2)) → (ks ≠ [] → p = []) → ((ks ++ e).map Prod.fst).Nodup →
    arguments conv f ps ks (c :: r0) = .ok ((ps ++ p, ks ++ e), r) := by
  -- one argument, followed by `close :: rest`
  have step : ∀ (f : Nat) (t g' : Text) (x : Option Text × Node F) (ps : List (Node F)) (ks : List (Text × Node F)) (c : Char) (r0 t1 : Text) (close : Char) (rest : Text),
      ArgumentOf (Means (Plain conv)) t x → Gap g' → Closer close → t.length ≤ k → 2 * t.length + 1 ≤ f → c ≠ ')' →
      (∀ m, comma (ps.isEmpty && ks.isEmpty) (c :: r0) m = .ok t1) → t1 = t ++ (g' ++ close :: rest) →
      arguments conv (f + 1) ps ks (c :: r0) =
        (match x.1 with
        | some n => if n ∈ ks.map Prod.fst then .throw "duplicate keyword argument" else arguments conv f ps (ks ++ [(n, x.2)]) (close :: rest)
        | none => if ks.isEmpty then arguments conv f (ps ++ [x.2]) ks (close :: rest) else .throw "positional arguments cannot follow keyword arguments") := by
    intro f t g' x ps ks c r0 t1 close rest hx hg' hclose hl hf hc hcomma hw
    rw [arguments_step hc, hcomma, Outcome.ok_bind, hw]
    cases hx with
    | @positional t a ha =>
      obtain ⟨r', he, hr'⟩ := hk f (t ++ (g' ++ close :: rest)) t a _ hl ha (follow_closer hg' hclose rest) hf (ws_means ha)
      rw [ws_gap_closer hg' hclose] at hr'
      simp only [keywordName_none ha (follow_closer hg' hclose rest), he, Outcome.ok_bind, hr']
    | @keyword n g1 g2 t a hn hg1 hg2 ha =>
      simp only [List.length_append, List.length_cons] at hl hf
      obtain ⟨r', he, hr'⟩ := hk f (ws (g2 ++ t ++ (g' ++ close :: rest))) t a _ (by omega) ha (follow_closer hg' hclose rest) (by omega)
        (by rw [ws_ws, List.append_assoc, ws_gap hg2, ws_means ha])
      rw [ws_gap_closer hg' hclose] at hr'
      have e : n ++ g1 ++ '=' :: g2 ++ t ++ (g' ++ close :: rest) = n ++ g1 ++ '=' :: (g2 ++ t ++ (g' ++ close :: rest)) := by simp
      rw [e]
      simp only [keywordName_complete hn hg1, he, Outcome.ok_bind, hr']
  have argument_ws : ∀ {t : Text} {x : Option Text × Node F} (r : Text), ArgumentOf (Means (Plain conv)) t x → ws (t ++ r) = t ++ r := by
    intro t x r hx
    cases hx with
    | positional ha => exact ws_means ha
    | keyword hn _ _ _ =>
      obtain ⟨c, n', rfl, hc, _⟩ := hn
      refine ws_noop ?_
      intro d hd
      have : d = c := by simpa using hd.symm
      rw [this]
      have := first_char (isFirst_iff.mpr hc)
      exact ⟨this.1, this.2.1⟩
  induction h with
  | @one g g' t x hg hx hg' =>
    intro hl f ps p ks e c r0 t1 hf hc hcomma hw has hp hn
    obtain ⟨f, rfl⟩ : ∃ f', f = f' + 1 := ⟨f - 1, by omega⟩
    simp only [List.length_append] at hl hf
    have hw : t1 = t ++ (g' ++ ')' :: r) := by
      rw [hw, show g ++ t ++ g' ++ ')' :: r = g ++ (t ++ (g' ++ ')' :: r)) by simp, ws_gap hg, argument_ws _ hx]
    rw [step f t g' x ps ks c r0 t1 ')' r hx hg' closer_call (by omega) (by omega) hc hcomma hw]
    obtain ⟨f, rfl⟩ : ∃ f', f = f' + 1 := ⟨f - 1, by omega⟩
    cases p with
    | nil =>
      cases e with
      | nil => simp at has
      | cons e1 e =>
        simp only [List.map_nil, List.nil_append, List.map_cons, List.cons.injEq] at has
        obtain ⟨rfl, he⟩ := has
        have he : e = [] := by simpa using he.symm
        subst he
        have hnk : e1.1 ∉ ks.map Prod.fst := by
          rw [List.map_append, List.nodup_append] at hn
          intro hm
          exact hn.2.2 e1.1 hm e1.1 (by simp) rfl
        simp only [if_neg hnk, arguments_end, List.append_nil]
    | cons p1 p =>
      have hks : ks = [] := by
        by_contra hne
        exact absurd (hp hne) (by simp)
      simp only [List.map_cons, List.cons_append, List.cons.injEq] at has
      obtain ⟨rfl, he⟩ := has
      obtain ⟨h1, h2⟩ := List.append_eq_nil_iff.mp he.symm
      have h1 : p = [] := by simpa using h1
      have h2 : e = [] := by simpa using h2
      subst h1 h2 hks
      simp only [List.isEmpty_nil, if_true, arguments_end, List.append_nil]
  | @more g g' t ts x as hg hx hg' hs ih =>
    intro hl f ps p ks e c r0 t1 hf hc hcomma hw has hp hn
    obtain ⟨f, rfl⟩ : ∃ f', f = f' + 1 := ⟨f - 1, by omega⟩
    simp only [List.length_append, List.length_cons] at hl hf
    have hw : t1 = t ++ (g' ++ ',' :: (ts ++ ')' :: r)) := by
      rw [hw, show g ++ t ++ g' ++ ',' :: ts ++ ')' :: r = g ++ (t ++ (g' ++ ',' :: (ts ++ ')' :: r))) by simp, ws_gap hg, argument_ws _ hx]
    rw [step f t g' x ps ks c r0 t1 ',' (ts ++ ')' :: r) hx hg' closer_comma (by omega) (by omega) hc hcomma hw]
    cases p with
    | nil =>
      cases e with
      | nil => simp at has
      | cons e1 e =>
        simp only [List.map_nil, List.nil_append, List.map_cons, List.cons.injEq] at has
        obtain ⟨rfl, he⟩ := has
        have hnk : e1.1 ∉ ks.map Prod.fst := by
          rw [List.map_append, List.nodup_append] at hn
          intro hm
          exact hn.2.2 e1.1 hm e1.1 (by simp) rfl
        simp only [if_neg hnk]
        rw [ih (by omega) f ps [] (ks ++ [(e1.1, e1.2)]) e ',' (ts ++ ')' :: r) (ws (ts ++ ')' :: r)) (by omega) (by decide)
          (by intro m; rw [isEmpty_snoc, Bool.and_false]; exact comma_next) rfl (by simpa using he) (fun _ => rfl) (by simpa using hn)]
        simp
    | cons p1 p =>
      have hks : ks = [] := by
        by_contra hne
        exact absurd (hp hne) (by simp)
      simp only [List.map_cons, List.cons_append, List.cons.injEq] at has
      obtain ⟨rfl, he⟩ := has
      subst hks
      simp only [List.isEmpty_nil, if_true]
      rw [ih (by omega) f (ps ++ [p1]) p [] e ',' (ts ++ ')' :: r) (ws (ts ++ ')' :: r)) (by omega) (by decide)
        (by intro m; rw [isEmpty_snoc, Bool.false_and]; exact comma_next) rfl he (fun h => absurd rfl h) hn]
      simp

/-! ### Values -/

theorem separated_head {α : Type} {R : Text → α → Prop} {ts : Text} {vs : List α} (h : CommaList R ts vs) (close : Char) (r : Text)
    (hR : ∀ t a r, R t a → ∃ c t', t ++ r = c :: t' ∧ isSpace c = false ∧ c ≠ '#' ∧ c ≠ close) :
    ∃ c t', ws (ts ++ close :: r) = c :: t' ∧ c ≠ close := by
  have key : ∀ {g t rest : Text} {a : α}, Gap g → R t a → ∃ c t', ws (g ++ (t ++ rest)) = c :: t' ∧ c ≠ close := by
    intro g t rest a hg ha
    obtain ⟨c, t', h1, h2, h3, h4⟩ := hR t a rest ha
    refine ⟨c, t', ?_, h4⟩
    rw [ws_gap hg, h1, ws_noop]
    intro d hd
    have : d = c := by simpa using hd.symm
    rw [this]; exact ⟨h2, h3⟩
  cases h with
  | one hg ha _ => simp only [List.append_assoc]; exact key hg ha
  | more hg ha _ _ => simp only [List.append_assoc]; exact key hg ha

theorem takes_array {k f : Nat} (ih : Takes conv k) {t ts r : Text} {vs : List (Node F)} (hts : CommaList (Means (Plain conv)) ts vs)
    (hw : ws t = '[' :: ts ++ [']'] ++ r) (hl : ('[' :: ts ++ [']']).length ≤ k + 1) (hf : 2 * ('[' :: ts ++ [']']).length + 1 ≤ f + 1) :
    expression conv (f + 1) t = .ok (.array vs, r) := by
  have hw : ws t = '[' :: (ts ++ ']' :: r) := by rw [hw]; simp
  simp only [List.length_append, List.length_cons, List.length_nil] at hf hl
  obtain ⟨c, t', hc, hne⟩ := separated_head hts ']' r (by
    intro t a r ha
    obtain ⟨c, t', rfl, h1, h2, h3⟩ := means_head ha
    exact ⟨c, t' ++ r, rfl, h1, h2, fun e => h3 (by rw [e]; exact closer_array)⟩)
  rw [expression_array hw, hc, elements_complete ih hts r (by omega) f [] c t' (c :: t') (by omega) hne (fun m => comma_first) (by rw [← hc, ws_ws])]
  rfl

theorem takes_dictionary {k f : Nat} (ih : Takes conv k) {t ts r : Text} {es : List (Text × Node F)} (hts : CommaList (EntryOf (Means (Plain conv))) ts es)
    (hn : (es.map Prod.fst).Nodup) (hw : ws t = '{' :: ts ++ ['}'] ++ r) (hl : ('{' :: ts ++ ['}']).length ≤ k + 1) (hf : 2 * ('{' :: ts ++ ['}']).length + 1 ≤ f + 1) :
    expression conv (f + 1) t = .ok (.dictionary es, r) := by
  have hw : ws t = '{' :: (ts ++ '}' :: r) := by rw [hw]; simp
  simp only [List.length_append, List.length_cons, List.length_nil] at hf hl
  obtain ⟨c, t', hc, hne⟩ := separated_head hts '}' r (by
    intro t a r ha
    obtain @⟨q, key, g1, g2, t, a, hq, hg1, hg2, ha⟩ := ha
    obtain ⟨b, _, rfl⟩ := hq
    exact ⟨'"', _, rfl, by decide⟩)
  rw [expression_dictionary hw, hc, entries_complete ih hts r (by omega) f [] c t' (c :: t') (by omega) hne (fun m => comma_first) hc.symm hn]
  rfl

theorem takes_emptyCall {f : Nat} {t n g g' r : Text} (hid : IsIdentifier n) (hres : ¬ Reserved n) (hg : Gap g) (hg' : Gap g')
    (hw : ws t = n ++ g ++ '(' :: g' ++ [')'] ++ r) (hf : 2 * (n ++ g ++ '(' :: g' ++ [')']).length + 1 ≤ f + 1) :
    expression conv (f + 1) t = .ok (.dataclass n [] [], r) := by
  have hw : ws t = n ++ (g ++ '(' :: (g' ++ ')' :: r)) := by rw [hw]; simp
  have hstop : ∀ c ∈ (g ++ '(' :: (g' ++ ')' :: r)).head?, isName c = false := by
    intro c hc
    cases g with
    | nil => have : c = '(' := by simpa using hc.symm
             rw [this]; decide
    | cons d g =>
      have : c = d := by simpa using hc.symm
      rw [this]
      exact (space_not_name (gap_head hg d rfl)).1
  have hpar : ws (g ++ '(' :: (g' ++ ')' :: r)) = '(' :: (g' ++ ')' :: r) := by
    rw [ws_gap hg, ws_noop]
    intro c hc
    have : c = '(' := by simpa using hc.symm
    rw [this]; decide
  simp only [List.length_append, List.length_cons, List.length_nil] at hf
  obtain ⟨f, rfl⟩ : ∃ f', f = f' + 1 := ⟨f - 1, by omega⟩
  rw [expression_call (by rw [hw]; exact identifier_complete hid hstop) (builtin_none.mpr hres) hpar, ws_gap_closer hg' closer_call, arguments_end]
  rfl

theorem takes_call {k f : Nat} (ih : Takes conv k) {t n g ts r : Text} {as : List (Option Text × Node F)} {ps : List (Node F)} {ks : List (Text × Node F)}
    (hid : IsIdentifier n) (hres : ¬ Reserved n) (hg : Gap g) (hts : CommaList (ArgumentOf (Means (Plain conv))) ts as)
    (has : as = ps.map (fun v => (none, v)) ++ ks.map (fun k => (some k.1, k.2))) (hn : (ks.map Prod.fst).Nodup)
    (hw : ws t = n ++ g ++ '(' :: ts ++ [')'] ++ r) (hl : (n ++ g ++ '(' :: ts ++ [')']).length ≤ k + 1)
    (hf : 2 * (n ++ g ++ '(' :: ts ++ [')']).length + 1 ≤ f + 1) :
    expression conv (f + 1) t = .ok (.dataclass n ps ks, r) := by
  have hw : ws t = n ++ (g ++ '(' :: (ts ++ ')' :: r)) := by rw [hw]; simp
  have hstop : ∀ c ∈ (g ++ '(' :: (ts ++ ')' :: r)).head?, isName c = false := by
    intro c hc
    cases g with
    | nil => have : c = '(' := by simpa using hc.symm
             rw [this]; decide
    | cons d g =>
      have : c = d := by simpa using hc.symm
      rw [this]
      exact (space_not_name (gap_head hg d rfl)).1
  have hpar : ws (g ++ '(' :: (ts ++ ')' :: r)) = '(' :: (ts ++ ')' :: r) := by
    rw [ws_gap hg, ws_noop]
    intro c hc
    have : c = '(' := by simpa using hc.symm
    rw [this]; decide
  have hid0 : 0 < n.length := by obtain ⟨c, n', rfl, _⟩ := hid; simp
  simp only [List.length_append, List.length_cons, List.length_nil] at hf hl
  obtain ⟨c, t', hc, hne⟩ := separated_head hts ')' r (by
    intro t a r ha
    cases ha with
    | positional ha =>
      obtain ⟨c, t', rfl, h1, h2, h3⟩ := means_head ha
      exact ⟨c, t' ++ r, rfl, h1, h2, fun e => h3 (by rw [e]; exact closer_call)⟩
    | keyword hn _ _ _ =>
      obtain ⟨c, n', rfl, hc, _⟩ := hn
      have := first_char (isFirst_iff.mpr hc)
      exact ⟨c, _, rfl, this.1, this.2.1, fun e => this.2.2 (by rw [e]; exact closer_call)⟩)
  rw [expression_call (by rw [hw]; exact identifier_complete hid hstop) (builtin_none.mpr hres) hpar, hc,
    arguments_complete ih hts r (by omega) f [] ps [] ks c t' (c :: t') (by omega) hne (fun m => comma_first) hc.symm has (fun h => absurd rfl h) hn]
  rfl

theorem numeral_plain (hconv : RoundsIntegers conv) {u r : Text} {v : Node F} (h : Plain conv u v) (hr : ∀ c ∈ r.head?, ¬ Numeric c) :
    numeral conv (u ++ r) = .ok (some (v, r)) := by
  obtain ⟨hn, hl⟩ := h
  cases hn with
  | int hi hlong => exact numeral_int hconv hi hlong hr
  | binary hi hlong => exact numeral_binary hconv hi hlong hr
  | float hi hnot hd => exact numeral_float hi hnot hd (hl _ rfl) hr

theorem takes (hconv : RoundsIntegers conv) : ∀ k, Takes conv k := by
  intro k
  induction k with
  | zero =>
    intro f t u v r hl h
    obtain ⟨c, r, rfl, _⟩ := means_head h
    simp at hl
  | succ k ih =>
    intro f t u v r hl h hr hf hw
    obtain ⟨f, rfl⟩ : ∃ f', f = f' + 1 := ⟨f - 1, by omega⟩
    have hr1 : ∀ c ∈ r.head?, isName c = false := fun c hc => (hr.1 c hc).2
    have hr0 : ∀ c ∈ r.head?, ¬ Numeric c := fun c hc => (hr.1 c hc).1
    cases h with
    | number h =>
      obtain ⟨c, u, rfl, hc⟩ := numeral_head h.1
      obtain ⟨_, _, _, h4, h5, h6, h7⟩ := number_char hc
      refine ⟨r, ?_, rfl⟩
      rw [List.cons_append] at hw
      rw [expression_numeral hw h5 h6 h7 (identifier_none h4)]
      have hnum := numeral_plain hconv h hr0
      rw [List.cons_append] at hnum
      rw [hnum]
      rfl
    | true => exact ⟨r, expression_builtin (by rw [hw]; exact identifier_complete (reserved_identifier (.inl rfl)) hr1) rfl, rfl⟩
    | false => exact ⟨r, expression_builtin (by rw [hw]; exact identifier_complete (reserved_identifier (.inr (.inl rfl))) hr1) rfl, rfl⟩
    | none => exact ⟨r, expression_builtin (by rw [hw]; exact identifier_complete (reserved_identifier (.inr (.inr rfl))) hr1) rfl, rfl⟩
    | string h =>
      obtain ⟨b, hb, rfl⟩ := h
      have hw : ws t = '"' :: (b ++ '"' :: r) := by rw [hw]; simp
      exact ⟨r, by rw [expression_string hw, stringBody_complete hb]; rfl, rfl⟩
    | @emptyArray g hg =>
      have hw : ws t = '[' :: (g ++ ']' :: r) := by rw [hw]; simp
      simp only [List.length_append, List.length_cons, List.length_nil] at hf
      obtain ⟨f, rfl⟩ : ∃ f', f = f' + 1 := ⟨f - 1, by omega⟩
      exact ⟨r, by rw [expression_array hw, ws_gap_closer hg closer_array, elements_end]; rfl, rfl⟩
    | @array ts vs hts =>
      exact ⟨r, takes_array ih hts hw hl hf, rfl⟩
    | @emptyDictionary g hg =>
      have hw : ws t = '{' :: (g ++ '}' :: r) := by rw [hw]; simp
      simp only [List.length_append, List.length_cons, List.length_nil] at hf
      obtain ⟨f, rfl⟩ : ∃ f', f = f' + 1 := ⟨f - 1, by omega⟩
      exact ⟨r, by rw [expression_dictionary hw, ws_gap_closer hg closer_dictionary, entries_end]; rfl, rfl⟩
    | @dictionary ts es hts hn =>
      exact ⟨r, takes_dictionary ih hts hn hw hl hf, rfl⟩
    | @name u hid hres =>
      refine ⟨ws r, ?_, ws_ws r⟩
      refine expression_name (by rw [hw]; exact identifier_complete hid hr1) (builtin_none.mpr hres) ?_
      intro c hc
      exact (hr.2 c hc).1
    | @emptyCall n g g' hid hres hg hg' =>
      exact ⟨r, takes_emptyCall hid hres hg hg' hw hf, rfl⟩
    | @call n g ts as ps ks hid hres hg hts has hn =>
      exact ⟨r, takes_call ih hid hres hg hts has hn hw hl hf, rfl⟩

end Rampack.Pyon
