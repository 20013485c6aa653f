import Verif.Pyon.NumberLemmas
import Mathlib.Tactic.FieldSimp
/-
Lemmas on the literals of floating-point numbers, and on the choice between integers and floating-point numbers.
-/
namespace Rampack.Pyon

open Rampack Spec

variable {F : Type}

theorem isSpace_iff {c : Char} : isSpace c = true ↔ c ∈ [' ', '\t', '\n', '\x0b', '\x0c', '\r'] := by
  simp only [isSpace, Bool.or_eq_true, beq_iff_eq, List.mem_cons, List.not_mem_nil, or_false, or_assoc]

/-! ### Mantissas and exponents -/

theorem mantissa_sound {base : Nat} {t a b r : Text} (h : mantissa base t = some (a, b, r)) :
    (∀ c ∈ a ++ b, isDigit base c = true) ∧ a ++ b ≠ [] ∧ ∃ p, Fraction p b ∧ t = a ++ p ++ r := by
  have ht := (List.takeWhile_append_dropWhile (p := isDigit base) (l := t)).symm
  have hm : ∀ c ∈ t.takeWhile (isDigit base), isDigit base c = true := span_mem
  unfold mantissa at h
  simp only at h
  split at h
  · rename_i hd
    split at h
    · exact absurd h (by simp)
    · rename_i hne
      simp only [Option.some.injEq, Prod.mk.injEq] at h
      obtain ⟨rfl, rfl, rfl⟩ := h
      rw [hd] at ht
      refine ⟨by simpa using hm, by simpa using hne, [], .inl ⟨rfl, rfl⟩, by simpa using ht⟩
  · rename_i c r' hd
    rw [hd] at ht
    split at h
    · rename_i hc
      subst hc
      split at h
      · exact absurd h (by simp)
      · rename_i hne
        simp only [Option.some.injEq, Prod.mk.injEq] at h
        obtain ⟨rfl, rfl, rfl⟩ := h
        have hr := (List.takeWhile_append_dropWhile (p := isDigit base) (l := r')).symm
        refine ⟨?_, ?_, '.' :: r'.takeWhile (isDigit base), .inr rfl, ?_⟩
        · intro c hc
          rcases List.mem_append.mp hc with hc | hc
          · exact hm c hc
          · exact span_mem c hc
        · intro hnil
          apply hne
          obtain ⟨h1, h2⟩ := List.append_eq_nil_iff.mp hnil
          rw [h1]
          simp only [List.isEmpty_nil, Bool.true_and, Bool.not_eq_true']
          cases r' with
          | nil => rfl
          | cons c r' =>
            by_contra hcon
            have : isDigit base c = true := by simpa [startsWithDigit] using hcon
            simp [this] at h2
        · rw [List.append_assoc]
          simp only [List.cons_append]
          rw [← hr]; exact ht
    · split at h
      · exact absurd h (by simp)
      · rename_i hne
        simp only [Option.some.injEq, Prod.mk.injEq] at h
        obtain ⟨rfl, rfl, rfl⟩ := h
        refine ⟨by simpa using hm, by simpa using hne, [], .inl ⟨rfl, rfl⟩, by simpa using ht⟩

theorem dot_not_digit {base : Nat} : isDigit base '.' = false := by
  have : isHex '.' = false := by decide
  simp [isDigit, this]

theorem mantissa_complete {base : Nat} {a b p r : Text} (hd : ∀ c ∈ a ++ b, isDigit base c = true) (hne : a ++ b ≠ []) (hp : Fraction p b)
    (hr : ∀ c ∈ r.head?, isDigit base c = false ∧ c ≠ '.') : mantissa base (a ++ p ++ r) = some (a, b, r) := by
  have ha : ∀ c ∈ a, isDigit base c = true := fun c hc => hd c (List.mem_append_left _ hc)
  have hb : ∀ c ∈ b, isDigit base c = true := fun c hc => hd c (List.mem_append_right _ hc)
  rcases hp with ⟨rfl, rfl⟩ | rfl
  · rw [List.append_nil]
    obtain ⟨h1, h2⟩ := span_append ha fun c hc => (hr c hc).1
    unfold mantissa
    simp only [h1, h2]
    have hae : a.isEmpty = false := by simpa using hne
    cases r with
    | nil => simp [hae]
    | cons c r =>
      have := (hr c rfl).2
      simp [hae, this]
  · obtain ⟨h1, h2⟩ := span_append (r := '.' :: b ++ r) ha (by intro c hc; simp at hc; rw [← hc]; exact dot_not_digit)
    obtain ⟨h3, h4⟩ := span_append hb fun c hc => (hr c hc).1
    rw [List.append_assoc]
    unfold mantissa
    simp only [h1, h2]
    show (if '.' = '.' then if (a.isEmpty && !startsWithDigit base (b ++ r)) = true then none else _ else _) = _
    rw [if_pos rfl, if_neg]
    · show some (a, (b ++ r).takeWhile (isDigit base), (b ++ r).dropWhile (isDigit base)) = _
      rw [h3, h4]
    · simp only [Bool.and_eq_true, Bool.not_eq_true', not_and, Bool.not_eq_false]
      intro ha0
      have ha0 : a = [] := by simpa using ha0
      subst ha0
      exact startsWithDigit_append (by simpa using hne) hb

theorem mantissa_none {base : Nat} {t : Text} (h : startsWithDigit base t = true) : mantissa base t ≠ none := by
  obtain ⟨c, r, rfl, hc⟩ := startsWithDigit_iff.mp h
  unfold mantissa
  simp only [List.takeWhile_cons, List.dropWhile_cons, hc, if_true, List.isEmpty_cons, Bool.false_and, Bool.false_eq_true, if_false]
  split
  · simp
  · split <;> simp

/-- `e` is the list of the letter in lower and upper case. -/
def Marks (mark : Char) (e : List Char) : Prop := ∀ c, lower c = mark ↔ c ∈ e

theorem lower_eq {c m : Char} (h : lower c = m) : c = m ∨ ('A' ≤ c ∧ c ≤ 'Z' ∧ Char.ofNat (c.toNat + 32) = m) := by
  unfold lower at h
  split at h
  · rename_i hc; exact .inr ⟨hc.1, hc.2, h⟩
  · exact .inl h

theorem upper_lt {c : Char} (h : c ≤ 'Z') : c.toNat < 128 := by
  have := le_toNat h; have e : ('Z' : Char).toNat = 90 := rfl; omega

theorem marks_e : Marks 'e' ['e', 'E'] := by
  intro c
  constructor
  · intro h
    rcases lower_eq h with rfl | ⟨h1, h2, h3⟩
    · simp
    · simpa using char_lt (P := fun c => 'A' ≤ c → c ≤ 'Z' → Char.ofNat (c.toNat + 32) = 'e' → c = 'e' ∨ c = 'E') 128 (by decide) c (upper_lt h2) h1 h2 h3
  · intro h; simp at h; rcases h with rfl | rfl <;> decide

theorem marks_p : Marks 'p' ['p', 'P'] := by
  intro c
  constructor
  · intro h
    rcases lower_eq h with rfl | ⟨h1, h2, h3⟩
    · simp
    · simpa using char_lt (P := fun c => 'A' ≤ c → c ≤ 'Z' → Char.ofNat (c.toNat + 32) = 'p' → c = 'p' ∨ c = 'P') 128 (by decide) c (upper_lt h2) h1 h2 h3
  · intro h; simp at h; rcases h with rfl | rfl <;> decide

theorem exponent_sound {mark : Char} {e : List Char} (hm : Marks mark e) (t : Text) : ∃ x, Exponent e x (exponent mark t).1 ∧ t = x ++ (exponent mark t).2 := by
  cases t with
  | nil => exact ⟨[], .inl ⟨rfl, rfl⟩, rfl⟩
  | cons c r =>
    simp only [exponent]
    split
    · rename_i hc
      split
      · rename_i n r' hd
        obtain ⟨s, h1, h2⟩ := takeSign_sound r
        obtain ⟨d, hne, hn, hd, _⟩ := digits_sound (by norm_num) hd
        refine ⟨c :: s ++ d, .inr ⟨c, s, _, d, n, (hm c).mp hc, h1, hn, hne, rfl, rfl⟩, ?_⟩
        rw [List.append_assoc, ← hd]
        show c :: r = c :: (s ++ (takeSign r).2)
        rw [← h2]
      · exact ⟨[], .inl ⟨rfl, rfl⟩, rfl⟩
    · exact ⟨[], .inl ⟨rfl, rfl⟩, rfl⟩

theorem number_not_sign {b : Nat} (hb : b ≤ 16) {d r : Text} {n : Nat} (hd : d ≠ []) (hn : Number b d n) : ∀ c ∈ (d ++ r).head?, c ≠ '-' ∧ c ≠ '+' := by
  cases d with
  | nil => exact absurd rfl hd
  | cons c d =>
    intro c' hc'
    have : c' = c := by simpa using hc'.symm
    rw [this]
    exact digit_not_sign hb (((number_iff hb).mp hn).1 c List.mem_cons_self)

theorem exponent_complete {mark : Char} {e : List Char} (hm : Marks mark e) {x r : Text} {k : Int} (h : Exponent e x k)
    (hr : ∀ c ∈ r.head?, isDigit 10 c = false ∧ c ∉ e) : exponent mark (x ++ r) = (k, r) := by
  rcases h with ⟨rfl, rfl⟩ | ⟨c, s, neg, d, n, hc, hs, hn, hne, rfl, rfl⟩
  · cases r with
    | nil => rfl
    | cons c r =>
      simp only [List.nil_append, exponent]
      rw [if_neg]
      intro h
      exact (hr c rfl).2 ((hm c).mp h)
  · show exponent mark (c :: (s ++ d ++ r)) = _
    simp only [exponent]
    rw [if_pos ((hm c).mpr hc), List.append_assoc, takeSign_complete hs (number_not_sign (by norm_num) hne hn)]
    simp only [digits_complete (by norm_num) hne hn fun c hc => (hr c hc).1]
    rfl

/-! ### Floating-point numbers -/

/-- Floating-point numbers without the sign. -/
inductive FloatBody (neg : Bool) : Text → ℚ → Prop where
  | decimal {a b p x : Text} {k : Int} : (∀ c ∈ a ++ b, isDigit 10 c = true) → a ++ b ≠ [] → Fraction p b → Exponent ['e', 'E'] x k →
      FloatBody neg (a ++ p ++ x) (floatValue 10 10 neg a b k)
  | hex {a b p x : Text} {y : Char} {k : Int} : y = 'x' ∨ y = 'X' → (∀ c ∈ a ++ b, isDigit 16 c = true) → a ++ b ≠ [] → Fraction p b →
      Exponent ['p', 'P'] x k → FloatBody neg ('0' :: y :: a ++ p ++ x) (floatValue 16 2 neg a b k)

theorem floatForm_iff {t : Text} {q : ℚ} : FloatForm t q ↔ ∃ s neg d, Signed s neg ∧ FloatBody neg d q ∧ t = s ++ d := by
  constructor
  · intro h
    cases h with
    | decimal hs hn hne hp hx =>
      obtain ⟨hd, rfl⟩ := (number_iff (by norm_num)).mp hn
      refine ⟨_, _, _, hs, ?_, by rw [List.append_assoc, List.append_assoc]⟩
      have := FloatBody.decimal (neg := ‹Bool›) hd hne hp hx
      rw [List.append_assoc] at this
      exact this
    | hex hs hy hn hne hp hx =>
      obtain ⟨hd, rfl⟩ := (number_iff (by norm_num)).mp hn
      refine ⟨_, _, _, hs, FloatBody.hex hy hd hne hp hx, by simp⟩
  · rintro ⟨s, neg, d, hs, hb, rfl⟩
    cases hb with
    | decimal hd hne hp hx =>
      have := FloatForm.decimal hs (number_of (by norm_num) hd) hne hp hx
      rw [List.append_assoc, List.append_assoc] at this
      rw [List.append_assoc]
      exact this
    | @hex a b p x y k hy hd hne hp hx =>
      have := FloatForm.hex hs hy (number_of (by norm_num) hd) hne hp hx
      have e : s ++ '0' :: y :: a ++ p ++ x = s ++ ('0' :: y :: a ++ p ++ x) := by simp
      rw [e] at this
      exact this

theorem exponent_numeric {e : List Char} (he : ∀ c ∈ e, Numeric c) {x : Text} {k : Int} (h : Exponent e x k) : ∀ c ∈ x, Numeric c := by
  rcases h with ⟨rfl, _⟩ | ⟨c, s, neg, d, n, hc, hs, hn, hne, rfl, _⟩
  · simp
  · intro c' hc'
    rcases List.mem_append.mp hc' with hc' | hc'
    · rcases List.mem_cons.mp hc' with rfl | hc'
      · exact he _ hc
      · exact signed_numeric hs c' hc'
    · exact number_numeric (by norm_num) hn c' hc'

theorem fraction_numeric {p b : Text} (h : Fraction p b) (hb : ∀ c ∈ b, Numeric c) : ∀ c ∈ p, Numeric c := by
  rcases h with ⟨rfl, _⟩ | rfl
  · simp
  · intro c hc
    rcases List.mem_cons.mp hc with rfl | hc
    · exact .inr (by simp)
    · exact hb c hc

theorem e_numeric : ∀ c ∈ ['e', 'E'], Numeric c := by
  intro c hc
  simp at hc
  rcases hc with rfl | rfl <;> exact .inl (by decide)

theorem p_numeric : ∀ c ∈ ['p', 'P'], Numeric c := by
  intro c hc
  simp at hc
  rcases hc with rfl | rfl <;> exact .inr (by simp)

theorem floatBody_numeric {neg : Bool} {d : Text} {q : ℚ} (h : FloatBody neg d q) : ∀ c ∈ d, Numeric c := by
  have key : ∀ {base : Nat} {a b p x : Text} {e : List Char} {k : Int}, (∀ c ∈ a ++ b, isDigit base c = true) → Fraction p b → (∀ c ∈ e, Numeric c) →
      Exponent e x k → ∀ c ∈ a ++ p ++ x, Numeric c := by
    intro base a b p x e k hd hp he hx c hc
    rcases List.mem_append.mp hc with hc | hc
    · rcases List.mem_append.mp hc with hc | hc
      · exact numeric_of_digit (hd c (List.mem_append_left _ hc))
      · exact fraction_numeric hp (fun c hc => numeric_of_digit (hd c (List.mem_append_right _ hc))) c hc
    · exact exponent_numeric he hx c hc
  cases h with
  | decimal hd hne hp hx => exact key hd hp e_numeric hx
  | hex hy hd hne hp hx =>
    intro c hc
    simp only [List.cons_append] at hc
    rcases List.mem_cons.mp hc with rfl | hc
    · exact .inl (by decide)
    · rcases List.mem_cons.mp hc with rfl | hc
      · rcases hy with rfl | rfl <;> exact .inr (by simp)
      · exact key hd hp p_numeric hx c hc

theorem floatBody_head {neg : Bool} {d : Text} {q : ℚ} (h : FloatBody neg d q) : ∃ c r, d = c :: r ∧ (isDigit 10 c = true ∨ c = '.') := by
  cases h with
  | @decimal a b p x k hd hne hp hx =>
    cases a with
    | nil =>
      rcases hp with ⟨rfl, rfl⟩ | rfl
      · exact absurd rfl hne
      · exact ⟨'.', b ++ x, rfl, .inr rfl⟩
    | cons c a => exact ⟨c, a ++ p ++ x, rfl, .inl (hd c (by simp))⟩
  | hex hy hd hne hp hx => exact ⟨'0', _, rfl, .inl (by decide)⟩

theorem floatForm_numeric {t : Text} {q : ℚ} (h : FloatForm t q) : t ≠ [] ∧ ∀ c ∈ t, Numeric c := by
  obtain ⟨s, neg, d, hs, hb, rfl⟩ := floatForm_iff.mp h
  constructor
  · obtain ⟨c, r, rfl, _⟩ := floatBody_head hb
    simp
  · intro c hc
    rcases List.mem_append.mp hc with hc | hc
    · exact signed_numeric hs c hc
    · exact floatBody_numeric hb c hc

theorem hexFloat_sound {neg : Bool} {t r : Text} {q : ℚ} (h : hexFloat neg t = some (q, r)) : ∃ d, FloatBody neg d q ∧ t = d ++ r := by
  unfold hexFloat at h
  split at h
  · rename_i r0 h0
    obtain ⟨y, hy, rfl⟩ := after0x_some h0
    split at h
    · rename_i a b r' hm
      simp only [Option.some.injEq, Prod.mk.injEq] at h
      obtain ⟨rfl, rfl⟩ := h
      obtain ⟨hd, hne, p, hp, rfl⟩ := mantissa_sound hm
      obtain ⟨x, hx, he⟩ := exponent_sound marks_p r'
      refine ⟨_, .hex hy hd hne hp hx, ?_⟩
      simp only [List.cons_append, List.append_assoc]
      rw [← he]
    · exact absurd h (by simp)
  · exact absurd h (by simp)

theorem decFloat_sound {neg : Bool} {t r : Text} {q : ℚ} (h : decFloat neg t = some (q, r)) : ∃ d, FloatBody neg d q ∧ t = d ++ r := by
  unfold decFloat at h
  split at h
  · rename_i a b r' hm
    simp only [Option.some.injEq, Prod.mk.injEq] at h
    obtain ⟨rfl, rfl⟩ := h
    obtain ⟨hd, hne, p, hp, rfl⟩ := mantissa_sound hm
    obtain ⟨x, hx, he⟩ := exponent_sound marks_e r'
    refine ⟨_, .decimal hd hne hp hx, ?_⟩
    simp only [List.append_assoc]
    rw [← he]
  · exact absurd h (by simp)

theorem strtod_sound {t r : Text} {q : ℚ} (hs : NoSpace t) (h : strtod t = some (some q, r)) : ∃ u, FloatForm u q ∧ t = u ++ r := by
  unfold strtod at h
  rw [noSpace_drop hs] at h
  obtain ⟨s, h1, h2⟩ := takeSign_sound t
  have fin : ∀ d, FloatBody (takeSign t).1 d q → (takeSign t).2 = d ++ r → ∃ u, FloatForm u q ∧ t = u ++ r := by
    intro d hb hd
    refine ⟨s ++ d, floatForm_iff.mpr ⟨s, _, d, h1, hb, rfl⟩, ?_⟩
    rw [List.append_assoc, ← hd]; exact h2
  simp only at h
  split at h
  · simp at h
  · split at h
    · rename_i q' r' hh
      simp only [Option.some.injEq, Prod.mk.injEq] at h
      obtain ⟨rfl, rfl⟩ := h
      obtain ⟨d, hb, hd⟩ := hexFloat_sound hh
      exact fin d hb hd
    · split at h
      · rename_i q' r' hh
        simp only [Option.some.injEq, Prod.mk.injEq] at h
        obtain ⟨rfl, rfl⟩ := h
        obtain ⟨d, hb, hd⟩ := decFloat_sound hh
        exact fin d hb hd
      · simp at h

theorem lower_head {c : Char} (h : isDigit 10 c = true ∨ c = '.') : lower c ≠ 'i' ∧ lower c ≠ 'n' ∧ c ≠ '-' ∧ c ≠ '+' := by
  rcases h with h | rfl
  · have hx : isHex c = true := by simp only [isDigit, Bool.and_eq_true] at h; exact h.1
    exact char_lt (P := fun c => isDigit 10 c = true → lower c ≠ 'i' ∧ lower c ≠ 'n' ∧ c ≠ '-' ∧ c ≠ '+') 128 (by decide) c (isHex_lt hx) h
  · decide

theorem not_special {c : Char} {r : Text} (h : lower c ≠ 'i' ∧ lower c ≠ 'n') : isSpecial (c :: r) = false := by
  simp [isSpecial, h.1, h.2]

theorem decimal_not_hex {a b p x r : Text} {k : Int} (hd : ∀ c ∈ a ++ b, isDigit 10 c = true) (hne : a ++ b ≠ []) (hp : Fraction p b)
    (hx : Exponent ['e', 'E'] x k) (hr : ∀ c ∈ r.head?, ¬ Numeric c) : after0x (a ++ p ++ x ++ r) = none := by
  rw [after0x_none]
  intro y r0 hy h
  have hyd : ∀ c : Char, isDigit 10 c = true → c ≠ y := by
    intro c hc he
    have := digit_not_x (by norm_num) hc
    rcases hy with rfl | rfl
    · exact this.1 he
    · exact this.2.1 he
  match a, hd, hne, h with
  | [], hd, hne, h =>
    rcases hp with ⟨rfl, rfl⟩ | rfl
    · exact hne rfl
    · exact absurd (List.cons.inj h).1 (by decide)
  | [c], hd, hne, h =>
    have h : p ++ x ++ r = y :: r0 := by simpa using (List.cons.inj h).2
    rcases hp with ⟨rfl, rfl⟩ | rfl
    · rcases hx with ⟨rfl, _⟩ | ⟨e, s, neg', d, n, he, hs, hn, hne', rfl, _⟩
      · have h : r = y :: r0 := by simpa using h
        exact hr y (by rw [h]; rfl) (.inr (by rcases hy with rfl | rfl <;> simp))
      · have : e = y := (List.cons.inj h).1
        subst this
        simp at he
        rcases hy with rfl | rfl <;> simp at he
    · have : '.' = y := (List.cons.inj h).1
      rcases hy with rfl | rfl <;> simp at this
  | c :: c' :: a, hd, hne, h =>
    exact hyd c' (hd c' (by simp)) (List.cons.inj (List.cons.inj h).2).1

theorem hexFloat_none {neg : Bool} {a b p x r : Text} {k : Int} (hd : ∀ c ∈ a ++ b, isDigit 10 c = true) (hne : a ++ b ≠ []) (hp : Fraction p b)
    (hx : Exponent ['e', 'E'] x k) (hr : ∀ c ∈ r.head?, ¬ Numeric c) : hexFloat neg (a ++ p ++ x ++ r) = none := by
  unfold hexFloat
  rw [decimal_not_hex hd hne hp hx hr]

theorem strtod_complete {u r : Text} {q : ℚ} (h : FloatForm u q) (hr : ∀ c ∈ r.head?, ¬ Numeric c) : strtod (u ++ r) = some (some q, r) := by
  have hns := noSpace_append (r := r) (floatForm_numeric h).1 (floatForm_numeric h).2
  have hr16 : ∀ b, ∀ c ∈ r.head?, isDigit b c = false := by
    intro b c hc
    by_contra hcon
    exact hr c hc (numeric_of_digit (by simpa using hcon))
  have hdot : ∀ c ∈ r.head?, c ≠ '.' := by
    rintro c hc rfl
    exact hr _ hc (.inr (by simp))
  obtain ⟨s, neg, d, hs, hb, rfl⟩ := floatForm_iff.mp h
  obtain ⟨c, r0, hd, hc⟩ := floatBody_head hb
  have hl := lower_head hc
  unfold strtod
  rw [noSpace_drop hns, List.append_assoc, takeSign_complete hs (by
    intro c' hc'
    rw [hd] at hc'
    have : c' = c := by simpa using hc'.symm
    rw [this]; exact hl.2.2)]
  simp only
  rw [if_neg (by rw [hd]; simp only [List.cons_append, Bool.not_eq_true]; exact not_special ⟨hl.1, hl.2.1⟩)]
  clear hd
  -- after the mantissa there are the exponent and what follows
  have hafter : ∀ {base : Nat} {e : List Char} {x : Text} {k : Int}, Exponent e x k → (∀ c ∈ e, isDigit base c = false ∧ c ≠ '.') →
      ∀ c ∈ (x ++ r).head?, isDigit base c = false ∧ c ≠ '.' := by
    intro base e x k hx he c hc
    rcases hx with ⟨rfl, _⟩ | ⟨c', s, neg', d, n, hc', hs, hn, hne', rfl, _⟩
    · exact ⟨hr16 base c hc, hdot c hc⟩
    · have : c = c' := by simpa using hc.symm
      rw [this]; exact he c' hc'
  cases hb with
  | decimal hd hne hp hx =>
    rw [hexFloat_none hd hne hp hx hr]
    simp only
    unfold decFloat
    rw [List.append_assoc, mantissa_complete hd hne hp (hafter hx (by decide))]
    simp only
    rw [exponent_complete marks_e hx fun c hc => ⟨hr16 10 c hc, fun he => hr c hc (e_numeric c he)⟩]
  | @hex a b p x y k hy hd hne hp hx =>
    unfold hexFloat
    rw [show '0' :: y :: a ++ p ++ x ++ r = '0' :: y :: (a ++ p ++ (x ++ r)) by simp, after0x_of hy]
    simp only
    rw [mantissa_complete hd hne hp (hafter hx (by decide))]
    simp only
    rw [exponent_complete marks_p hx fun c hc => ⟨hr16 10 c hc, fun he => hr c hc (p_numeric c he)⟩]

/-! ### Integers read as floating-point numbers -/

theorem octal_bound : ∀ (k : Nat) {d : Text} {n m : Nat}, Number 8 d n → Number 10 d m → n < 8 ^ k → m < 10 ^ k := by
  intro k d
  induction d using List.reverseRecOn generalizing k with
  | nil =>
    intro n m h8 h10 _
    rw [number_iff (by norm_num)] at h10
    rw [h10.2]
    exact Nat.pow_pos (by norm_num)
  | append_singleton d c ih =>
    intro n m h8 h10 hk
    rw [number_iff (by norm_num)] at h8 h10
    obtain ⟨h8, rfl⟩ := h8
    obtain ⟨h10, rfl⟩ := h10
    rw [value_snoc] at hk ⊢
    have hc := h8 c (by simp)
    simp only [isDigit, Bool.and_eq_true, decide_eq_true_eq] at hc
    have n8 := number_of (b := 8) (by norm_num) fun c hc => h8 c (List.mem_append_left _ hc)
    have n10 := number_of (b := 10) (by norm_num) fun c hc => h10 c (List.mem_append_left _ hc)
    cases k with
    | zero =>
      have h0 : value 8 d < 8 ^ 0 := by rw [pow_zero] at *; omega
      have := ih 0 n8 n10 h0
      rw [pow_zero] at *; omega
    | succ k =>
      have h0 : value 8 d < 8 ^ k := by rw [pow_succ] at hk; omega
      have := ih k n8 n10 h0
      rw [pow_succ]; omega

theorem int_as_float {t : Text} {i : Int} (h : IntForm t i) (hl : InLong i) : ∃ j : Int, FloatForm t j ∧ |j| ≤ 10 ^ 22 := by
  have hsmall : ∀ {neg : Bool} {n : Nat}, InLong (if neg then -(n : Int) else n) → n ≤ 2 ^ 63 := by
    intro neg n hl
    unfold InLong at hl
    cases neg <;> simp at hl <;> omega
  have hj : ∀ (neg : Bool) (n : Nat), n ≤ 10 ^ 22 → |if neg then -(n : Int) else n| ≤ 10 ^ 22 := by
    intro neg n hn
    have : (n : Int) ≤ 10 ^ 22 := by exact_mod_cast hn
    cases neg <;> simp <;> linarith
  cases h with
  | @decimal s d neg n hs hn hne h0 =>
    refine ⟨if neg then -(n : Int) else n, ?_, hj neg n (le_trans (hsmall hl) (by norm_num))⟩
    have := FloatForm.decimal (a := d) (b := []) (p := []) (x := []) (k := 0) hs (by simpa using hn) (by simpa using hne) (.inl ⟨rfl, rfl⟩) (.inl ⟨rfl, rfl⟩)
    simp only [List.append_nil] at this
    convert this using 1
    cases neg <;> simp
  | @octal s d neg n hs hn =>
    have hn' : Number 10 ('0' :: d) (value 10 d) := by
      have h10 : ∀ c ∈ d, isDigit 10 c = true := fun c hc => isDigit_mono (by norm_num) (((number_iff (by norm_num)).mp hn).1 c hc)
      exact number_zero (by norm_num) (by norm_num) (number_of (by norm_num) h10)
    have hlt : n < 8 ^ 22 := lt_of_le_of_lt (hsmall hl) (by norm_num)
    have hb := octal_bound 22 (number_zero (by norm_num) (by norm_num) hn) hn' hlt
    refine ⟨if neg then -(value 10 d : Int) else value 10 d, ?_, hj neg _ hb.le⟩
    have := FloatForm.decimal (a := '0' :: d) (b := []) (p := []) (x := []) (k := 0) hs (by simpa using hn') (by simp) (.inl ⟨rfl, rfl⟩) (.inl ⟨rfl, rfl⟩)
    simp only [List.append_nil] at this
    convert this using 1
    cases neg <;> simp
  | @hex s d neg x n hs hx hn hne =>
    refine ⟨if neg then -(n : Int) else n, ?_, hj neg n (le_trans (hsmall hl) (by norm_num))⟩
    have := FloatForm.hex (a := d) (b := []) (p := []) (x := []) (k := 0) hs hx (by simpa using hn) (by simpa using hne) (.inl ⟨rfl, rfl⟩) (.inl ⟨rfl, rfl⟩)
    simp only [List.append_nil] at this
    convert this using 1
    cases neg <;> simp

/-! ### The choice -/

theorem after0b_some {t r : Text} (h : after0b t = some r) : t = '0' :: 'b' :: r := by
  unfold after0b at h
  split at h
  · split at h
    · rename_i hc
      simp only [Option.some.injEq] at h
      rw [hc.1, hc.2, h]
    · simp at h
  · simp at h

theorem after0b_none {t : Text} (h : ∀ r, t ≠ '0' :: 'b' :: r) : after0b t = none := by
  rcases h' : after0b t with _ | r
  · rfl
  · exact absurd (after0b_some h') (h r)

theorem isDigit10_b : isDigit 10 'b' = false := by decide

/-- A floating-point number is not taken for a binary one. -/
theorem float_not_binary {u r : Text} {q : ℚ} (h : FloatForm u q) (hr : ∀ c ∈ r.head?, ¬ Numeric c) : after0b (u ++ r) = none := by
  refine after0b_none ?_
  intro r0 h0
  have hb := strtod_complete h hr
  rw [h0] at hb
  have : strtod ('0' :: 'b' :: r0) = some (some (floatValue 10 10 false ['0'] [] 0), 'b' :: r0) := by
    have e1 : mantissa 10 ('0' :: 'b' :: r0) = some (['0'], [], 'b' :: r0) := by
      have h0 : isDigit 10 '0' = true := by decide
      simp [mantissa, h0, isDigit10_b]
    have e2 : exponent 'e' ('b' :: r0) = (0, 'b' :: r0) := by
      have : lower 'b' ≠ 'e' := by decide
      simp [exponent, this]
    have e3 : ('0' :: 'b' :: r0).dropWhile isSpace = '0' :: 'b' :: r0 := noSpace_drop (by intro c hc; simp at hc; rw [← hc]; decide)
    have e4 : takeSign ('0' :: 'b' :: r0) = (false, '0' :: 'b' :: r0) := by simp [takeSign]
    have e5 : isSpecial ('0' :: 'b' :: r0) = false := not_special (by decide)
    have e6 : hexFloat false ('0' :: 'b' :: r0) = none := by
      unfold hexFloat
      rw [after0x_none]
      intro x r hx hh
      have := (List.cons.inj (List.cons.inj hh).2).1
      rcases hx with rfl | rfl <;> simp at this
    unfold strtod
    rw [e3, e4]
    simp only [e5, Bool.false_eq_true, if_false, e6, decFloat, e1, e2]
  rw [this] at hb
  have hrr : 'b' :: r0 = r := (Prod.mk.inj (Option.some.inj hb)).2
  exact hr 'b' (by rw [← hrr]; rfl) (.inl (by decide))

/-- No integer at the beginning of the literal is out of range. -/
def NoLongPrefix (t : Text) : Prop := ∀ u r i, t = u ++ r → IntForm u i → InLong i

theorem isLong_iff {i : Int} : isLong i = true ↔ InLong i := by simp [isLong, InLong]

theorem numeral_int {conv : ℚ → Option F} (hconv : RoundsIntegers conv) {u r : Text} {i : Int} (h : IntForm u i) (hl : InLong i)
    (hr : ∀ c ∈ r.head?, ¬ Numeric c) : numeral conv (u ++ r) = .ok (some (.int i, r)) := by
  obtain ⟨j, hj, hb⟩ := int_as_float h hl
  obtain ⟨d, hd⟩ := Option.isSome_iff_exists.mp (hconv j hb)
  have e1 : parseFloat conv (u ++ r) = .ok (some d, r) := by
    unfold parseFloat
    rw [strtod_complete hj hr]
    simp only [hd]
  have e2 : parseInt (u ++ r) = .ok (some i, r) := by
    unfold parseInt
    rw [float_not_binary hj hr]
    simp only [strtol_complete h hr, checkInt, isLong_iff.mpr hl, if_true]
  unfold numeral
  rw [e1, e2]
  simp only [Outcome.ok_bind, chooseNumeral, lt_irrefl, if_false, Outcome.pure_eq]

theorem numeral_binary {conv : ℚ → Option F} (hconv : RoundsIntegers conv) {u r : Text} {i : Int} (h : BinaryForm u i) (hl : InLong i)
    (hr : ∀ c ∈ r.head?, ¬ Numeric c) : numeral conv (u ++ r) = .ok (some (.int i, r)) := by
  obtain ⟨d, n, hn, hne, rfl, rfl⟩ := h
  obtain ⟨f, hf⟩ := Option.isSome_iff_exists.mp (hconv 0 (by norm_num))
  have hq : floatValue 10 10 false ['0'] [] 0 = ((0 : Int) : ℚ) := by
    have : value 10 ['0'] = 0 := by decide
    simp [floatValue, this, negIf]
  have e1 : parseFloat conv ('0' :: 'b' :: d ++ r) = .ok (some f, 'b' :: d ++ r) := by
    have a1 : mantissa 10 ('0' :: 'b' :: (d ++ r)) = some (['0'], [], 'b' :: (d ++ r)) := by
      have h0 : isDigit 10 '0' = true := by decide
      simp [mantissa, h0, isDigit10_b]
    have a2 : exponent 'e' ('b' :: (d ++ r)) = (0, 'b' :: (d ++ r)) := by
      have : lower 'b' ≠ 'e' := by decide
      simp [exponent, this]
    have a3 : ('0' :: 'b' :: (d ++ r)).dropWhile isSpace = '0' :: 'b' :: (d ++ r) := noSpace_drop (by intro c hc; simp at hc; rw [← hc]; decide)
    have a4 : takeSign ('0' :: 'b' :: (d ++ r)) = (false, '0' :: 'b' :: (d ++ r)) := by simp [takeSign]
    have a5 : isSpecial ('0' :: 'b' :: (d ++ r)) = false := not_special (by decide)
    have a6 : hexFloat false ('0' :: 'b' :: (d ++ r)) = none := by
      unfold hexFloat
      rw [after0x_none]
      intro x r hx hh
      have := (List.cons.inj (List.cons.inj hh).2).1
      rcases hx with rfl | rfl <;> simp at this
    unfold parseFloat strtod
    simp only [List.cons_append, a3, a4, a5, Bool.false_eq_true, if_false, a6, decFloat, a1, a2, hq, hf]
  have e2 : parseInt ('0' :: 'b' :: d ++ r) = .ok (some (n : Int), r) := by
    have a1 : after0b ('0' :: 'b' :: d ++ r) = some (d ++ r) := by
      cases d with
      | nil => exact absurd rfl hne
      | cons c d => rfl
    unfold parseInt
    rw [a1]
    simp only [strtol_binary_complete hn hne hr, checkInt, isLong_iff.mpr hl, if_true]
  unfold numeral
  rw [e1, e2]
  have : ¬ ('b' :: d ++ r).length < r.length := by simp; omega
  simp only [Outcome.ok_bind, chooseNumeral, if_neg this, Outcome.pure_eq]

theorem numeral_float {conv : ℚ → Option F} {u r : Text} {q : ℚ} {d : F} (h : FloatForm u q) (hi : ∀ i, ¬ IntForm u i) (hd : conv q = some d)
    (hl : NoLongPrefix u) (hr : ∀ c ∈ r.head?, ¬ Numeric c) : numeral conv (u ++ r) = .ok (some (.float d, r)) := by
  obtain ⟨hne, hnum⟩ := floatForm_numeric h
  have hns := noSpace_append (r := r) hne hnum
  have e1 : parseFloat conv (u ++ r) = .ok (some d, r) := by
    unfold parseFloat
    rw [strtod_complete h hr]
    simp only [hd]
  have e2 : ∃ i, parseInt (u ++ r) = .ok i ∧ r.length < i.2.length := by
    unfold parseInt
    rw [float_not_binary h hr]
    rcases hst : strtol false (u ++ r) with _ | ⟨i, r''⟩
    · refine ⟨_, rfl, ?_⟩
      have := List.length_pos_of_ne_nil hne
      simp; omega
    · obtain ⟨u'', hf, heq⟩ := strtol_sound hns hst
      obtain ⟨w, hw, hr''⟩ := prefix_of_stop heq (intForm_numeric hf) hr
      have hL : InLong i := hl u'' w i hw hf
      refine ⟨(some i, r''), by simp only [checkInt, isLong_iff.mpr hL, if_true], ?_⟩
      have hwne : w ≠ [] := by
        rintro rfl
        rw [List.append_nil] at hw
        exact hi i (by rw [hw]; exact hf)
      have := List.length_pos_of_ne_nil hwne
      rw [hr'']; simp; omega
  obtain ⟨i, e2, hlt⟩ := e2
  unfold numeral
  rw [e1, e2]
  simp only [Outcome.ok_bind, chooseNumeral, if_pos hlt, Outcome.pure_eq]

theorem checkInt_ok {t r : Text} {i : Int} {o : Option (Int × Text)} (h : checkInt t o = .ok (some i, r)) : o = some (i, r) ∧ InLong i := by
  unfold checkInt at h
  split at h
  · simp at h
  · split at h
    · rename_i hl
      simp only [Outcome.ok.injEq, Prod.mk.injEq, Option.some.injEq] at h
      obtain ⟨rfl, rfl⟩ := h
      exact ⟨rfl, isLong_iff.mp hl⟩
    · simp at h

theorem numeral_sound {conv : ℚ → Option F} {t r : Text} {v : Node F} (hs : NoSpace t) (h : numeral conv t = .ok (some (v, r))) :
    ∃ u, (Numeral conv u v ∨ OddBinary u v) ∧ u ≠ [] ∧ t = u ++ r := by
  unfold numeral at h
  obtain ⟨fl, h1, h⟩ := Outcome.bind_eq_ok.mp h
  obtain ⟨i, h2, h⟩ := Outcome.bind_eq_ok.mp h
  have h : chooseNumeral fl i = some (v, r) := Outcome.ok_inj.mp h
  unfold chooseNumeral at h
  split at h
  · simp at h
  rename_i d hd
  split at h
  · -- a floating-point number
    rename_i hlt
    simp only [Option.some.injEq, Prod.mk.injEq] at h
    obtain ⟨rfl, rfl⟩ := h
    unfold parseFloat at h1
    split at h1
    · simp only [Outcome.ok.injEq] at h1
      rw [← h1] at hd; simp at hd
    · simp at h1
    · rename_i q r hst
      split at h1
      · simp at h1
      · rename_i d' hc
        simp only [Outcome.ok.injEq] at h1
        subst h1
        have hd : d' = d := by simpa using hd
        subst hd
        obtain ⟨u, hf, rfl⟩ := strtod_sound hs hst
        refine ⟨u, .inl (.float hf ?_ hc), (floatForm_numeric hf).1, rfl⟩
        intro j hj
        unfold parseInt at h2
        rcases hb : after0b (u ++ r) with _ | r0
        · rw [hb] at h2
          obtain ⟨i', r', hlong, hle⟩ := strtol_longest (r := r) hj
          simp only [hlong, checkInt] at h2
          split at h2
          · simp only [Outcome.ok.injEq] at h2
            subst h2
            simp only at hlt hle
            omega
          · simp at h2
        · -- the literal is the zero of `0b`
          rw [hb] at h2
          have h0 := after0b_some hb
          have hle : i.2.length ≤ r0.length := by
            simp only [checkInt] at h2
            split at h2
            · simp only [Outcome.ok.injEq] at h2
              rw [← h2]
            · split at h2
              · rename_i i' r' hst' _
                simp only [Outcome.ok.injEq] at h2
                obtain ⟨g, s, neg, d, n, _, _, _, _, hr0, _⟩ := strtol_binary hst'
                rw [← h2, hr0]; simp; omega
              · simp at h2
          have hu : u.length ≤ 1 := by
            by_contra hcon
            match u, hcon with
            | [], hcon => simp at hcon
            | [_], hcon => simp at hcon
            | c :: c' :: u, hcon =>
              have hc' : c' = 'b' := (List.cons.inj (List.cons.inj h0).2).1
              subst hc'
              have hc : c = '0' := (List.cons.inj h0).1
              subst hc
              have := float_not_binary (r := []) hf (by simp)
              rw [List.append_nil] at this
              -- such an integer is not possible
              have hii := intForm_iff.mp hj
              obtain ⟨s, neg, dd, n, hsg, hbody, hud, _⟩ := hii
              have hs0 : s = [] := by
                cases hsg with
                | none => rfl
                | plus => exact absurd (List.cons.inj hud).1 (by decide)
                | minus => exact absurd (List.cons.inj hud).1 (by decide)
              subst hs0
              rw [List.nil_append] at hud
              subst hud
              cases hbody with
              | decimal hn h1 h2 => exact h2 rfl
              | octal hn =>
                have := ((number_iff (by norm_num)).mp hn).1 'b' (by simp)
                revert this; decide
              | hex hx hn h1 => rcases hx with hx | hx <;> exact absurd hx (by decide)
          have : (u ++ r).length = r0.length + 2 := by rw [h0]; simp
          rw [List.length_append] at this
          simp only at hlt
          omega
  · split at h
    · rename_i i' hi'
      simp only [Option.some.injEq, Prod.mk.injEq] at h
      obtain ⟨rfl, rfl⟩ := h
      have h2' : parseInt t = .ok (some i', i.2) := by rw [h2, ← hi']
      unfold parseInt at h2'
      rcases hb : after0b t with _ | r0
      · rw [hb] at h2'
        obtain ⟨h3, hl⟩ := checkInt_ok h2'
        obtain ⟨u, hf, ht⟩ := strtol_sound hs h3
        exact ⟨u, .inl (.int hf hl), intForm_ne_nil hf, ht⟩
      · rw [hb] at h2'
        obtain ⟨h3, hl⟩ := checkInt_ok h2'
        have h0 := after0b_some hb
        obtain ⟨g, s, neg, d', n, hg, hsg, hn, hne, hr0, rfl⟩ := strtol_binary h3
        by_cases hgs : g ++ s = []
        · obtain ⟨rfl, rfl⟩ := List.append_eq_nil_iff.mp hgs
          cases hsg with
          | none =>
            refine ⟨'0' :: 'b' :: d', .inl (.binary ⟨d', n, hn, hne, rfl, by simp⟩ hl), by simp, ?_⟩
            rw [h0, hr0]; simp
        · refine ⟨'0' :: 'b' :: g ++ s ++ d', .inr ⟨g, s, neg, d', n, fun c hc => isSpace_iff.mp (hg c hc), hsg, hn, hne, hgs, rfl, rfl⟩, by simp, ?_⟩
          rw [h0, hr0]; simp
    · simp at h

end Rampack.Pyon
