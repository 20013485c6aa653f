import Verif.Pyon.ParserSpec
import Verif.OutcomeLemmas
import Mathlib.Data.List.TakeWhile
import Mathlib.Data.List.Infix
import Mathlib.Tactic.IntervalCases
import Mathlib.Tactic.Linarith
import Mathlib.Tactic.Ring
import Mathlib.Tactic.NormNum
/-
Lemmas on the literals of numbers: what `strtol` and `strtod` take is what the grammar says.
-/
namespace Rampack.Pyon

open Rampack Spec

/-! ### Splitting texts -/

theorem span_append {p : Char → Bool} {d r : Text} (hd : ∀ c ∈ d, p c = true) (hr : ∀ c ∈ r.head?, p c = false) :
    (d ++ r).takeWhile p = d ∧ (d ++ r).dropWhile p = r := by
  induction d with
  | nil =>
    cases r with
    | nil => simp
    | cons c r => have := hr c rfl; simp [this]
  | cons c d ih =>
    have hc := hd c List.mem_cons_self
    obtain ⟨h1, h2⟩ := ih fun c hc => hd c (List.mem_cons_of_mem _ hc)
    simp [hc, h1, h2]

theorem span_head {p : Char → Bool} {t : Text} : ∀ c ∈ (t.dropWhile p).head?, p c = false := by
  induction t with
  | nil => simp
  | cons c t ih =>
    by_cases h : p c = true
    · simpa [h] using ih
    · intro d hd
      simp only [h, List.dropWhile_cons, Bool.false_eq_true, if_false, List.head?_cons, Option.mem_some_iff] at hd
      simpa [hd] using h

theorem span_mem {p : Char → Bool} {t : Text} : ∀ c ∈ t.takeWhile p, p c = true := fun _ hc => List.mem_takeWhile_imp hc

/-- What is skipped is the longest. -/
theorem span_longest {p : Char → Bool} : ∀ {h r : Text}, (∀ c ∈ h, p c = true) → ((h ++ r).dropWhile p).length ≤ r.length
  | [], r, _ => List.length_dropWhile_le p r
  | c :: h, r, hh => by
    have hc := hh c List.mem_cons_self
    simp only [List.cons_append, List.dropWhile_cons, hc, if_true]
    exact span_longest fun c hc => hh c (List.mem_cons_of_mem _ hc)

/-- Two splittings of a text, the first one at a character of which the other one has none. -/
theorem prefix_of_stop {p : Char → Prop} {u r u' r' : Text} (h : u ++ r = u' ++ r') (hu' : ∀ c ∈ u', p c) (hr : ∀ c ∈ r.head?, ¬ p c) :
    ∃ w, u = u' ++ w ∧ r' = w ++ r := by
  rcases List.append_eq_append_iff.mp h with ⟨w, h1, h2⟩ | ⟨w, h1, h2⟩
  · cases w with
    | nil => exact ⟨[], by simpa using h1.symm, by simpa using h2.symm⟩
    | cons c w =>
      exact absurd (hu' c (by rw [h1]; simp)) (hr c (by rw [h2]; simp))
  · exact ⟨w, h1, h2⟩

/-! ### Digits -/

theorem char_lt {P : Char → Prop} (n : Nat) (h : ∀ k, k < n → P (Char.ofNat k)) (c : Char) (hc : c.toNat < n) : P c := by
  have := h c.toNat hc
  rwa [Char.ofNat_toNat] at this

theorem le_toNat {a b : Char} (h : a ≤ b) : a.toNat ≤ b.toNat := h

theorem isHex_lt {c : Char} (h : isHex c = true) : c.toNat < 128 := by
  simp only [isHex, isDec, Bool.or_eq_true, Bool.and_eq_true, decide_eq_true_eq] at h
  rcases h with (h | h) | h
  · have := le_toNat h.2; have e : ('9' : Char).toNat = 57 := rfl; omega
  · have := le_toNat h.2; have e : ('f' : Char).toNat = 102 := rfl; omega
  · have := le_toNat h.2; have e : ('F' : Char).toNat = 70 := rfl; omega

instance (b : Nat) (c : Char) (k : Nat) : Decidable (IsDigit b c k) := by unfold IsDigit; exact inferInstance

set_option maxRecDepth 4000 in
theorem isHex_digit {c : Char} (h : isHex c = true) : IsDigit 16 c (hexVal c) := by
  have key : ∀ k, k < 128 → isHex (Char.ofNat k) = true → IsDigit 16 (Char.ofNat k) (hexVal (Char.ofNat k)) := by decide
  exact char_lt (P := fun c => isHex c = true → IsDigit 16 c (hexVal c)) 128 key c (isHex_lt h) h

theorem digit_hex {b : Nat} {c : Char} {k : Nat} (hb : b ≤ 16) (h : IsDigit b c k) : isHex c = true ∧ hexVal c = k := by
  obtain ⟨hk, h⟩ := h
  have hk : k < 16 := by omega
  interval_cases k <;> (rcases h with h | h <;> (simp at h; subst h; decide))

theorem isDigit_iff {b : Nat} (hb : b ≤ 16) {c : Char} : isDigit b c = true ↔ IsDigit b c (hexVal c) := by
  constructor
  · intro h
    simp only [isDigit, Bool.and_eq_true, decide_eq_true_eq] at h
    exact ⟨h.2, (isHex_digit h.1).2⟩
  · intro h
    have := digit_hex hb h
    simp only [isDigit, Bool.and_eq_true, decide_eq_true_eq]
    exact ⟨this.1, h.1⟩

theorem value_snoc (b : Nat) (t : Text) (c : Char) : value b (t ++ [c]) = b * value b t + hexVal c := by
  simp [value, List.foldl_append]

theorem value_zero (b : Nat) (t : Text) : value b ('0' :: t) = value b t := by
  have : hexVal '0' = 0 := by decide
  simp [value, this]

theorem number_iff {b : Nat} (hb : b ≤ 16) {t : Text} {n : Nat} : Number b t n ↔ (∀ c ∈ t, isDigit b c = true) ∧ n = value b t := by
  constructor
  · intro h
    induction h with
    | nil => exact ⟨by simp, rfl⟩
    | @snoc t n c k h hd ih =>
      have hk := digit_hex hb hd
      refine ⟨?_, by rw [value_snoc, ih.2, hk.2]⟩
      intro d hd'
      rcases List.mem_append.mp hd' with hd' | hd'
      · exact ih.1 d hd'
      · have hdc : d = c := by simpa using hd'
        rw [hdc, isDigit_iff hb, hk.2]; exact hd
  · rintro ⟨h1, rfl⟩
    induction t using List.reverseRecOn with
    | nil => exact .nil
    | append_singleton t c ih =>
      rw [value_snoc]
      exact .snoc (ih fun d hd => h1 d (List.mem_append_left _ hd)) ((isDigit_iff hb).mp (h1 c (by simp)))

theorem number_of {b : Nat} (hb : b ≤ 16) {t : Text} (h : ∀ c ∈ t, isDigit b c = true) : Number b t (value b t) := (number_iff hb).mpr ⟨h, rfl⟩

theorem startsWithDigit_iff {b : Nat} {t : Text} : startsWithDigit b t = true ↔ ∃ c r, t = c :: r ∧ isDigit b c = true := by
  cases t with
  | nil => simp [startsWithDigit]
  | cons c t => simp [startsWithDigit]

theorem startsWithDigit_append {b : Nat} {d r : Text} (hd : d ≠ []) (h : ∀ c ∈ d, isDigit b c = true) : startsWithDigit b (d ++ r) = true := by
  cases d with
  | nil => exact absurd rfl hd
  | cons c d => exact h c List.mem_cons_self

theorem digits_sound {b : Nat} (hb : b ≤ 16) {t : Text} {n : Nat} {r : Text} (h : digits b t = some (n, r)) :
    ∃ d, d ≠ [] ∧ Number b d n ∧ t = d ++ r ∧ (∀ c ∈ r.head?, isDigit b c = false) ∧ r = t.dropWhile (isDigit b) := by
  unfold digits at h
  split at h
  · rename_i hs
    simp only [Option.some.injEq, Prod.mk.injEq] at h
    obtain ⟨rfl, rfl⟩ := h
    refine ⟨t.takeWhile (isDigit b), ?_, number_of hb span_mem, List.takeWhile_append_dropWhile.symm, span_head, rfl⟩
    obtain ⟨c, r, rfl, hc⟩ := startsWithDigit_iff.mp hs
    simp [hc]
  · exact absurd h (by simp)

theorem digits_complete {b : Nat} (hb : b ≤ 16) {d r : Text} {n : Nat} (hd : d ≠ []) (hn : Number b d n) (hr : ∀ c ∈ r.head?, isDigit b c = false) :
    digits b (d ++ r) = some (n, r) := by
  obtain ⟨h1, h2⟩ := (number_iff hb).mp hn
  unfold digits
  rw [if_pos (startsWithDigit_append hd h1), (span_append h1 hr).1, (span_append h1 hr).2, h2]

/-! ### Signs -/

theorem takeSign_sound (t : Text) : ∃ s, Signed s (takeSign t).1 ∧ t = s ++ (takeSign t).2 := by
  cases t with
  | nil => exact ⟨[], .none, rfl⟩
  | cons c t =>
    simp only [takeSign]
    split
    · subst_vars; exact ⟨['-'], .minus, rfl⟩
    · split
      · subst_vars; exact ⟨['+'], .plus, rfl⟩
      · exact ⟨[], .none, rfl⟩

theorem takeSign_complete {s r : Text} {neg : Bool} (h : Signed s neg) (hr : ∀ c ∈ r.head?, c ≠ '-' ∧ c ≠ '+') : takeSign (s ++ r) = (neg, r) := by
  cases h with
  | none =>
    cases r with
    | nil => rfl
    | cons c r =>
      have := hr c rfl
      show takeSign (c :: r) = _
      simp only [takeSign]
      rw [if_neg this.1, if_neg this.2]
  | plus => rfl
  | minus => rfl

theorem digit_not_sign {b : Nat} (hb : b ≤ 16) {c : Char} (h : isDigit b c = true) : c ≠ '-' ∧ c ≠ '+' := by
  constructor <;> (rintro rfl; have := digit_hex hb ((isDigit_iff hb).mp h); revert this; decide)

/-! ### Integers -/

/-- Integers without the sign. -/
inductive IntBody : Text → Nat → Prop where
  | decimal {d : Text} {n : Nat} : Number 10 d n → d ≠ [] → d.head? ≠ some '0' → IntBody d n
  | octal {d : Text} {n : Nat} : Number 8 d n → IntBody ('0' :: d) n
  | hex {d : Text} {x : Char} {n : Nat} : x = 'x' ∨ x = 'X' → Number 16 d n → d ≠ [] → IntBody ('0' :: x :: d) n

theorem intForm_iff {t : Text} {i : Int} : IntForm t i ↔ ∃ s neg d n, Signed s neg ∧ IntBody d n ∧ t = s ++ d ∧ i = if neg then -(n : Int) else n := by
  constructor
  · intro h
    cases h with
    | decimal hs hn h1 h2 => exact ⟨_, _, _, _, hs, .decimal hn h1 h2, rfl, rfl⟩
    | octal hs hn => exact ⟨_, _, _, _, hs, .octal hn, rfl, rfl⟩
    | hex hs hx hn h1 => exact ⟨_, _, _, _, hs, .hex hx hn h1, rfl, rfl⟩
  · rintro ⟨s, neg, d, n, hs, hb, rfl, rfl⟩
    cases hb with
    | decimal hn h1 h2 => exact .decimal hs hn h1 h2
    | octal hn => exact .octal hs hn
    | hex hx hn h1 => exact .hex hs hx hn h1

theorem isDigit_mono {b b' : Nat} (h : b ≤ b') {c : Char} (hc : isDigit b c = true) : isDigit b' c = true := by
  simp only [isDigit, Bool.and_eq_true, decide_eq_true_eq] at *
  exact ⟨hc.1, by omega⟩

theorem digit_not_x {b : Nat} (hb : b ≤ 16) {c : Char} (h : isDigit b c = true) : c ≠ 'x' ∧ c ≠ 'X' ∧ c ≠ '.' := by
  refine ⟨?_, ?_, ?_⟩ <;> (rintro rfl; have := digit_hex hb ((isDigit_iff hb).mp h); revert this; decide)

theorem number_zero {d : Text} {n : Nat} {b : Nat} (h0 : 0 < b) (hb : b ≤ 16) (h : Number b d n) : Number b ('0' :: d) n := by
  rw [number_iff hb] at *
  rw [value_zero]
  refine ⟨?_, h.2⟩
  intro c hc
  rcases List.mem_cons.mp hc with rfl | hc
  · have : hexVal '0' = 0 := by decide
    simp only [isDigit, Bool.and_eq_true, decide_eq_true_eq, this]
    exact ⟨by decide, h0⟩
  · exact h.1 c hc

theorem zero_number {d : Text} {n : Nat} {b : Nat} (hb : b ≤ 16) (h : Number b ('0' :: d) n) : Number b d n := by
  rw [number_iff hb] at *
  rw [value_zero] at h
  exact ⟨fun c hc => h.1 c (List.mem_cons_of_mem _ hc), h.2⟩

theorem after0x_some {t r : Text} (h : after0x t = some r) : ∃ x, (x = 'x' ∨ x = 'X') ∧ t = '0' :: x :: r := by
  unfold after0x at h
  split at h
  · split at h
    · rename_i hc
      simp only [Option.some.injEq] at h
      exact ⟨_, hc.2, by rw [hc.1, h]⟩
    · exact absurd h (by simp)
  · exact absurd h (by simp)

theorem after0x_of {x : Char} {r : Text} (h : x = 'x' ∨ x = 'X') : after0x ('0' :: x :: r) = some r := by
  simp [after0x, h]

theorem after0x_none {t : Text} (h : ∀ x r, x = 'x' ∨ x = 'X' → t ≠ '0' :: x :: r) : after0x t = none := by
  rcases h' : after0x t with _ | r
  · rfl
  · obtain ⟨x, hx, ht⟩ := after0x_some h'
    exact absurd ht (h x r hx)

theorem autoDigits_sound {t r : Text} {n : Nat} (h : autoDigits t = some (n, r)) : ∃ d, IntBody d n ∧ t = d ++ r := by
  unfold autoDigits at h
  split at h
  · rename_i r0 h0
    obtain ⟨x, hx, rfl⟩ := after0x_some h0
    split at h
    · obtain ⟨d, hd, hn, rfl, _⟩ := digits_sound (by norm_num) h
      exact ⟨'0' :: x :: d, .hex hx hn hd, rfl⟩
    · obtain ⟨d, hd, hn, ht, _⟩ := digits_sound (by norm_num) h
      cases d with
      | nil => exact absurd rfl hd
      | cons c d =>
        obtain ⟨rfl, ht⟩ := List.cons.inj ht
        exact ⟨'0' :: d, .octal (zero_number (by norm_num) hn), by rw [ht]⟩
  · split at h
    · rename_i h0
      obtain ⟨d, hd, hn, ht, _⟩ := digits_sound (by norm_num) h
      cases d with
      | nil => exact absurd rfl hd
      | cons c d =>
        rw [ht] at h0
        simp only [List.cons_append, List.head?_cons, Option.some.injEq] at h0
        subst h0
        exact ⟨'0' :: d, .octal (zero_number (by norm_num) hn), ht⟩
    · rename_i h0
      obtain ⟨d, hd, hn, ht, _⟩ := digits_sound (by norm_num) h
      refine ⟨d, .decimal hn hd ?_, ht⟩
      intro hh
      apply h0
      rw [ht]
      cases d with
      | nil => exact absurd rfl hd
      | cons c d => exact hh

/-- `strtol` takes the longest integer. -/
theorem autoDigits_longest {d' r' : Text} {n' : Nat} (hb : IntBody d' n') : ∃ n r, autoDigits (d' ++ r') = some (n, r) ∧ r.length ≤ r'.length := by
  cases hb with
  | decimal hn h1 h2 =>
    obtain ⟨hd, hv⟩ := (number_iff (by norm_num)).mp hn
    have hx : after0x (d' ++ r') = none := after0x_none (by
      intro x r _ h
      cases d' with
      | nil => exact h1 rfl
      | cons c d => exact h2 (by rw [(List.cons.inj h).1]; rfl))
    have h0 : (d' ++ r').head? ≠ some '0' := by
      cases d' with
      | nil => exact absurd rfl h1
      | cons c d => exact h2
    unfold autoDigits
    rw [hx]
    simp only [if_neg h0]
    unfold digits
    rw [if_pos (startsWithDigit_append h1 hd)]
    exact ⟨_, _, rfl, span_longest hd⟩
  | @octal d _ hn =>
    obtain ⟨hd, hv⟩ := (number_iff (by norm_num)).mp (number_zero (by norm_num) (by norm_num) hn)
    have hdig : ∃ n r, digits 8 ('0' :: d ++ r') = some (n, r) ∧ r.length ≤ r'.length := by
      unfold digits
      rw [if_pos (startsWithDigit_append (by simp) hd)]
      exact ⟨_, _, rfl, span_longest hd⟩
    unfold autoDigits
    split
    · rename_i r0 h0
      obtain ⟨x, hx, h0⟩ := after0x_some h0
      split
      · rename_i hs
        -- the digits of the octal number end at the x
        have hd0 : d = [] := by
          cases d with
          | nil => rfl
          | cons c d =>
            obtain ⟨hc, _⟩ := List.cons.inj (List.cons.inj h0).2
            have := digit_not_x (b := 8) (by norm_num) (hd c (by simp))
            rcases hx with rfl | rfl
            · exact absurd hc this.1
            · exact absurd hc this.2.1
        subst hd0
        have hr' : r' = x :: r0 := (List.cons.inj h0).2
        unfold digits
        rw [if_pos hs]
        refine ⟨_, _, rfl, ?_⟩
        have := List.length_dropWhile_le (isDigit 16) r0
        rw [hr']; simp only [List.length_cons]; omega
      · exact hdig
    · simp only [List.cons_append, List.head?_cons, if_true]
      exact hdig
  | @hex d x _ hx hn h1 =>
    obtain ⟨hd, hv⟩ := (number_iff (by norm_num)).mp hn
    unfold autoDigits
    rw [show '0' :: x :: d ++ r' = '0' :: x :: (d ++ r') from rfl, after0x_of hx]
    simp only [startsWithDigit_append h1 hd, if_true]
    unfold digits
    rw [if_pos (startsWithDigit_append h1 hd)]
    exact ⟨_, _, rfl, span_longest hd⟩

/-- The characters of numbers. -/
def Numeric (c : Char) : Prop := isHex c = true ∨ c ∈ ['+', '-', '.', 'x', 'X', 'p', 'P']

theorem numeric_of_digit {b : Nat} {c : Char} (h : isDigit b c = true) : Numeric c := by
  simp only [isDigit, Bool.and_eq_true] at h
  exact .inl h.1

theorem signed_numeric {s : Text} {neg : Bool} (h : Signed s neg) : ∀ c ∈ s, Numeric c := by
  cases h <;> intro c hc <;> simp at hc <;> subst hc <;> exact .inr (by simp)

theorem number_numeric {b : Nat} (hb : b ≤ 16) {d : Text} {n : Nat} (h : Number b d n) : ∀ c ∈ d, Numeric c :=
  fun c hc => numeric_of_digit (((number_iff hb).mp h).1 c hc)

theorem intBody_numeric {d : Text} {n : Nat} (h : IntBody d n) : ∀ c ∈ d, Numeric c := by
  cases h with
  | decimal hn _ _ => exact number_numeric (by norm_num) hn
  | octal hn => exact number_numeric (by norm_num) (number_zero (by norm_num) (by norm_num) hn)
  | hex hx hn _ =>
    intro c hc
    rcases List.mem_cons.mp hc with rfl | hc
    · exact .inl (by decide)
    · rcases List.mem_cons.mp hc with rfl | hc
      · rcases hx with rfl | rfl <;> exact .inr (by simp)
      · exact number_numeric (by norm_num) hn c hc

theorem intForm_numeric {t : Text} {i : Int} (h : IntForm t i) : ∀ c ∈ t, Numeric c := by
  obtain ⟨s, neg, d, n, hs, hb, rfl, _⟩ := intForm_iff.mp h
  intro c hc
  rcases List.mem_append.mp hc with hc | hc
  · exact signed_numeric hs c hc
  · exact intBody_numeric hb c hc

theorem intBody_head {d : Text} {n : Nat} (h : IntBody d n) : ∃ c r, d = c :: r ∧ isDigit 10 c = true := by
  have key : ∀ d : Text, d ≠ [] → (∀ c ∈ d, isDigit 10 c = true) → ∃ c r, d = c :: r ∧ isDigit 10 c = true := by
    intro d h1 h2
    cases d with
    | nil => exact absurd rfl h1
    | cons c d => exact ⟨c, d, rfl, h2 c List.mem_cons_self⟩
  cases h with
  | decimal hn h1 _ => exact key _ h1 ((number_iff (by norm_num)).mp hn).1
  | octal hn => exact ⟨'0', _, rfl, by decide⟩
  | hex hx hn _ => exact ⟨'0', _, rfl, by decide⟩

theorem autoDigits_complete {d r : Text} {n : Nat} (hb : IntBody d n) (hr : ∀ c ∈ r.head?, ¬ Numeric c) : autoDigits (d ++ r) = some (n, r) := by
  have hr' : ∀ b, ∀ c ∈ r.head?, isDigit b c = false := by
    intro b c hc
    by_contra hcon
    exact hr c hc (numeric_of_digit (by simpa using hcon))
  cases hb with
  | decimal hn h1 h2 =>
    have hx : after0x (d ++ r) = none := after0x_none (by
      intro x r _ h
      cases d with
      | nil => exact h1 rfl
      | cons c d => exact h2 (by rw [(List.cons.inj h).1]; rfl))
    have h0 : (d ++ r).head? ≠ some '0' := by
      cases d with
      | nil => exact absurd rfl h1
      | cons c d => exact h2
    unfold autoDigits
    rw [hx]
    simp only [if_neg h0]
    exact digits_complete (by norm_num) h1 hn (hr' 10)
  | @octal d _ hn =>
    have hx : after0x ('0' :: d ++ r) = none := after0x_none (by
      intro x r0 hx h
      have h : d ++ r = x :: r0 := (List.cons.inj h).2
      cases d with
      | nil =>
        rw [List.nil_append] at h
        exact hr x (by rw [h]; rfl) (.inr (by rcases hx with rfl | rfl <;> simp))
      | cons c d =>
        have hc : c = x := (List.cons.inj h).1
        have := digit_not_x (b := 8) (by norm_num) (((number_iff (by norm_num)).mp hn).1 c (by simp))
        rcases hx with rfl | rfl
        · exact this.1 hc
        · exact this.2.1 hc)
    unfold autoDigits
    rw [hx]
    simp only [List.cons_append, List.head?_cons, if_true]
    exact digits_complete (d := '0' :: d) (by norm_num) (by simp) (number_zero (by norm_num) (by norm_num) hn) (hr' 8)
  | @hex d x _ hx hn h1 =>
    unfold autoDigits
    rw [show '0' :: x :: d ++ r = '0' :: x :: (d ++ r) from rfl, after0x_of hx]
    simp only [startsWithDigit_append h1 ((number_iff (by norm_num)).mp hn).1, if_true]
    exact digits_complete (by norm_num) h1 hn (hr' 16)

theorem numeric_not_space {c : Char} (h : Numeric c) : isSpace c = false := by
  rcases h with h | h
  · exact char_lt (P := fun c => isHex c = true → isSpace c = false) 128 (by decide) c (isHex_lt h) h
  · simp at h
    rcases h with rfl | rfl | rfl | rfl | rfl | rfl | rfl <;> decide

/-- The text does not begin with white space. -/
def NoSpace (t : Text) : Prop := ∀ c ∈ t.head?, isSpace c = false

theorem noSpace_drop {t : Text} (h : NoSpace t) : t.dropWhile isSpace = t := by
  cases t with
  | nil => rfl
  | cons c t => have := h c rfl; simp [this]

theorem noSpace_append {u r : Text} (hu : u ≠ []) (h : ∀ c ∈ u, Numeric c) : NoSpace (u ++ r) := by
  cases u with
  | nil => exact absurd rfl hu
  | cons c u =>
    intro d hd
    have : d = c := by simpa using hd.symm
    rw [this]
    exact numeric_not_space (h c List.mem_cons_self)

theorem strtol_sound {t r : Text} {i : Int} (hs : NoSpace t) (h : strtol false t = some (i, r)) : ∃ u, IntForm u i ∧ t = u ++ r := by
  unfold strtol at h
  rw [noSpace_drop hs] at h
  obtain ⟨s, h1, h2⟩ := takeSign_sound t
  simp only [Bool.false_eq_true, if_false] at h
  split at h
  · rename_i n r' hd
    simp only [Option.some.injEq, Prod.mk.injEq] at h
    obtain ⟨rfl, rfl⟩ := h
    obtain ⟨d, hb, hd⟩ := autoDigits_sound hd
    refine ⟨s ++ d, intForm_iff.mpr ⟨s, _, d, n, h1, hb, rfl, rfl⟩, ?_⟩
    rw [List.append_assoc, ← hd]; exact h2
  · exact absurd h (by simp)

theorem intBody_not_sign {d r : Text} {n : Nat} (hb : IntBody d n) : ∀ c ∈ (d ++ r).head?, c ≠ '-' ∧ c ≠ '+' := by
  obtain ⟨c, r', rfl, hc⟩ := intBody_head hb
  intro d hd
  have : d = c := by simpa using hd.symm
  rw [this]
  exact digit_not_sign (by norm_num) hc

theorem intForm_ne_nil {t : Text} {i : Int} (h : IntForm t i) : t ≠ [] := by
  obtain ⟨s, neg, d, n, hs, hb, rfl, _⟩ := intForm_iff.mp h
  obtain ⟨c, r', rfl, hc⟩ := intBody_head hb
  simp

theorem strtol_complete {u r : Text} {i : Int} (h : IntForm u i) (hr : ∀ c ∈ r.head?, ¬ Numeric c) : strtol false (u ++ r) = some (i, r) := by
  have hn := noSpace_append (r := r) (intForm_ne_nil h) (intForm_numeric h)
  obtain ⟨s, neg, d, n, hs, hb, rfl, rfl⟩ := intForm_iff.mp h
  unfold strtol
  rw [noSpace_drop hn, List.append_assoc, takeSign_complete hs (intBody_not_sign hb)]
  simp only [Bool.false_eq_true, if_false, autoDigits_complete hb hr]
  rfl

theorem strtol_longest {u r : Text} {i : Int} (h : IntForm u i) : ∃ i' r', strtol false (u ++ r) = some (i', r') ∧ r'.length ≤ r.length := by
  have hn := noSpace_append (r := r) (intForm_ne_nil h) (intForm_numeric h)
  obtain ⟨s, neg, d, n, hs, hb, rfl, rfl⟩ := intForm_iff.mp h
  obtain ⟨n', r', h1, h2⟩ := autoDigits_longest (r' := r) hb
  unfold strtol
  rw [noSpace_drop hn, List.append_assoc, takeSign_complete hs (intBody_not_sign hb)]
  simp only [Bool.false_eq_true, if_false, h1]
  exact ⟨_, _, rfl, h2⟩

theorem strtol_binary {r : Text} {t : Text} {i : Int} (h : strtol true t = some (i, r)) :
    ∃ g s neg d n, (∀ c ∈ g, isSpace c = true) ∧ Signed s neg ∧ Number 2 d n ∧ d ≠ [] ∧ t = g ++ s ++ d ++ r ∧ i = if neg then -(n : Int) else n := by
  unfold strtol at h
  obtain ⟨s, h1, h2⟩ := takeSign_sound (t.dropWhile isSpace)
  simp only [if_true] at h
  split at h
  · rename_i n r' hd
    simp only [Option.some.injEq, Prod.mk.injEq] at h
    obtain ⟨rfl, rfl⟩ := h
    obtain ⟨d, hne, hn, hd, _⟩ := digits_sound (by norm_num) hd
    refine ⟨t.takeWhile isSpace, s, _, d, n, span_mem, h1, hn, hne, ?_, rfl⟩
    have h3 := (List.takeWhile_append_dropWhile (p := isSpace) (l := t)).symm
    rw [h2, hd] at h3
    rw [List.append_assoc, List.append_assoc]; exact h3
  · exact absurd h (by simp)

theorem strtol_binary_complete {d r : Text} {n : Nat} (hn : Number 2 d n) (hd : d ≠ []) (hr : ∀ c ∈ r.head?, ¬ Numeric c) :
    strtol true (d ++ r) = some ((n : Int), r) := by
  have hall := ((number_iff (by norm_num)).mp hn).1
  have hns : NoSpace (d ++ r) := noSpace_append hd (number_numeric (by norm_num) hn)
  have hsg : takeSign ([] ++ (d ++ r)) = (false, d ++ r) := takeSign_complete .none (by
    cases d with
    | nil => exact absurd rfl hd
    | cons c d =>
      intro c' hc'
      have : c' = c := by simpa using hc'.symm
      rw [this]
      exact digit_not_sign (b := 2) (by norm_num) (hall c List.mem_cons_self))
  unfold strtol
  rw [noSpace_drop hns, show d ++ r = [] ++ (d ++ r) from rfl, hsg]
  simp only [if_true]
  rw [digits_complete (by norm_num) hd hn (by
    intro c hc
    by_contra hcon
    exact hr c hc (numeric_of_digit (b := 2) (by simpa using hcon)))]
  rfl

end Rampack.Pyon
