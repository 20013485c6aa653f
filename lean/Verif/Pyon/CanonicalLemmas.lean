import Verif.Pyon.CompleteLemmas
/-
The canonical forms of values belong to the grammar.
-/
namespace Rampack.Pyon

open Rampack Spec

variable {F : Type} {conv : ℚ → Option F}

/-! ### Numbers -/

theorem number_lt {b : Nat} {d : Text} {n : Nat} (h : Number b d n) : n < b ^ d.length := by
  induction h with
  | nil => simp
  | @snoc t n c k _ hk ih =>
    have h1 : b * n + k < b * (n + 1) := by have := hk.1; rw [Nat.mul_add]; omega
    have h2 : b * (n + 1) ≤ b * b ^ t.length := Nat.mul_le_mul_left b ih
    rw [List.length_append, List.length_singleton, pow_succ, Nat.mul_comm (b ^ _)]
    omega

theorem signed_unique {s d s' d' : Text} {neg neg' : Bool} (hs : Signed s neg) (hs' : Signed s' neg') (hd : ∀ c ∈ d.head?, c ≠ '-' ∧ c ≠ '+')
    (hd' : ∀ c ∈ d'.head?, c ≠ '-' ∧ c ≠ '+') (h : s ++ d = s' ++ d') : d = d' := by
  have h1 := takeSign_complete hs hd
  have h2 := takeSign_complete hs' hd'
  rw [h, h2] at h1
  exact (Prod.mk.inj h1).2.symm

/-- Integers at the beginning of a decimal literal consist of its digits before the point. -/
theorem int_prefix {s a b p x u r : Text} {neg : Bool} {k i : Int} (hs : Signed s neg) (hd : ∀ c ∈ a ++ b, isDigit 10 c = true) (hne : a ++ b ≠ [])
    (hp : Fraction p b) (hx : Exponent ['e', 'E'] x k) (h : s ++ (a ++ p ++ x) = u ++ r) (hi : IntForm u i) :
    (∃ w, r = w ++ (p ++ x)) ∧ i.natAbs < 10 ^ a.length := by
  obtain ⟨s', neg', d, n, hs', hb, rfl, rfl⟩ := intForm_iff.mp hi
  have hhead : ∀ c ∈ (a ++ p ++ x).head?, c ≠ '-' ∧ c ≠ '+' := by
    obtain ⟨c, r0, h0, hc⟩ := floatBody_head (neg := neg) (.decimal hd hne hp hx)
    rw [h0]
    intro c' hc'
    have : c' = c := by simpa using hc'.symm
    rw [this]
    exact (lower_head hc).2.2
  rw [List.append_assoc s' d r] at h
  have h := signed_unique hs hs' hhead (intBody_not_sign hb) h
  have hstop : ∀ c ∈ (p ++ x).head?, ¬ isDigit 10 c = true := by
    intro c hc
    rcases hp with ⟨rfl, _⟩ | rfl
    · rcases hx with ⟨rfl, _⟩ | ⟨e, s, neg, d, n, he, _, _, _, rfl, _⟩
      · simp at hc
      · have : c = e := by simpa using hc.symm
        rw [this]
        simp at he
        rcases he with rfl | rfl <;> decide
    · have : c = '.' := by simpa using hc.symm
      rw [this]; decide
  have habs : ∀ (neg : Bool) (n : Nat), (if neg then -(n : Int) else n).natAbs = n := by
    intro neg n
    cases neg <;> simp
  rw [habs]
  have key : (∀ c ∈ d, isDigit 10 c = true) → n < 10 ^ d.length → (∃ w, r = w ++ (p ++ x)) ∧ n < 10 ^ a.length := by
    intro h1 h2
    rw [List.append_assoc] at h
    obtain ⟨w, ha, hr⟩ := prefix_of_stop h h1 hstop
    refine ⟨⟨w, hr⟩, lt_of_lt_of_le h2 (Nat.pow_le_pow_right (by norm_num) ?_)⟩
    rw [ha]; simp
  cases hb with
  | decimal hn h1 h2 => exact key ((number_iff (by norm_num)).mp hn).1 (number_lt hn)
  | @octal d n hn =>
    have h8 := number_zero (by norm_num) (by norm_num) hn
    refine key (fun c hc => isDigit_mono (by norm_num) (((number_iff (by norm_num)).mp h8).1 c hc)) ?_
    exact lt_of_lt_of_le (number_lt h8) (Nat.pow_le_pow_left (by norm_num) _)
  | @hex d y n hy hn h1 =>
    exfalso
    have := decimal_not_hex (r := []) hd hne hp hx (by simp)
    rw [List.append_nil, h, List.cons_append, List.cons_append, after0x_of hy] at this
    simp at this

theorem literal_plain {t : Text} {d : F} (h : FloatLiteral conv t d) : PlainNumeral conv t (.float d) := by
  obtain ⟨s, neg, a, b, p, x, n, k, hs, hn, hne, hp, hx, hpx, ha, rfl, hc⟩ := h
  have hd := ((number_iff (by norm_num)).mp hn).1
  have e : s ++ a ++ p ++ x = s ++ (a ++ p ++ x) := by simp
  refine ⟨.float (.decimal hs hn hne hp hx) ?_ hc, ?_⟩
  · intro i hi
    rw [e] at hi
    obtain ⟨⟨w, hw⟩, _⟩ := int_prefix (r := []) hs hd hne hp hx (by simp) hi
    exact hpx (List.append_eq_nil_iff.mp hw.symm).2
  · rintro - - u r i hu hi
    rw [e] at hu
    obtain ⟨_, hlt⟩ := int_prefix hs hd hne hp hx hu hi
    have h18 : 10 ^ a.length ≤ 10 ^ 18 := Nat.pow_le_pow_right (by norm_num) ha
    have : i.natAbs < 10 ^ 18 := lt_of_lt_of_le hlt h18
    unfold InLong
    omega

theorem digit_char : ∀ k < 10, IsDigit 10 (Char.ofNat (48 + k)) k := by
  intro k hk
  have h1 : hexVal (Char.ofNat (48 + k)) = k := by interval_cases k <;> decide
  have h2 : isDigit 10 (Char.ofNat (48 + k)) = true := by interval_cases k <;> decide
  have := (isDigit_iff (b := 10) (by norm_num)).mp h2
  rwa [h1] at this

theorem decimalText_number (n : Nat) : Number 10 (decimalText n) n ∧ decimalText n ≠ [] := by
  induction n using Nat.strong_induction_on with
  | _ n ih =>
    rw [decimalText]
    split
    · rename_i hn
      refine ⟨?_, by simp⟩
      have := Number.snoc (b := 10) .nil (digit_char n hn)
      simpa using this
    · rename_i hn
      refine ⟨?_, by simp⟩
      have := Number.snoc (ih (n / 10) (by omega)).1 (digit_char (n % 10) (by omega))
      rwa [Nat.div_add_mod] at this

theorem decimalText_head (n : Nat) : decimalText n = ['0'] ∨ (decimalText n).head? ≠ some '0' := by
  induction n using Nat.strong_induction_on with
  | _ n ih =>
    rw [decimalText]
    split
    · rename_i hn
      interval_cases n
      · exact .inl rfl
      all_goals exact .inr (by decide)
    · rename_i hn
      right
      rcases ih (n / 10) (by omega) with h | h
      · have h1 := (decimalText_number (n / 10)).1
        rw [h] at h1
        have h2 := ((number_iff (by norm_num)).mp h1).2
        have h3 : value 10 ['0'] = 0 := by decide
        omega
      · have hne := (decimalText_number (n / 10)).2
        cases hd : decimalText (n / 10) with
        | nil => exact absurd hd hne
        | cons c r => rw [hd] at h; simpa using h

theorem intText_form (i : Int) : IntForm (intText i) i := by
  have key : ∀ {s : Text} {neg : Bool}, Signed s neg → IntForm (s ++ decimalText i.natAbs) (if neg then -(i.natAbs : Int) else i.natAbs) := by
    intro s neg hs
    obtain ⟨hn, hne⟩ := decimalText_number i.natAbs
    rcases decimalText_head i.natAbs with h | h
    · rw [h]
      rw [h] at hn
      have h2 := ((number_iff (by norm_num)).mp hn).2
      have h3 : value 10 ['0'] = 0 := by decide
      rw [h2, h3]
      exact .octal hs .nil
    · exact .decimal hs hn hne h
  unfold intText
  split
  · rename_i hi
    have := key .minus
    have e : (if true then -(i.natAbs : Int) else i.natAbs) = i := by rw [if_pos rfl]; omega
    rw [e] at this
    exact this
  · rename_i hi
    have := key .none
    have e : (if false then -(i.natAbs : Int) else i.natAbs) = i := by rw [if_neg (by simp)]; omega
    rw [e] at this
    exact this

/-! ### Strings -/

theorem stringText_quoted (s : Text) : Quoted (stringText s) s := by
  refine ⟨_, ?_, rfl⟩
  induction s with
  | nil => exact .nil
  | cons c s ih =>
    rw [List.flatMap_cons]
    split
    · rename_i h; subst h; exact .escape (by simp) ih
    · rename_i h1
      split
      · rename_i h; subst h; exact .escape (by simp) ih
      · rename_i h2
        split
        · rename_i h; subst h; exact .escape (by simp) ih
        · split
          · rename_i h; subst h; exact .escape (by simp) ih
          · exact .plain h1 h2 ih

/-! ### Lists -/

theorem space_gap : Gap [' '] := .space (by simp) .nil

theorem joinText_separated {α : Type} {R : Text → α → Prop} {ts : List Text} {xs : List α} (h : List.Forall₂ R ts xs) (hne : ts ≠ []) :
    CommaList R (joinText ts) xs := by
  induction h with
  | nil => exact absurd rfl hne
  | @cons t x ts xs hx hts ih =>
    cases hts with
    | nil =>
      have := CommaList.one (R := R) .nil hx .nil
      simpa [joinText] using this
    | @cons t' x' ts xs hx' hts =>
      have h1 := separated_gap space_gap (ih (by simp))
      have := CommaList.more (R := R) .nil hx .nil h1
      simpa [joinText] using this

theorem canonicals_forall {lit : F → Text} {vs : List (Node F)} {R : Text → Node F → Prop} (h : ∀ v ∈ vs, R (canonical lit v) v) :
    List.Forall₂ R (canonicals lit vs) vs := by
  induction vs with
  | nil => simp only [canonicals]; exact .nil
  | cons v vs ih =>
    simp only [canonicals]
    exact .cons (h v List.mem_cons_self) (ih fun w hw => h w (List.mem_cons_of_mem _ hw))

theorem canonicalEntries_forall {β : Type} {lit : F → Text} {f : Text → Text} {g : Text × Node F → β} {es : List (Text × Node F)} {R : Text → β → Prop}
    (h : ∀ e ∈ es, R (f e.1 ++ canonical lit e.2) (g e)) : List.Forall₂ R (canonicalEntries lit f es) (es.map g) := by
  induction es with
  | nil => simp only [canonicalEntries, List.map_nil]; exact .nil
  | cons e es ih =>
    obtain ⟨k, v⟩ := e
    simp only [canonicalEntries, List.map_cons]
    exact .cons (h (k, v) List.mem_cons_self) (ih fun w hw => h w (List.mem_cons_of_mem _ hw))

theorem canonical_means {lit : F → Text} {v : Node F} (h : Expressible conv lit v) : Means (PlainNumeral conv) (canonical lit v) v := by
  induction h with
  | @int i hi =>
    simp only [canonical]
    exact .number ⟨.int (intText_form i) hi, by simp⟩
  | float hd =>
    simp only [canonical]
    exact .number (literal_plain hd)
  | @boolean b =>
    simp only [canonical]
    cases b
    · exact .false
    · exact .true
  | none => simp only [canonical]; exact .none
  | @string s => simp only [canonical]; exact .string (stringText_quoted s)
  | @array vs _ ih =>
    simp only [canonical]
    have h := canonicals_forall (R := Means (PlainNumeral conv)) ih
    cases vs with
    | nil => simp only [canonicals, joinText]; exact .emptyArray .nil
    | cons v vs => exact .array (joinText_separated h (by simp [canonicals]))
  | @dictionary es _ hn ih =>
    simp only [canonical]
    have h := canonicalEntries_forall (f := fun k => stringText k ++ [':', ' ']) (g := id) (R := EntryOf (Means (PlainNumeral conv))) (by
      intro e he
      have := EntryOf.mk (stringText_quoted e.1) .nil space_gap (ih e he)
      simpa using this)
    rw [List.map_id] at h
    cases es with
    | nil => simp only [canonicalEntries, joinText]; exact .emptyDictionary .nil
    | cons e es => exact .dictionary (joinText_separated h (by obtain ⟨k, v⟩ := e; simp [canonicalEntries])) hn
  | @dataclass n ps ks hid hres _ _ hk hn ihp ihk =>
    simp only [canonical]
    have h1 := canonicals_forall (R := fun t v => ArgumentOf (Means (PlainNumeral conv)) t (Option.none, v)) fun v hv => .positional (ihp v hv)
    have h1' : List.Forall₂ (ArgumentOf (Means (PlainNumeral conv))) (canonicals lit ps) (ps.map fun v => (Option.none, v)) := by
      rw [List.forall₂_map_right_iff]; exact h1
    have h2 := canonicalEntries_forall (f := fun k => k ++ ['=']) (g := fun e => (some e.1, e.2)) (R := ArgumentOf (Means (PlainNumeral conv))) (by
      intro e he
      have := ArgumentOf.keyword (hk e he) .nil .nil (ihk e he)
      simpa using this)
    have h := List.rel_append h1' h2
    by_cases hnil : canonicals lit ps ++ canonicalEntries lit (fun k => k ++ ['=']) ks = []
    · obtain ⟨e1, e2⟩ := List.append_eq_nil_iff.mp hnil
      have hps : ps = [] := by cases ps with | nil => rfl | cons v vs => simp [canonicals] at e1
      have hks : ks = [] := by cases ks with | nil => rfl | cons e es => obtain ⟨k, v⟩ := e; simp [canonicalEntries] at e2
      subst hps hks
      have := Means.emptyCall (N := PlainNumeral conv) hid hres .nil .nil
      simpa [canonicals, canonicalEntries, joinText] using this
    · have := Means.call (N := PlainNumeral conv) (g := []) hid hres .nil (joinText_separated h hnil) rfl hn
      simpa using this

end Rampack.Pyon
