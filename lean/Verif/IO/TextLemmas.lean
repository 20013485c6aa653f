import Verif.IO.SnapSpec
import Mathlib.Data.List.TakeWhile
import Mathlib.Order.Lattice
import Mathlib.Data.Char
import Mathlib.Data.List.Lex
import Mathlib.Tactic.IntervalCases
/-
Lemmas about formatted text.
-/
namespace Rampack

open Spec

theorem isSpace_cases {c : Char} (h : isSpace c = true) : c = ' ' ∨ c = '\t' ∨ c = '\n' ∨ c = '\x0b' ∨ c = '\x0c' ∨ c = '\r' := by
  simp only [isSpace, Bool.or_eq_true, beq_iff_eq] at h
  tauto

theorem dec_cases {c : Char} (h : isDec c = true) : c ∈ ['0', '1', '2', '3', '4', '5', '6', '7', '8', '9'] := by
  simp only [isDec, Bool.and_eq_true, decide_eq_true_eq, Char.le_def, UInt32.le_iff_toNat_le] at h
  obtain ⟨h1, h2⟩ := h
  have e : c = Char.ofNat c.toNat := (Char.ofNat_toNat c).symm
  have h1 : 48 ≤ c.toNat := h1
  have h2 : c.toNat ≤ 57 := h2
  rw [e]
  generalize c.toNat = n at *
  interval_cases n <;> decide

theorem dec_iff {c : Char} : isDec c = true ↔ c ∈ ['0', '1', '2', '3', '4', '5', '6', '7', '8', '9'] := by
  refine ⟨dec_cases, fun h => ?_⟩
  simp only [List.mem_cons, List.not_mem_nil, or_false] at h
  rcases h with rfl | rfl | rfl | rfl | rfl | rfl | rfl | rfl | rfl | rfl <;> decide

theorem space_not_dec {c : Char} (h : isSpace c = true) : isDec c = false := by
  rcases isSpace_cases h with rfl | rfl | rfl | rfl | rfl | rfl <;> decide

theorem dec_not_space {c : Char} (h : isDec c = true) : isSpace c = false := by
  cases hc : isSpace c with
  | false => rfl
  | true => rw [space_not_dec hc] at h; cases h

theorem digitChar_dec {n : Nat} (h : n < 10) : isDec (digitChar n) = true := by interval_cases n <;> decide

theorem digitVal_digitChar {n : Nat} (h : n < 10) : digitVal (digitChar n) = n := by interval_cases n <;> decide

theorem natText_dec (n : Nat) : ∀ c ∈ natText n, isDec c = true := by
  induction n using Nat.strong_induction_on with
  | _ n ih =>
    unfold natText
    split
    · rename_i h
      intro c hc
      rw [List.mem_singleton] at hc
      rw [hc]
      exact digitChar_dec h
    · rename_i h
      intro c hc
      rw [List.mem_append, List.mem_singleton] at hc
      rcases hc with hc | rfl
      · exact ih _ (by omega) c hc
      · exact digitChar_dec (Nat.mod_lt _ (by norm_num))

theorem natText_ne (n : Nat) : natText n ≠ [] := by
  unfold natText
  split
  · simp
  · simp

theorem textNat_append (a : Text) (c : Char) : textNat (a ++ [c]) = 10 * textNat a + digitVal c := by
  simp [textNat, List.foldl_append]

theorem textNat_natText (n : Nat) : textNat (natText n) = n := by
  induction n using Nat.strong_induction_on with
  | _ n ih =>
    unfold natText
    split
    · rename_i h
      simp [textNat, digitVal_digitChar h]
    · rename_i h
      rw [textNat_append, ih _ (by omega), digitVal_digitChar (Nat.mod_lt _ (by norm_num))]
      omega

/-- Nothing is left or the next character is white space. -/
def Ends (t : Text) : Prop := ∀ c ∈ t.head?, isSpace c = true

theorem Ends.nil : Ends [] := by simp [Ends]

theorem Ends.cons {c : Char} (t : Text) (h : isSpace c = true) : Ends (c :: t) := by simp [Ends, h]

theorem takeWhile_ends {p : Char → Bool} {a t : Text} (h : ∀ c ∈ a, p c = true) (ht : ∀ c ∈ t.head?, p c = false) :
    (a ++ t).takeWhile p = a ∧ (a ++ t).dropWhile p = t := by
  have e1 : t.takeWhile p = [] := by
    cases t with
    | nil => rfl
    | cons c t => simp [List.takeWhile_cons, ht c (by simp)]
  have e2 : t.dropWhile p = t := by
    cases t with
    | nil => rfl
    | cons c t => simp [List.dropWhile_cons, ht c (by simp)]
  rw [List.takeWhile_append_of_pos h, List.dropWhile_append_of_pos h, e1, e2]
  simp

namespace TextIn

theorem sentry_ok {a t : Text} {c : Char} (ha : ∀ c ∈ a, isSpace c = true) (hc : isSpace c = false) :
    (⟨a ++ c :: t, false, false⟩ : TextIn).sentry = (some (c :: t), ⟨c :: t, false, false⟩) := by
  have h := (takeWhile_ends (p := isSpace) (t := c :: t) ha (by simp [hc])).2
  simp [sentry, good, h]

theorem nat_ok {a t : Text} {n : Nat} (ha : ∀ c ∈ a, isSpace c = true) (hn : n < 2 ^ 64) (ht : ∀ c ∈ t.head?, isDec c = false) :
    (⟨a ++ natText n ++ t, false, false⟩ : TextIn).nat = (n, left t) := by
  have hd := natText_dec n
  have hv := textNat_natText n
  obtain ⟨c, l, e⟩ := List.exists_cons_of_ne_nil (natText_ne n)
  have hc : isDec c = true := hd c (by simp [e])
  have hs : (⟨a ++ natText n ++ t, false, false⟩ : TextIn).sentry = (some (natText n ++ t), ⟨natText n ++ t, false, false⟩) := by
    rw [List.append_assoc, e, List.cons_append]
    exact sentry_ok ha (dec_not_space hc)
  have hm : (natText n ++ t).head? = some c := by simp [e]
  have n1 : (some c == some '-') = false := by
    simp only [beq_eq_false_iff_ne, ne_eq, Option.some.injEq]
    rintro rfl
    exact absurd hc (by decide)
  have n2 : (some c == some '+') = false := by
    simp only [beq_eq_false_iff_ne, ne_eq, Option.some.injEq]
    rintro rfl
    exact absurd hc (by decide)
  obtain ⟨t1, t2⟩ := takeWhile_ends hd ht
  unfold nat
  rw [hs]
  simp only [hm, n1, n2, Bool.or_false, Bool.false_eq_true, if_false, t1, t2, hv]
  rw [if_neg (by simp [e]), if_neg (by omega)]

theorem dec_ne {c x : Char} (hc : isDec c = true) (hx : isDec x = false) : (c == x) = false := by
  simp only [beq_eq_false_iff_ne, ne_eq]
  rintro rfl
  rw [hc] at hx
  cases hx

theorem scan_digits' {m d s : Bool} {a t : Text} (ha : ∀ c ∈ a, isDec c = true) :
    scan false m d s (a ++ t) = (a ++ (scan false (m || !a.isEmpty) d s t).1, (scan false (m || !a.isEmpty) d s t).2) := by
  induction a generalizing m with
  | nil => simp
  | cons c a ih =>
    have hc : isDec c = true := ha c (by simp)
    rw [List.cons_append, scan]
    simp only [dec_ne hc (show isDec '.' = false by decide), Bool.false_and, Bool.false_eq_true, if_false, hc, if_true]
    rw [ih (fun c h => ha c (by simp [h]))]
    simp

theorem scan_digits {g m d s : Bool} {a t : Text} (ha : Digits a) :
    scan g m d s (a ++ t) = (a ++ (scan false true d s t).1, (scan false true d s t).2) := by
  obtain ⟨c, l, rfl⟩ := List.exists_cons_of_ne_nil ha.1
  have hc : isDec c = true := dec_iff.mpr (ha.2 c (by simp))
  rw [List.cons_append, scan]
  simp only [dec_ne hc (show isDec '.' = false by decide), dec_ne hc (show isDec '+' = false by decide),
    dec_ne hc (show isDec '-' = false by decide), Bool.or_false, Bool.and_false, Bool.false_eq_true, if_false, hc, if_true]
  rw [scan_digits' (fun c h => dec_iff.mpr (ha.2 c (by simp [h])))]
  simp

theorem scan_end {g m d s : Bool} {t : Text} (ht : Ends t) : scan g m d s t = ([], t) := by
  cases t with
  | nil => rw [scan]
  | cons c t =>
    have hc : isSpace c = true := ht c (by simp)
    have hd := space_not_dec hc
    rw [scan]
    rcases isSpace_cases hc with rfl | rfl | rfl | rfl | rfl | rfl <;> simp [hd]

theorem scan_exp {e t : Text} {d : Bool} (he : e = [] ∨ ∃ s x, (s = '+' ∨ s = '-') ∧ Digits x ∧ e = 'e' :: s :: x) (ht : Ends t) :
    scan false true d false (e ++ t) = (e, t) := by
  rcases he with rfl | ⟨s, x, hs, hx, rfl⟩
  · exact scan_end ht
  · rw [List.cons_append, List.cons_append, scan]
    have h1 : (s == '+' || s == '-') = true := by rcases hs with rfl | rfl <;> decide
    have h2 : isDec 'e' = false := by decide
    simp only [h2, show ('e' == '.') = false by decide, show ('e' == 'e') = true by decide, Bool.true_or, Bool.not_false, Bool.and_true,
      Bool.false_and, Bool.false_eq_true, if_false, if_true]
    rw [scan]
    simp only [h1, Bool.and_true, if_true]
    rw [scan_digits hx, scan_end ht]
    simp

theorem scan_frac {f e t : Text} (hf : f = [] ∨ ∃ x, Digits x ∧ f = '.' :: x)
    (he : e = [] ∨ ∃ s x, (s = '+' ∨ s = '-') ∧ Digits x ∧ e = 'e' :: s :: x) (ht : Ends t) :
    scan false true false false (f ++ (e ++ t)) = (f ++ e, t) := by
  rcases hf with rfl | ⟨x, hx, rfl⟩
  · simpa using scan_exp he ht
  · rw [List.cons_append, scan]
    simp only [show ('.' == '.') = true by decide, Bool.not_false, Bool.and_true, if_true, Bool.false_and, Bool.false_eq_true, if_false]
    rw [scan_digits hx, scan_exp he ht]
    simp

theorem scan_literal {l t : Text} (hl : Literal l) (ht : Ends t) : scanDouble (l ++ t) = (l, t) := by
  obtain ⟨s, w, f, e, hs, hw, hf, he⟩ := hl
  have main : ∀ g, scan g false false false (w ++ (f ++ (e ++ t))) = (w ++ (f ++ e), t) := by
    intro g
    rw [scan_digits hw, scan_frac hf he ht]
  unfold scanDouble
  rcases hs with rfl | rfl
  · simp only [List.nil_append, List.append_assoc]
    exact main true
  · simp only [List.cons_append, List.nil_append, List.append_assoc]
    rw [scan]
    simp only [show ('-' == '+' || '-' == '-') = true by decide, Bool.and_true, if_true, main]

theorem literal_head {l : Text} (hl : Literal l) : ∃ c t, l = c :: t ∧ isSpace c = false := by
  obtain ⟨s, w, f, e, hs, hw, hf, he⟩ := hl
  obtain ⟨c, w', rfl⟩ := List.exists_cons_of_ne_nil hw.1
  have hc : isDec c = true := dec_iff.mpr (hw.2 c (by simp))
  rcases hs with rfl | rfl
  · exact ⟨c, w' ++ f ++ e, by simp, dec_not_space hc⟩
  · exact ⟨'-', c :: w' ++ f ++ e, by simp, by decide⟩

theorem double_ok {P : Numbers} {w : Word} {a t : Text} (hw : Printable P w) (ha : ∀ c ∈ a, isSpace c = true) (ht : Ends t) :
    (⟨a ++ P.print w ++ t, false, false⟩ : TextIn).double P.read = (w, left t) := by
  obtain ⟨c, l, e, hc⟩ := literal_head hw.literal
  have hs : (⟨a ++ P.print w ++ t, false, false⟩ : TextIn).sentry = (some (P.print w ++ t), ⟨P.print w ++ t, false, false⟩) := by
    rw [List.append_assoc, e, List.cons_append]
    exact sentry_ok ha hc
  unfold double
  rw [hs]
  simp only [scan_literal hw.literal ht, hw.back]

theorem left_cons (c : Char) (t : Text) : left (c :: t) = ⟨c :: t, false, false⟩ := by simp [left]

theorem doubles3_ok {P : Numbers} {v : Vec3 Word} {a t : Text} (hv : PrintableVec P v) (ha : ∀ c ∈ a, isSpace c = true) (ht : Ends t) :
    (⟨a ++ Ramsnap.vecText P v ++ t, false, false⟩ : TextIn).doubles3 P.read = (v.x, v.y, v.z, left t) := by
  have h1 : ∀ c ∈ [' '], isSpace c = true := by simp [isSpace]
  unfold doubles3 Ramsnap.vecText
  simp only [List.append_assoc]
  have e1 := double_ok (t := ' ' :: (P.print v.y ++ ' ' :: (P.print v.z ++ t))) hv.1 ha (Ends.cons _ rfl)
  have e2 := double_ok (a := [' ']) (t := ' ' :: (P.print v.z ++ t)) hv.2.1 h1 (Ends.cons _ rfl)
  have e3 := double_ok (a := [' ']) (t := t) hv.2.2 h1 ht
  simp only [List.append_assoc, List.cons_append, List.nil_append] at e1 e2 e3 ⊢
  simp only [e1, left_cons, e2, e3]

theorem word_ok {a k t : Text} (ha : ∀ c ∈ a, isSpace c = true) (hk : Word1 k) (ht : Ends t) :
    (⟨a ++ k ++ t, false, false⟩ : TextIn).word = (k, left t) := by
  obtain ⟨c, l, e⟩ := List.exists_cons_of_ne_nil hk.1
  have hc : isSpace c = false := hk.2 c (by simp [e])
  have hs : (⟨a ++ k ++ t, false, false⟩ : TextIn).sentry = (some (k ++ t), ⟨k ++ t, false, false⟩) := by
    rw [List.append_assoc, e, List.cons_append]
    exact sentry_ok ha hc
  obtain ⟨t1, t2⟩ := takeWhile_ends (p := fun c => !isSpace c) (a := k) (t := t) (fun c h => by simp [hk.2 c h]) (fun c h => by simp [ht c h])
  unfold word
  rw [hs]
  simp only [t1, t2]

theorem getline_ok {v t : Text} (hv : '\n' ∉ v) : (⟨v ++ '\n' :: t, false, false⟩ : TextIn).getline = (v, ⟨t, false, false⟩) := by
  obtain ⟨t1, t2⟩ := takeWhile_ends (p := fun c => c != '\n') (a := v) (t := '\n' :: t)
    (fun c h => by simp only [bne_iff_ne, ne_eq]; rintro rfl; exact hv h) (by simp)
  unfold getline
  simp [good, t1, t2]

theorem ws_ok {a t : Text} {c : Char} (ha : ∀ c ∈ a, isSpace c = true) (hc : isSpace c = false) :
    (⟨a ++ c :: t, false, false⟩ : TextIn).ws = ⟨c :: t, false, false⟩ := by
  have h := (takeWhile_ends (p := isSpace) (t := c :: t) ha (by simp [hc])).2
  simp [ws, good, h, left]

end TextIn

end Rampack
