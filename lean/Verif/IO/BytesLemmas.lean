import Verif.IO.Bytes
import Verif.OutcomeLemmas
import Mathlib.Tactic.Ring
import Mathlib.Tactic.Linarith
/-
Lemmas about bytes and binary streams.
-/
namespace Rampack

theorem leBytes_length : ∀ (k n : Nat), (leBytes k n).length = k
  | 0, _ => rfl
  | k + 1, n => by simp [leBytes, leBytes_length k]

theorem leVal_leBytes : ∀ (k n : Nat), leVal (leBytes k n) = n % 256 ^ k
  | 0, n => by simp [leBytes, leVal, Nat.mod_one]
  | k + 1, n => by
    simp only [leBytes, leVal, leVal_leBytes k]
    rw [pow_succ', Nat.mod_mul]

theorem leVal_lt : ∀ l : List Byte, leVal l < 256 ^ l.length
  | [] => by simp [leVal]
  | b :: l => by
    simp only [leVal, List.length_cons, pow_succ]
    have := leVal_lt l
    have := b.isLt
    nlinarith

theorem leVal_append : ∀ l m : List Byte, leVal (l ++ m) = leVal l + 256 ^ l.length * leVal m
  | [], m => by simp [leVal]
  | b :: l, m => by
    simp only [List.cons_append, leVal, leVal_append l m, List.length_cons, pow_succ]
    ring

/-- Mixing the first `j` bytes of one number with the other bytes of a smaller one gives a number not greater than the first one. -/
theorem leVal_take : ∀ (k n j : Nat), leVal ((leBytes k n).take j) = n % 256 ^ min j k
  | 0, n, j => by simp [leBytes, leVal, Nat.mod_one]
  | k + 1, n, 0 => by simp [leVal, Nat.mod_one]
  | k + 1, n, j + 1 => by
    simp only [leBytes, List.take_succ_cons, leVal, leVal_take k]
    rw [Nat.succ_min_succ, pow_succ', Nat.mod_mul]

theorem leVal_drop : ∀ (k n j : Nat), n < 256 ^ k → leVal ((leBytes k n).drop j) = n / 256 ^ j
  | 0, n, j, h => by
    have : n = 0 := by simpa using h
    subst this
    simp [leBytes, leVal]
  | k + 1, n, 0, h => by
    rw [List.drop_zero, leVal_leBytes, Nat.mod_eq_of_lt h]
    simp
  | k + 1, n, j + 1, h => by
    simp only [leBytes, List.drop_succ_cons]
    rw [leVal_drop k _ j (by rw [pow_succ'] at h; exact Nat.div_lt_of_lt_mul h), Nat.div_div_eq_div_mul, pow_succ']

namespace Stream

theorem places_length : ∀ (p : Nat) (l : List Byte), (places p l).length = l.length
  | _, [] => rfl
  | p, b :: l => by simp [places, places_length (p + 1) l]

theorem places_append : ∀ (p : Nat) (l m : List Byte), places p (l ++ m) = places p l ++ places (p + l.length) m
  | _, [], m => rfl
  | p, b :: l, m => by
    simp only [List.cons_append, places, places_append (p + 1) l m, List.length_cons]
    rw [show p + 1 + l.length = p + (l.length + 1) by ring]

theorem places_take : ∀ (p k : Nat) (l : List Byte), (places p l).take k = places p (l.take k)
  | _, 0, _ => by simp [places]
  | _, _ + 1, [] => rfl
  | p, k + 1, b :: l => by simp [places, places_take (p + 1) k l]

/-- What is in a file after writing at a position not beyond the end. -/
theorem foldl_putByte : ∀ (l : List Byte) (p : Nat) (file : List Byte), p ≤ file.length →
    (places p l).foldl putByte file = file.take p ++ l ++ file.drop (p + l.length)
  | [], p, file, _ => by simp [places]
  | b :: l, p, file, h => by
    simp only [places, List.foldl_cons]
    have hl : (putByte file (p, b)).length = max file.length (p + 1) := by
      unfold putByte
      split_ifs with h1
      · simp only [List.length_set]
        have : p < file.length := h1
        omega
      · have : ¬ p < file.length := h1
        simp
        omega
    rw [foldl_putByte l (p + 1) _ (by rw [hl]; omega)]
    unfold putByte
    split_ifs with h1
    · have h1 : p < file.length := h1
      simp only [List.length_cons]
      rw [List.drop_set_of_lt (by omega), List.take_set, List.take_add_one, List.getElem?_eq_getElem h1, Option.toList_some]
      rw [List.set_append_right _ _ (by simp), List.length_take, min_eq_left h1.le, Nat.sub_self, List.set_cons_zero]
      rw [show p + 1 + l.length = p + (l.length + 1) by ring]
      simp
    · have h1 : ¬ p < file.length := h1
      have hp : p = file.length := by omega
      subst hp
      simp only [List.length_cons]
      rw [List.take_of_length_le (by simp), List.drop_eq_nil_of_le (by simp), List.drop_eq_nil_of_le (by simp), List.take_length]
      simp

theorem write_bytes {s : Stream} (hf : s.fail = false) (l : List Byte) (hp : s.pos ≤ s.bytes.length) :
    s.write l = ⟨s.bytes.take s.pos ++ l ++ s.bytes.drop (s.pos + l.length), s.pos + l.length, false, s.trace ++ places s.pos l⟩ := by
  unfold write
  rw [hf, foldl_putByte l _ _ hp]
  simp

/-- Writing at the end. -/
theorem write_end {s : Stream} (hf : s.fail = false) (l : List Byte) (hp : s.pos = s.bytes.length) :
    s.write l = ⟨s.bytes ++ l, (s.bytes ++ l).length, false, s.trace ++ places s.bytes.length l⟩ := by
  rw [write_bytes hf l hp.le, hp]
  simp

theorem write_write {s : Stream} (hf : s.fail = false) (l m : List Byte) (hp : s.pos = s.bytes.length) :
    (s.write l).write m = s.write (l ++ m) := by
  rw [write_end hf l hp, write_end rfl m rfl, write_end hf (l ++ m) hp]
  simp [places_append]

/-- Reading what is at the position. -/
theorem read_ok {file a l b : List Byte} {tr : List (Nat × Byte)} (h : file = a ++ l ++ b) :
    (⟨file, a.length, false, tr⟩ : Stream).read l.length = (some l, ⟨file, a.length + l.length, false, tr⟩) := by
  subst h
  unfold read
  simp only [Bool.false_eq_true, if_false]
  rw [if_pos (by simp)]
  simp

theorem read_fail {s : Stream} {n : Nat} (h : s.bytes.length < s.pos + n) : (s.read n).1 = none := by
  unfold read
  split_ifs with h1 h2
  · rfl
  · omega
  · rfl

end Stream

end Rampack
