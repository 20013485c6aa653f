import Verif.Utils.StringsSpec
import Verif.IO.TextLemmas
import Mathlib.Data.List.TakeWhile
import Mathlib.Data.List.Infix
/-
Lemmas about string helpers.
-/
namespace Rampack.Utils

open Spec

/-- All pieces of a text. -/
def cut (d : Char) : Text → List Text
  | [] => [[]]
  | c :: t => if c = d then [] :: cut d t else match cut d t with
    | [] => [[c]]
    | x :: l => (c :: x) :: l

theorem cut_none {d : Char} : ∀ {t : Text}, d ∉ t → cut d t = [t]
  | [], _ => rfl
  | c :: t, h => by
    rw [cut, if_neg (fun hc => h (by simp [hc])), cut_none fun ht => h (by simp [ht])]

theorem cut_append {d : Char} : ∀ {a : Text}, d ∉ a → ∀ b, cut d (a ++ d :: b) = a :: cut d b
  | [], _, b => by rw [List.nil_append, cut, if_pos rfl]
  | c :: a, h, b => by
    rw [List.cons_append, cut, if_neg (fun hc => h (by simp [hc])), cut_append (fun ht => h (by simp [ht])) b]

theorem joined_cons {d : Text} {x : Text} {l : List Text} (h : l ≠ []) : joined d (x :: l) = x ++ d ++ joined d l := by
  cases l with
  | nil => exact absurd rfl h
  | cons y l => rfl

/-- A text has no delimiter, or one after a part without it. -/
theorem break_at (d : Char) (t : Text) : d ∉ t ∨ ∃ a b, d ∉ a ∧ t = a ++ d :: b := by
  by_cases h : d ∈ t
  · right
    obtain ⟨a, b, e, h1⟩ := List.eq_append_cons_of_mem h
    exact ⟨a, b, h1, e⟩
  · exact Or.inl h

theorem cut_ne (d : Char) (t : Text) : cut d t ≠ [] := by
  rcases break_at d t with h | ⟨a, b, h, rfl⟩
  · rw [cut_none h]; simp
  · rw [cut_append h]; simp

theorem takeWhile_ne {d : Char} {a : Text} (h : d ∉ a) : a.takeWhile (· != d) = a :=
  List.takeWhile_eq_self_iff.mpr fun c hc => by simpa using fun e : c = d => h (e ▸ hc)

theorem take_drop {d : Char} {a : Text} (h : d ∉ a) (b : Text) :
    (a ++ d :: b).takeWhile (· != d) = a ∧ (a ++ d :: b).dropWhile (· != d) = d :: b := by
  induction a with
  | nil => simp
  | cons c a ih =>
    have hc : c ≠ d := fun hc => h (by simp [hc])
    obtain ⟨h1, h2⟩ := ih fun ht => h (by simp [ht])
    simp [hc, h1, h2]

theorem explode_cut {d : Char} : ∀ (n : Nat) {s : Text}, s.length ≤ n → s ≠ [] → explode s d = cut d s
  | 0, s, hn, h => absurd (List.length_eq_zero_iff.mp (by omega)) h
  | n + 1, s, hn, h => by
    unfold explode
    rw [if_neg h]
    rcases break_at d s with hd | ⟨a, b, hd, rfl⟩
    · rw [if_neg (fun hl => hd (List.mem_of_getLast? hl)), cut_none hd, getlines, dif_neg h, takeWhile_ne hd, List.dropWhile_eq_nil_iff.mpr, List.drop_nil, getlines, dif_pos rfl]
      intro c hc
      simpa using fun e : c = d => hd (e ▸ hc)
    · rw [cut_append hd, getlines, dif_neg h, (take_drop hd b).1, (take_drop hd b).2, List.drop_one, List.tail_cons]
      by_cases hb : b = []
      · subst hb
        rw [if_pos (by simp), getlines, dif_pos rfl]
        rfl
      · have hl : (a ++ d :: b).getLast? = b.getLast? := by
          rw [List.getLast?_append]
          cases b with
          | nil => exact absurd rfl hb
          | cons c b => simp [List.getLast?_cons_cons, List.getLast?_cons]
        rw [hl, ← explode_cut n (by simp at hn; omega) hb]
        unfold explode
        rw [if_neg hb]
        split <;> rfl

theorem joined_cut (d : Char) : ∀ (n : Nat) {s : Text}, s.length ≤ n → joined [d] (cut d s) = s
  | n, s, hn => by
    rcases break_at d s with hd | ⟨a, b, hd, rfl⟩
    · rw [cut_none hd]; rfl
    · cases n with
      | zero => simp at hn
      | succ n =>
        rw [cut_append hd, joined_cons (cut_ne d b), joined_cut d n (by simp at hn; omega)]
        simp

theorem cut_pieces (d : Char) : ∀ (n : Nat) {s : Text}, s.length ≤ n → ∀ x ∈ cut d s, d ∉ x
  | n, s, hn => by
    rcases break_at d s with hd | ⟨a, b, hd, rfl⟩
    · rw [cut_none hd]; simpa using hd
    · cases n with
      | zero => simp at hn
      | succ n =>
        rw [cut_append hd]
        intro x hx
        rcases List.mem_cons.mp hx with rfl | hx
        · exact hd
        · exact cut_pieces d n (by simp at hn; omega) x hx

theorem cut_joined {d : Char} : ∀ {l : List Text}, l ≠ [] → (∀ x ∈ l, d ∉ x) → cut d (joined [d] l) = l
  | [], h, _ => absurd rfl h
  | [x], _, h => cut_none (h x (by simp))
  | x :: y :: l, _, h => by
    rw [joined_cons (by simp), List.append_assoc, List.singleton_append, cut_append (h x (by simp)), cut_joined (by simp) fun z hz => h z (by simp at hz ⊢; tauto)]

theorem flatMap_joined (d : Text) : ∀ {l : List Text}, l ≠ [] → l.flatMap (· ++ d) = joined d l ++ d
  | [], h => absurd rfl h
  | [x], _ => by simp [joined]
  | x :: y :: l, _ => by
    rw [List.flatMap_cons, flatMap_joined d (l := y :: l) (by simp), joined_cons (x := x) (l := y :: l) (by simp)]
    simp

theorem rtrim_append {s b : Text} (hb : Blank b) : rtrim (s ++ b) = rtrim s := by
  unfold rtrim
  rw [List.reverse_append, List.dropWhile_append_of_pos]
  intro c hc
  exact hb c (by simpa using hc)

theorem ltrim_append {s a : Text} (ha : Blank a) : ltrim (a ++ s) = ltrim s := by
  unfold ltrim
  rw [List.dropWhile_append_of_pos]
  exact ha

theorem ltrim_fix {s : Text} (h : ∀ c ∈ s.head?, isSpace c = false) : ltrim s = s := by
  unfold ltrim
  cases s with
  | nil => rfl
  | cons c s => rw [List.dropWhile_cons_of_neg (by simp [h c (by simp)])]

theorem rtrim_fix {s : Text} (h : ∀ c ∈ s.getLast?, isSpace c = false) : rtrim s = s := by
  unfold rtrim
  have := ltrim_fix (s := s.reverse) (by rw [List.head?_reverse]; exact h)
  unfold ltrim at this
  rw [this, List.reverse_reverse]

theorem ltrim_ok (s : Text) : ∃ a, Blank a ∧ s = a ++ ltrim s ∧ ∀ c ∈ (ltrim s).head?, isSpace c = false := by
  refine ⟨s.takeWhile isSpace, fun c hc => ?_, ?_, ?_⟩
  · exact List.mem_takeWhile_imp hc
  · exact (List.takeWhile_append_dropWhile).symm
  · intro c hc
    unfold ltrim at hc
    have := List.head?_dropWhile_not isSpace s
    rw [Option.mem_def.mp hc] at this
    simpa using this

theorem rtrim_ok (s : Text) : ∃ b, Blank b ∧ s = rtrim s ++ b ∧ ∀ c ∈ (rtrim s).getLast?, isSpace c = false := by
  obtain ⟨a, h1, h2, h3⟩ := ltrim_ok s.reverse
  refine ⟨a.reverse, fun c hc => h1 c (by simpa using hc), ?_, ?_⟩
  · have := congrArg List.reverse h2
    rw [List.reverse_reverse, List.reverse_append] at this
    exact this
  · intro c hc
    unfold rtrim at hc
    rw [List.getLast?_reverse] at hc
    exact h3 c hc

theorem trim_ok (s : Text) : ∃ a b, Blank a ∧ Blank b ∧ s = a ++ trim s ++ b ∧ (∀ c ∈ (trim s).head?, isSpace c = false) ∧ ∀ c ∈ (trim s).getLast?, isSpace c = false := by
  obtain ⟨b, h1, h2, h3⟩ := rtrim_ok s
  obtain ⟨a, h4, h5, h6⟩ := ltrim_ok (rtrim s)
  refine ⟨a, b, h4, h1, ?_, h6, ?_⟩
  · unfold trim
    rw [← h5, ← h2]
  · intro c hc
    apply h3
    rw [h5, List.getLast?_append]
    unfold trim at hc
    rw [Option.mem_def.mp hc]
    rfl

theorem trim_eq {a t b : Text} (ha : Blank a) (hb : Blank b) (h1 : ∀ c ∈ t.head?, isSpace c = false) (h2 : ∀ c ∈ t.getLast?, isSpace c = false) : trim (a ++ t ++ b) = t := by
  unfold trim
  rw [rtrim_append hb]
  cases t with
  | nil =>
    rw [List.append_nil]
    have := rtrim_append (s := []) ha
    rw [List.nil_append] at this
    rw [this]
    rfl
  | cons c t =>
    rw [rtrim_fix, ltrim_append ha, ltrim_fix h1]
    intro x hx
    apply h2
    rw [List.getLast?_append] at hx
    cases hl : (c :: t).getLast? with
    | none => simp at hl
    | some y => rw [hl] at hx; exact hx

theorem replace_ok {search replace : Text} (hs : search ≠ []) (source : Text) (pos : Nat) (hp : pos ≤ source.length) :
    ∃ (pieces : List Text) (last : Text), source.drop pos = pieces.flatMap (· ++ search) ++ last ∧
      replaceFrom search replace source pos = .ok (source.take pos ++ (pieces.flatMap (· ++ replace) ++ last)) ∧
      (∀ p ∈ pieces, ∀ a b, p ++ search = a ++ search ++ b → b = []) ∧ ¬ Occurs search last := by
  induction source, pos using replaceFrom.induct search replace with
  | case1 source pos h => exact absurd h hs
  | case2 source pos h hf =>
    refine ⟨[], source.drop pos, by simp, ?_, by simp, ?_⟩
    · rw [replaceFrom, dif_neg hs]
      split
      · simp
      · rename_i q hq; rw [hf] at hq; cases hq
    · rintro ⟨a, b, e⟩
      refine find_none hf (pos + a.length) (by omega) ?_ ?_
      · have := congrArg List.length e
        simp at this
        omega
      · rw [← List.drop_drop, e]
        simp
  | case3 source pos h q hq ih =>
    obtain ⟨h1, h2, h3, h4⟩ := find_some hq
    obtain ⟨pieces, last, e1, e2, e3, e4⟩ := ih (by simp; omega)
    have hd : (source.take q ++ replace ++ source.drop (q + search.length)).drop (q + replace.length) = source.drop (q + search.length) := by
      rw [List.drop_left' (by simp; omega)]
    have ht : (source.take q ++ replace ++ source.drop (q + search.length)).take (q + replace.length) = source.take q ++ replace := by
      rw [List.take_left' (by simp; omega)]
    rw [hd] at e1
    rw [ht] at e2
    have hsplit : source.drop q = search ++ source.drop (q + search.length) := by
      conv_lhs => rw [← List.take_append_drop search.length (source.drop q), h3, List.drop_drop]
    have hsplit' : source.drop pos = (source.drop pos).take (q - pos) ++ source.drop q := by
      conv_lhs => rw [← List.take_append_drop (q - pos) (source.drop pos), List.drop_drop, show pos + (q - pos) = q by omega]
    have htake : source.take q = source.take pos ++ (source.drop pos).take (q - pos) := by
      rw [show q = pos + (q - pos) by omega, List.take_add]
      simp
    refine ⟨(source.drop pos).take (q - pos) :: pieces, last, ?_, ?_, ?_, e4⟩
    · refine hsplit'.trans ?_
      rw [hsplit, e1]
      simp
    · rw [replaceFrom, dif_neg hs]
      split
      · rename_i hn; rw [hq] at hn; cases hn
      · rename_i q' hq'
        rw [hq] at hq'
        cases hq'
        rw [e2, htake]
        simp
    · intro p hp'
      rcases List.mem_cons.mp hp' with rfl | hp'
      · intro a b e
        by_contra hb
        have hbl := List.length_pos_iff.mpr hb
        have hl := congrArg List.length e
        simp at hl
        have : min (q - pos) (source.length - pos) = q - pos := by omega
        refine h4 (pos + a.length) (by omega) (by omega) ?_
        have e' : source.drop pos = a ++ search ++ b ++ source.drop (q + search.length) := by
          rw [← e]
          refine hsplit'.trans ?_
          rw [hsplit, List.append_assoc]
        rw [← List.drop_drop, e']
        simp
      · exact e3 p hp'

theorem lastIndexLoop_ok {target : Char} : ∀ {s : Text} (ret : Int) (k : Nat), '\x00' ∉ s →
    (target ∉ s ∧ lastIndexLoop target ret k s = ret) ∨ ∃ a b, s = a ++ target :: b ∧ target ∉ b ∧ lastIndexLoop target ret k s = (k + a.length : Nat)
  | [], ret, k, _ => Or.inl ⟨by simp, rfl⟩
  | c :: s, ret, k, h => by
    have hc : c ≠ '\x00' := fun hc => h (by simp [hc])
    rw [lastIndexLoop, if_neg hc]
    have e : ((k : Int) + 1) = ((k + 1 : Nat) : Int) := by push_cast; rfl
    rw [e]
    rcases lastIndexLoop_ok (target := target) (s := s) (if c = target then (k : Int) else ret) (k + 1) fun hs => h (by simp [hs]) with ⟨h1, h2⟩ | ⟨a, b, h1, h2, h3⟩
    · rw [h2]
      by_cases hct : c = target
      · right
        exact ⟨[], s, by simp [hct], h1, by simp [hct]⟩
      · left
        exact ⟨by simp [h1, Ne.symm hct], if_neg hct⟩
    · right
      refine ⟨c :: a, b, by rw [h1]; rfl, h2, ?_⟩
      rw [h3]
      simp
      omega

end Rampack.Utils
