import Verif.Utils.StringsLemmas
import Verif.OutcomeLemmas
/-
C50: string helpers.
-/
namespace Rampack

open Spec Utils

/-- C50: splitting and joining the pieces gives the text back. -/
theorem C50_split_join (s : Text) (d : Char) : implode (explode s d) [d] = s ∧ ∀ x ∈ explode s d, d ∉ x := by
  by_cases hs : s = []
  · subst hs
    exact ⟨rfl, by simp [explode]⟩
  · rw [explode_cut _ (le_refl _) hs]
    refine ⟨?_, cut_pieces d _ (le_refl _)⟩
    unfold implode
    rw [if_neg (cut_ne d s), flatMap_joined _ (cut_ne d s), List.take_left' (by simp), joined_cut d _ (le_refl _)]

/-- C50: joining puts the delimiter between the pieces, and splitting gives the pieces back, if the delimiter is not in them (one empty piece gives no pieces). -/
theorem C50_join_split (l : List Text) : (∀ d, implode l d = joined d l) ∧
    ∀ d : Char, (∀ x ∈ l, d ∉ x) → l ≠ [[]] → explode (implode l [d]) d = l := by
  have h1 : ∀ d, implode l d = joined d l := by
    intro d
    unfold implode
    by_cases hl : l = []
    · rw [if_pos hl, hl]; rfl
    · rw [if_neg hl, flatMap_joined _ hl, List.take_left' (by simp)]
  refine ⟨h1, fun d hd hl => ?_⟩
  rw [h1]
  by_cases h0 : l = []
  · subst h0; rfl
  · have hne : joined [d] l ≠ [] := by
      intro he
      match l, h0, hl with
      | [x], _, hl => exact hl (by rw [show x = [] from he])
      | x :: y :: l, _, _ => rw [joined_cons (by simp)] at he; simp at he
    rw [explode_cut _ (le_refl _) hne, cut_joined h0 hd]

/-- C50: trimming removes exactly the white space at both ends. -/
theorem C50_trim (s t : Text) : trim s = t ↔
    ∃ a b, Blank a ∧ Blank b ∧ s = a ++ t ++ b ∧ (∀ c ∈ t.head?, isSpace c = false) ∧ ∀ c ∈ t.getLast?, isSpace c = false := by
  constructor
  · rintro rfl
    exact trim_ok s
  · rintro ⟨a, b, h1, h2, rfl, h3, h4⟩
    exact trim_eq h1 h2 h3 h4

/-- C50: prefixes and suffixes. -/
theorem C50_ends (s t : Text) : (startsWith s t = true ↔ ∃ a, s = t ++ a) ∧ (endsWith s t = true ↔ ∃ a, s = a ++ t) := by
  constructor
  · unfold startsWith
    rw [Bool.and_eq_true, decide_eq_true_eq, decide_eq_true_eq]
    constructor
    · rintro ⟨-, h⟩
      exact ⟨s.drop t.length, by conv_lhs => rw [← List.take_append_drop t.length s, h]⟩
    · rintro ⟨a, rfl⟩
      simp
  · unfold endsWith
    rw [Bool.and_eq_true, decide_eq_true_eq, decide_eq_true_eq]
    constructor
    · rintro ⟨-, h⟩
      exact ⟨s.take (s.length - t.length), by conv_lhs => rw [← List.take_append_drop (s.length - t.length) s, h]⟩
    · rintro ⟨a, rfl⟩
      simp

/-- C50: all occurrences of a text which is not empty are replaced, from the left, and nothing else. -/
theorem C50_replace (source : Text) {search : Text} (replace : Text) (hs : search ≠ []) :
    ∃ result, replaceAll source search replace = .ok result ∧ Replaced search replace source result := by
  obtain ⟨pieces, last, h1, h2, h3, h4⟩ := replace_ok hs (replace := replace) source 0 (Nat.zero_le _)
  exact ⟨_, h2, pieces, last, h1, by simp, h3, h4⟩

/-- C50: the searched text is not left if it cannot be made by the replacement, here if no character of it is in the replacement. -/
theorem C50_replace_none (source : Text) {search replace : Text} (hs : search ≠ []) (hr : ∀ c ∈ search, c ∉ replace) (hne : replace ≠ []) {result : Text}
    (h : replaceAll source search replace = .ok result) : ¬ Occurs search result := by
  obtain ⟨r, e, pieces, last, h1, rfl, h3, h4⟩ := C50_replace source replace hs
  rw [h] at e
  obtain rfl := Outcome.ok_inj.mp e
  clear h e h1
  induction pieces with
  | nil => exact h4
  | cons p l ih =>
    rintro ⟨a, b, e⟩
    have ih' := ih fun q hq => h3 q (List.mem_cons_of_mem _ hq)
    rw [List.flatMap_cons, List.append_assoc, List.append_assoc, List.append_assoc] at e
    obtain ⟨R, hR⟩ : ∃ R, R = l.flatMap (· ++ replace) ++ last := ⟨_, rfl⟩
    rw [← hR] at e ih'
    -- `p ++ (replace ++ R) = a ++ (search ++ b)`
    rcases List.append_eq_append_iff.mp e with ⟨x, hx1, hx2⟩ | ⟨x, hx1, hx2⟩
    · -- a = p ++ x, replace ++ R = x ++ (search ++ b)
      rcases List.append_eq_append_iff.mp hx2 with ⟨y, hy1, hy2⟩ | ⟨y, hy1, hy2⟩
      · exact ih' ⟨y, b, by rw [hy2, List.append_assoc]⟩
      · -- replace = x ++ y, search ++ b = y ++ R
        match y, search, hs with
        | [], s, _ => exact ih' ⟨[], b, by rw [List.nil_append]; exact hy2.symm⟩
        | c :: y, d :: s, _ =>
          have : d = c := by simpa using congrArg List.head? hy2
          exact hr d (by simp) (by rw [hy1, this]; simp)
    · -- p = a ++ x, search ++ b = x ++ (replace ++ R)
      rcases List.append_eq_append_iff.mp hx2 with ⟨y, hy1, hy2⟩ | ⟨y, hy1, hy2⟩
      · -- x = search ++ y
        have := h3 p (by simp) a (y ++ search) (by rw [hx1, hy1]; simp)
        simp at this
        exact hs this.2
      · -- search = x ++ y, replace ++ R = y ++ b
        match y, replace, hne with
        | [], r, _ =>
          rw [List.append_nil] at hy1
          have := h3 p (by simp) a search (by rw [hx1, hy1])
          exact hs this
        | c :: y, d :: r, _ =>
          have : d = c := by simpa using congrArg List.head? hy2
          exact hr c (by rw [hy1]; simp) (by rw [this]; simp)

/-- C50 fails for an empty text to be replaced: the loop never ends. -/
theorem C50_empty_violated (source replace : Text) : replaceAll source [] replace = .diverge := by
  unfold replaceAll
  rw [replaceFrom, dif_pos rfl]

/-- C50: the last place of a character, in texts without null characters. -/
theorem C50_lastIndexOf {s : Text} (target : Char) (h0 : '\x00' ∉ s) :
    (target ∉ s → lastIndexOf s target = -1) ∧ ∀ a b, s = a ++ target :: b → target ∉ b → lastIndexOf s target = a.length := by
  have h := lastIndexLoop_ok (target := target) (-1) 0 h0
  unfold lastIndexOf
  constructor
  · intro hn
    rcases h with ⟨-, h⟩ | ⟨a, b, rfl, -, -⟩
    · exact h
    · simp at hn
  · rintro a b rfl hb
    rcases h with ⟨h, -⟩ | ⟨a', b', h1, h2, h3⟩
    · simp at h
    · refine h3.trans ?_
      have : a.length = a'.length := by
        rcases List.append_eq_append_iff.mp h1 with ⟨x, hx1, hx2⟩ | ⟨x, hx1, hx2⟩
        · cases x with
          | nil => rw [hx1]; simp
          | cons c x => exact absurd (by rw [(List.cons.inj hx2).2]; simp) hb
        · cases x with
          | nil => rw [hx1]; simp
          | cons c x => exact absurd (by rw [(List.cons.inj hx2).2]; simp) h2
      simp [this]

/-- C50: a quoted text can be read back, and quotes inside it have backslashes before them. -/
theorem C50_quoted (s : Text) : ∃ body, quoted s = '"' :: body ++ ['"'] ∧ unescape body = s := by
  refine ⟨_, rfl, ?_⟩
  induction s with
  | nil => rfl
  | cons c s ih =>
    rw [List.flatMap_cons]
    by_cases hc : c = '"' ∨ c = '\\'
    · rw [if_pos hc]
      simp only [List.cons_append, List.nil_append, unescape]
      rw [ih]
    · rw [if_neg hc]
      push Not at hc
      simp only [List.cons_append, List.nil_append]
      rw [unescape]
      · rw [ih]
      · intro h
        exact absurd h hc.2
      · intro x y h
        exact absurd h hc.2

/-- Non-vacuity. -/
example : explode "a.b..".toList '.' = ["a".toList, "b".toList, [], []] ∧ trim "  a b ".toList = "a b".toList ∧
    (∀ c ∈ "ab".toList, c ∉ "c".toList) ∧ Replaced "ab".toList "c".toList "aabab".toList "acc".toList := by
  refine ⟨?_, by decide, by decide, ["a".toList, []], [], by decide, by decide, ?_, ?_⟩
  · rw [explode_cut _ (le_refl _) (by decide)]
    decide
  · intro p hp a b e
    have hl := congrArg List.length e
    simp at hp
    rcases hp with rfl | rfl
    · match a, b with
      | _, [] => rfl
      | [], [x] => simp at e
      | [], x :: y :: l => simp at hl
      | _ :: _, x :: l => simp at hl; omega
    · match a, b with
      | _, [] => rfl
      | _, x :: l => simp at hl; omega
  · rintro ⟨a, b, e⟩
    have hl := congrArg List.length e
    simp at hl

end Rampack
