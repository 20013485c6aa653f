import Verif.Utils.FoldLemmas
/-
C49: folding of text.
-/
namespace Rampack

open Spec Fold

/-- C49: text can be folded to a width which is at least two and more than the margin. -/
theorem C49_total (s : Text) (width margin : Nat) : (∃ out, fold s width margin = .ok out) ↔ 1 < width ∧ margin < width := by
  constructor
  · rintro ⟨out, h⟩
    unfold fold at h
    obtain ⟨u, h1, h⟩ := Outcome.bind_eq_ok.mp h
    obtain ⟨v, h2, h⟩ := Outcome.bind_eq_ok.mp h
    exact ⟨of_decide_eq_true (Outcome.require_eq_ok.mp h1), of_decide_eq_true (Outcome.require_eq_ok.mp h2)⟩
  · rintro ⟨h1, h2⟩
    obtain ⟨out, h, -⟩ := fold_ok (s := s) h1 h2
    exact ⟨out, h⟩

theorem fold_folds {s out : Text} {width margin : Nat} (h : fold s width margin = .ok out) : margin < width ∧ Folds (List.replicate margin ' ') (width - margin) s out := by
  obtain ⟨h1, h2⟩ := (C49_total s width margin).mp ⟨out, h⟩
  obtain ⟨out', h3, h4⟩ := fold_ok (s := s) h1 h2
  rw [h] at h3
  obtain rfl := Outcome.ok_inj.mp h3
  exact ⟨h2, h4⟩

/-- C49: no line is longer than the width: no part of the folded text without line ends is. -/
theorem C49_width {s out : Text} {width margin : Nat} (h : fold s width margin = .ok out) (a line b : Text) (e : out = a ++ line ++ b) (hl : '\n' ∉ line) : line.length ≤ width := by
  obtain ⟨h1, h2⟩ := fold_folds h
  have := folds_width h2 (l := line) ⟨a, b, e.symm⟩ hl
  omega

/-- C49: words which fit in a line are not broken: the folded text has the same words in the same order. -/
theorem C49_words {s out : Text} {width margin : Nat} (h : fold s width margin = .ok out) {l : List Text} (hw : Words s l) (hl : ∀ v ∈ l, v.length ≤ width - margin) :
    ∀ l', Words out l' ↔ l' = l := by
  obtain ⟨-, h2⟩ := fold_folds h
  have := folds_words h2 hw hl
  intro l'
  constructor
  · exact words_unique this
  · rintro rfl
    exact this

/-- C49: words which do not fit are broken, but no characters are lost: apart from spaces and line ends, the folded text has the same characters in the same order. -/
theorem C49_chars {s out : Text} {width margin : Nat} (h : fold s width margin = .ok out) : out.filter (fun c => !isSep c) = s.filter (fun c => !isSep c) :=
  folds_chars (fold_folds h).2

/-- C49: each text has exactly one sequence of words, so that `C49_words` is not empty. -/
theorem C49_words_exist (s : Text) : ∃ l, ∀ l', Words s l' ↔ l' = l := by
  obtain ⟨l, hl⟩ := words_total _ (le_refl s.length)
  exact ⟨l, fun l' => ⟨words_unique hl, fun e => e ▸ hl⟩⟩

/-- C49, partially: every line starts with the margin, apart from lines inside the last part of the text, of at most `width - margin` characters. Missing: lines inside this part, see `C49_margin_violated`. -/
theorem C49_margin_partial {s out : Text} {width margin : Nat} (h : fold s width margin = .ok out) :
    ∃ head tail, out = head ++ tail ∧ (tail = [] ∨ ∃ t, tail = List.replicate margin ' ' ++ t ∧ t <:+ s ∧ t.length ≤ width - margin) ∧
      ∀ a b, out = a ++ b → LineStart a → a.length ≤ head.length → b ≠ [] → List.replicate margin ' ' <+: b := by
  obtain ⟨head, tail, h1, h2, h3⟩ := folds_margin (fold_folds h).2
  exact ⟨head, tail, h2, h1, h3⟩

/-- C49: every line starts with the margin, if the text has no line ends in its last `width - margin` characters (for example, if it has none at all). -/
theorem C49_margin_no_ends {s out : Text} {width margin : Nat} (h : fold s width margin = .ok out) (hs : '\n' ∉ s.drop (s.length - (width - margin))) :
    ∀ a b, out = a ++ b → LineStart a → b ≠ [] → List.replicate margin ' ' <+: b := by
  obtain ⟨head, tail, h1, h2, h3⟩ := C49_margin_partial h
  intro a b e ha hb
  by_cases hal : a.length ≤ head.length
  · exact h3 a b e ha hal hb
  · exfalso
    have hn : '\n' ∉ tail := by
      rcases h2 with rfl | ⟨t, rfl, ⟨x, hx⟩, ht⟩
      · simp
      · simp only [List.mem_append, not_or]
        refine ⟨fun hm => absurd (List.eq_of_mem_replicate hm) (by decide), fun hm => hs ?_⟩
        rw [← hx, List.drop_append]
        apply List.mem_append_right
        rw [show (x ++ t).length - (width - margin) - x.length = 0 by simp; omega]
        exact hm
    rw [h1] at e
    rcases List.append_eq_append_iff.mp e with ⟨y, hy1, hy2⟩ | ⟨y, hy1, hy2⟩
    · have hy : y ≠ [] := by rintro rfl; simp at hy1; rw [hy1] at hal; exact hal (le_refl _)
      rcases ha with rfl | ha
      · simp at hal
      · rw [hy1, List.getLast?_append] at ha
        cases hg : y.getLast? with
        | none => exact hy (List.getLast?_eq_none_iff.mp hg)
        | some c =>
          rw [hg] at ha
          obtain rfl : c = '\n' := by simpa using ha
          exact hn (by rw [hy2]; exact List.mem_append_left _ (List.mem_of_getLast? hg))
    · rw [hy1] at hal
      simp at hal

/-- C49 fails for line ends in the last part of the text: only its first line gets the margin. -/
theorem C49_margin_violated : fold "a\nb".toList 10 2 = .ok "  a\nb".toList := by
  unfold fold
  rw [if_neg (by decide), loop, if_neg (by decide), if_pos (by decide)]
  rfl

/-- A line end right after a full line gives an additional line with only the margin. -/
theorem C49_blank_line : fold "ab\ncde".toList 3 1 = .ok " ab\n \n cd\n e".toList := by
  unfold fold
  rw [if_neg (by decide), loop, if_pos (by decide), if_pos (by decide), loop, if_pos (by decide), if_pos (by decide), loop, if_pos (by decide), if_pos (by decide), loop, if_neg (by decide), if_pos (by decide)]
  decide

/-- Non-vacuity: an example from the documentation. -/
example : fold "Long string with a margin".toList 10 4 = .ok "    Long \n    string\n    with a\n    margin".toList ∧ '\n' ∉ "Long string with a margin".toList.drop 19 ∧
    ∃ l, Words "Long string".toList l ∧ ∀ v ∈ l, v.length ≤ 10 - 4 := by
  refine ⟨?_, by decide, ["Long".toList, "string".toList], ?_, by decide⟩
  · unfold fold
    rw [if_neg (by decide), loop, if_pos (by decide), if_pos (by decide), loop, if_pos (by decide), if_pos (by decide), loop, if_pos (by decide), if_pos (by decide), loop, if_neg (by decide), if_pos (by decide)]
    decide
  · exact .word (w := "Long".toList) (t := " string".toList) (by decide) (by decide) (by decide)
      (.sep (by decide) (.word (w := "string".toList) (t := []) (by decide) (by decide) (by decide) .nil))

end Rampack
