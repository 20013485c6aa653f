import Verif.Utils.StringsLemmas
import Verif.OutcomeLemmas
/-
Lemmas about folding.
-/
namespace Rampack.Fold

open Spec

/-- How a text is folded, line after line. -/
inductive Folds (M : Text) (w : Nat) : Text → Text → Prop where
  | last {r : Text} (h : r.length ≤ w) (h0 : r ≠ []) : Folds M w r (M ++ r)
  | nil : Folds M w [] []
  | enter {a b out : Text} (ha : '\n' ∉ a) (hl : a.length < w) (hw : w < (a ++ '\n' :: b).length) (h : Folds M w b out) : Folds M w (a ++ '\n' :: b) (M ++ (a ++ ['\n']) ++ out)
  | space {a b out : Text} (ha : '\n' ∉ a) (hl : a.length = w) (h : Folds M w b out) : Folds M w (a ++ ' ' :: b) (M ++ (a ++ ['\n']) ++ out)
  | break {a b out : Text} {c : Char} (ha : '\n' ∉ a) (hs : ' ' ∉ a) (hc : c ≠ ' ') (hl : a.length = w) (h : Folds M w (c :: b) out) : Folds M w (a ++ c :: b) (M ++ (a ++ ['\n']) ++ out)
  | blank {a b out : Text} (ha : '\n' ∉ a) (hl : a.length < w) (hw : w < (a ++ ' ' :: b).length) (h : Folds M w b out) : Folds M w (a ++ ' ' :: b) (M ++ (a ++ [' ', '\n']) ++ out)

theorem findEnter_none {s : Text} {p w : Nat} (h : findEnterInCurrentLine s p w = none) : '\n' ∉ (s.drop p).take w := by
  unfold findEnterInCurrentLine at h
  intro hm
  cases hf : (s.drop p).findIdx? (· == '\n') with
  | none =>
    rw [List.findIdx?_eq_none_iff] at hf
    have := hf _ (List.mem_of_mem_take hm)
    simp at this
  | some k =>
    rw [hf] at h
    simp only at h
    split at h
    · rename_i hk
      obtain ⟨hk1, hk2, hk3⟩ := List.findIdx?_eq_some_iff_getElem.mp hf
      obtain ⟨i, hi, e⟩ := List.getElem_of_mem hm
      rw [List.getElem_take] at e
      have hi' : i < w := by simp at hi; omega
      have := hk3 i (by omega)
      rw [e] at this
      simp at this
    · cases h

theorem findEnter_some {s : Text} {p w n : Nat} (h : findEnterInCurrentLine s p w = some n) :
    ∃ a b, '\n' ∉ a ∧ a.length < w ∧ s.drop p = a ++ '\n' :: b ∧ n = p + a.length := by
  unfold findEnterInCurrentLine at h
  cases hf : (s.drop p).findIdx? (· == '\n') with
  | none => rw [hf] at h; cases h
  | some k =>
    rw [hf] at h
    simp only at h
    split at h
    · cases h
    · rename_i hk
      cases h
      obtain ⟨hk1, hk2, hk3⟩ := List.findIdx?_eq_some_iff_getElem.mp hf
      refine ⟨(s.drop p).take k, (s.drop p).drop (k + 1), ?_, by simp; omega, ?_, by simp; simp at hk1; omega⟩
      · intro hm
        obtain ⟨i, hi, e⟩ := List.getElem_of_mem hm
        rw [List.getElem_take] at e
        have := hk3 i (by simp at hi; omega)
        rw [e] at this
        simp at this
      · have e : (s.drop p)[k] = '\n' := by simpa using hk2
        conv_lhs => rw [← List.take_append_drop k (s.drop p), List.drop_eq_getElem_cons hk1, e]

theorem findSpace_none {s : Text} {p w : Nat} (h : findLastSpaceInCurrentLine s p w = none) (hl : p + w ≤ s.length) : ' ' ∉ (s.drop p).take w := by
  unfold findLastSpaceInCurrentLine at h
  intro hm
  obtain ⟨i, hi, e⟩ := List.getElem_of_mem hm
  rw [List.getElem_take, List.getElem_drop] at e
  have hi' : i < w := by simp at hi; omega
  have hlen : (s.take (p + w)).length = p + w := by simp; omega
  cases hf : (s.take (p + w)).reverse.findIdx? (· == ' ') with
  | none =>
    rw [List.findIdx?_eq_none_iff] at hf
    have := hf ' ' (by
      rw [List.mem_reverse, ← e]
      have : (s.take (p + w))[p + i]'(by omega) ∈ s.take (p + w) := List.getElem_mem _
      rw [List.getElem_take] at this
      exact this)
    simp at this
  | some k =>
    rw [hf] at h
    simp only at h
    rw [hlen] at h
    split at h
    · rename_i hk
      obtain ⟨hk1, hk2, hk3⟩ := List.findIdx?_eq_some_iff_getElem.mp hf
      have := hk3 (p + w - 1 - (p + i)) (by omega)
      rw [List.getElem_reverse, List.getElem_take] at this
      have hidx : (s.take (p + w)).length - 1 - (p + w - 1 - (p + i)) = p + i := by omega
      simp only [hidx] at this
      rw [e] at this
      simp at this
    · cases h

theorem findSpace_some {s : Text} {p w n : Nat} (h : findLastSpaceInCurrentLine s p w = some n) (hl : p + w ≤ s.length) :
    ∃ a b, a.length < w ∧ s.drop p = a ++ ' ' :: b ∧ n = p + a.length := by
  unfold findLastSpaceInCurrentLine at h
  have hlen : (s.take (p + w)).length = p + w := by simp; omega
  cases hf : (s.take (p + w)).reverse.findIdx? (· == ' ') with
  | none => rw [hf] at h; cases h
  | some k =>
    rw [hf] at h
    simp only at h
    rw [hlen] at h
    split at h
    · cases h
    · rename_i hk
      cases h
      obtain ⟨hk1, hk2, hk3⟩ := List.findIdx?_eq_some_iff_getElem.mp hf
      rw [List.getElem_reverse, List.getElem_take] at hk2
      rw [List.length_reverse, hlen] at hk1
      have hj : p + w - 1 - k - p < (s.drop p).length := by simp; omega
      refine ⟨(s.drop p).take (p + w - 1 - k - p), (s.drop p).drop (p + w - 1 - k - p + 1), by simp; omega, ?_, by simp; omega⟩
      have e : (s.drop p)[p + w - 1 - k - p] = ' ' := by
        rw [List.getElem_drop]
        have : s[p + (p + w - 1 - k - p)] = s[(s.take (p + w)).length - 1 - k] := by
          congr 1
          omega
        rw [this]
        simpa using hk2
      conv_lhs => rw [← List.take_append_drop (p + w - 1 - k - p) (s.drop p), List.drop_eq_getElem_cons hj, e]

theorem loop_ok {s : Text} {m w : Nat} (hw : 0 < w) : ∀ (n p : Nat), s.length ≤ n + p → ∃ out, loop s m w p = .ok out ∧ Folds (List.replicate m ' ') w (s.drop p) out := by
  intro n
  induction n with
  | zero =>
    intro p hn
    refine ⟨[], ?_, ?_⟩
    · rw [loop, if_neg (by unfold notLastLine; simp; omega), if_neg (by omega)]
    · rw [List.drop_eq_nil_of_le (by omega)]
      exact .nil
  | succ n ih =>
    intro p hn
    rw [loop]
    by_cases hl : p + w < s.length
    · rw [if_pos (show notLastLine s p w = true from decide_eq_true hl)]
      have hdl : w < (s.drop p).length := by simp; omega
      have fin : ∀ {chunk : Text} {next : Nat}, step s p w = (chunk, next) → p < next →
          (∀ out, Folds (List.replicate m ' ') w (s.drop next) out → Folds (List.replicate m ' ') w (s.drop p) (List.replicate m ' ' ++ chunk ++ out)) →
          ∃ out, (if p < (step s p w).2 then do
            let rest ← loop s m w (step s p w).2
            return List.replicate m ' ' ++ (step s p w).1 ++ rest
            else .diverge) = .ok out ∧ Folds (List.replicate m ' ') w (s.drop p) out := by
        intro chunk next e h1 h2
        obtain ⟨out, h3, h4⟩ := ih next (by omega)
        rw [e, if_pos h1, h3]
        exact ⟨_, rfl, h2 out h4⟩
      have hnext : ∀ {a b : Text} {c : Char}, s.drop p = a ++ c :: b → s.drop (p + a.length + 1) = b := by
        intro a b c e
        rw [show p + a.length + 1 = p + (a.length + 1) by omega, ← List.drop_drop, e, ← List.drop_drop]
        simp
      cases he : findEnterInCurrentLine s p w with
      | some e =>
        obtain ⟨a, b, ha, hal, hs, rfl⟩ := findEnter_some he
        refine fin (by unfold step; rw [he]) (by omega) fun out ho => ?_
        rw [hnext hs] at ho
        rw [show p + a.length - p + 1 = a.length + 1 by omega]
        rw [hs] at hdl ⊢
        rw [show (a ++ '\n' :: b).take (a.length + 1) = a ++ ['\n'] by rw [List.take_append]; simp]
        exact .enter ha hal hdl ho
      | none =>
        have hno := findEnter_none he
        obtain ⟨c, b, hcb⟩ : ∃ c b, s.drop p = (s.drop p).take w ++ c :: b := by
          refine ⟨(s.drop p)[w], (s.drop p).drop (w + 1), ?_⟩
          conv_lhs => rw [← List.take_append_drop w (s.drop p), List.drop_eq_getElem_cons hdl]
        have hlw : ((s.drop p).take w).length = w := by simp; omega
        obtain ⟨a, ha⟩ : ∃ a, a = (s.drop p).take w := ⟨_, rfl⟩
        rw [← ha] at hcb hno hlw
        have hsp : s[p + w]? = some c := by
          rw [← List.getElem?_drop, hcb, List.getElem?_append_right (by omega), hlw]
          simp
        by_cases hsb : c = ' '
        · subst hsb
          refine fin (chunk := (s.drop p).take w ++ ['\n']) (next := p + w + 1) (by unfold step; rw [he]; simp only; rw [if_pos (by unfold spaceOnBreak; rw [hsp]; rfl)]) (by omega) fun out ho => ?_
          have := hnext hcb
          rw [hlw] at this
          rw [this] at ho
          rw [← ha, hcb]
          exact .space hno hlw ho
        · have hnb : ¬ (spaceOnBreak s p w = true) := by
            unfold spaceOnBreak
            rw [hsp]
            simpa using hsb
          cases hls : findLastSpaceInCurrentLine s p w with
          | none =>
            have hns := findSpace_none hls (by omega)
            rw [← ha] at hns
            refine fin (chunk := (s.drop p).take w ++ ['\n']) (next := p + w) (by unfold step; rw [he]; simp only; rw [if_neg hnb, hls]) (by omega) fun out ho => ?_
            have : s.drop (p + w) = c :: b := by
              rw [← List.drop_drop, hcb, List.drop_left' hlw]
            rw [this] at ho
            rw [← ha, hcb]
            exact .break hno hns hsb hlw ho
          | some k =>
            obtain ⟨a', b', hl', e', rfl⟩ := findSpace_some hls (by omega)
            refine fin (chunk := (s.drop p).take (p + a'.length - p + 1) ++ ['\n']) (next := p + a'.length + 1) (by unfold step; rw [he]; simp only; rw [if_neg hnb, hls]) (by omega) fun out ho => ?_
            rw [hnext e'] at ho
            have hno' : '\n' ∉ a' := by
              intro hm
              apply hno
              rw [ha, e', List.take_append]
              exact List.mem_append_left _ (by rw [List.take_of_length_le (by omega)]; exact hm)
            rw [show p + a'.length - p + 1 = a'.length + 1 by omega]
            rw [e'] at hdl ⊢
            rw [show (a' ++ ' ' :: b').take (a'.length + 1) = a' ++ [' '] by rw [List.take_append]; simp]
            rw [List.append_assoc a', List.singleton_append]
            exact .blank hno' hl' hdl ho
    · rw [if_neg (by unfold notLastLine; simpa using hl)]
      by_cases hp : p < s.length
      · rw [if_pos hp]
        exact ⟨_, rfl, .last (by simp; omega) (by intro h; have := List.drop_eq_nil_iff.mp h; omega)⟩
      · rw [if_neg hp, List.drop_eq_nil_of_le (by omega)]
        exact ⟨_, rfl, .nil⟩

theorem fold_ok {s : Text} {width margin : Nat} (h1 : 1 < width) (h2 : margin < width) :
    ∃ out, fold s width margin = .ok out ∧ Folds (List.replicate margin ' ') (width - margin) s out := by
  unfold fold
  rw [decide_eq_true h1, Outcome.require_true, Outcome.ok_bind, decide_eq_true h2, Outcome.require_true, Outcome.ok_bind]
  by_cases hs : s = []
  · rw [if_pos hs, hs]
    exact ⟨[], rfl, .nil⟩
  · rw [if_neg hs]
    exact loop_ok (by omega) s.length 0 (by omega)

/-- A part without `y` lies on one side of it. -/
theorem prefix_split {y : Char} : ∀ {X R l : Text}, l <+: X ++ y :: R → y ∉ l → l <+: X
  | [], R, l, h, hy => by
    cases l with
    | nil => exact List.nil_prefix
    | cons c l =>
      obtain ⟨t, ht⟩ := h
      simp at ht
      exact absurd (by simp [ht.1]) hy
  | x :: X, R, l, h, hy => by
    cases l with
    | nil => exact List.nil_prefix
    | cons c l =>
      rw [List.cons_append, List.cons_prefix_cons] at h
      rw [List.cons_prefix_cons]
      exact ⟨h.1, prefix_split h.2 fun hl => hy (by simp [hl])⟩

theorem infix_split {y : Char} : ∀ {X R l : Text}, l <:+: X ++ y :: R → y ∉ l → l <:+: X ∨ l <:+: R
  | [], R, l, h, hy => by
    rw [List.nil_append, List.infix_cons_iff] at h
    rcases h with h | h
    · left
      have := prefix_split (X := []) h hy
      exact this.isInfix
    · exact Or.inr h
  | x :: X, R, l, h, hy => by
    rw [List.cons_append, List.infix_cons_iff] at h
    rcases h with h | h
    · left
      have := prefix_split (X := x :: X) h hy
      exact this.isInfix
    · rcases infix_split h hy with h | h
      · left
        exact List.infix_cons_iff.mpr (Or.inr h)
      · exact Or.inr h

theorem folds_width {m w : Nat} {r out : Text} (h : Folds (List.replicate m ' ') w r out) {l : Text} (hl : l <:+: out) (hn : '\n' ∉ l) : l.length ≤ m + w := by
  have key : ∀ {X R : Text}, X.length ≤ m + w → l <:+: X ++ '\n' :: R → (l <:+: R → l.length ≤ m + w) → l.length ≤ m + w := by
    intro X R hX hl hR
    rcases infix_split hl hn with h | h
    · exact (h.length_le).trans hX
    · exact hR h
  induction h with
  | last h h0 =>
    have := hl.length_le
    simp at this
    omega
  | nil => simp at hl; simp [hl]
  | @enter a b out ha hl' hw h ih =>
    refine key (X := List.replicate m ' ' ++ a) (R := out) (by simp; omega) (by simpa using hl) ih
  | @space a b out ha hl' h ih =>
    exact key (X := List.replicate m ' ' ++ a) (R := out) (by simp; omega) (by simpa using hl) ih
  | @«break» a b out c ha hs hc hl' h ih =>
    exact key (X := List.replicate m ' ' ++ a) (R := out) (by simp; omega) (by simpa using hl) ih
  | @blank a b out ha hl' hw h ih =>
    exact key (X := List.replicate m ' ' ++ a ++ [' ']) (R := out) (by simp; omega) (by simpa using hl) ih

theorem folds_chars {m w : Nat} {r out : Text} (h : Folds (List.replicate m ' ') w r out) : out.filter (fun c => !isSep c) = r.filter (fun c => !isSep c) := by
  have hM : (List.replicate m ' ').filter (fun c => !isSep c) = [] := by
    rw [List.filter_eq_nil_iff]
    intro c hc
    rw [List.eq_of_mem_replicate hc]
    decide
  have h1 : isSep '\n' = true := by decide
  have h2 : isSep ' ' = true := by decide
  induction h with
  | last h h0 => rw [List.filter_append, hM, List.nil_append]
  | nil => rfl
  | enter ha hl hw h ih => simp only [List.filter_append, hM, List.filter_cons, h1, ih]; simp
  | space ha hl h ih => simp only [List.filter_append, hM, List.filter_cons, h1, h2, ih]; simp
  | «break» ha hs hc hl h ih => simp only [List.filter_append, hM, h1, ih]; simp [h1]
  | blank ha hl hw h ih => simp only [List.filter_append, hM, List.filter_cons, h1, h2, ih]; simp

/-- The line after a break. -/
theorem lineStart_split {X R a b : Text} (hX : '\n' ∉ X) (e : X ++ '\n' :: R = a ++ b) (ha : LineStart a) : a = [] ∨ ∃ a', LineStart a' ∧ a = X ++ '\n' :: a' ∧ R = a' ++ b := by
  rcases ha with rfl | ha
  · exact Or.inl rfl
  · right
    obtain ⟨a0, rfl⟩ : ∃ a0, a = a0 ++ ['\n'] := by
      obtain ⟨ys, hys⟩ := List.getLast?_eq_some_iff.mp ha
      exact ⟨ys, hys⟩
    rw [List.append_assoc, List.singleton_append] at e
    rcases List.append_eq_append_iff.mp e with ⟨x, hx1, hx2⟩ | ⟨x, hx1, hx2⟩
    · -- a0 = X ++ x, '\n' :: R = x ++ '\n' :: b
      cases x with
      | nil =>
        refine ⟨[], Or.inl rfl, by rw [hx1]; simp, ?_⟩
        exact (List.cons.inj hx2).2
      | cons c x =>
        obtain ⟨rfl, hR⟩ := List.cons.inj hx2
        refine ⟨x ++ ['\n'], Or.inr (by simp), by rw [hx1]; simp, by rw [hR]; simp⟩
    · cases x with
      | nil =>
        refine ⟨[], Or.inl rfl, by rw [hx1]; simp, ?_⟩
        exact (List.cons.inj hx2).2.symm
      | cons c x =>
        obtain ⟨rfl, -⟩ := List.cons.inj hx2
        exact absurd (by rw [hx1]; simp) hX

/-- Margins of lines: all lines but those inside the last part have them. -/
theorem folds_margin {m w : Nat} {r out : Text} (h : Folds (List.replicate m ' ') w r out) :
    ∃ head tail, (tail = [] ∨ ∃ t, tail = List.replicate m ' ' ++ t ∧ t <:+ r ∧ t.length ≤ w) ∧ out = head ++ tail ∧
      ∀ a b, out = a ++ b → LineStart a → a.length ≤ head.length → b ≠ [] → List.replicate m ' ' <+: b := by
  have key : ∀ {X R r r' : Text}, '\n' ∉ X → List.replicate m ' ' <+: X → r' <:+ r →
      (∃ head tail, (tail = [] ∨ ∃ t, tail = List.replicate m ' ' ++ t ∧ t <:+ r' ∧ t.length ≤ w) ∧ R = head ++ tail ∧
        ∀ a b, R = a ++ b → LineStart a → a.length ≤ head.length → b ≠ [] → List.replicate m ' ' <+: b) →
      ∃ head tail, (tail = [] ∨ ∃ t, tail = List.replicate m ' ' ++ t ∧ t <:+ r ∧ t.length ≤ w) ∧ X ++ '\n' :: R = head ++ tail ∧
        ∀ a b, X ++ '\n' :: R = a ++ b → LineStart a → a.length ≤ head.length → b ≠ [] → List.replicate m ' ' <+: b := by
    rintro X R r r' hX hM hr ⟨head, tail, h1, h2, h3⟩
    refine ⟨X ++ '\n' :: head, tail, ?_, by rw [h2]; simp, ?_⟩
    · rcases h1 with h1 | ⟨t, h1, h4, h5⟩
      · exact Or.inl h1
      · exact Or.inr ⟨t, h1, h4.trans hr, h5⟩
    · intro a b e ha hal hb
      rcases lineStart_split hX e ha with rfl | ⟨a', ha', rfl, hR⟩
      · rw [List.nil_append] at e
        rw [← e]
        exact hM.trans (List.prefix_append _ _)
      · exact h3 a' b hR ha' (by simp at hal; omega) hb
  have hMn : '\n' ∉ List.replicate m ' ' := by
    intro hm
    exact absurd (List.eq_of_mem_replicate hm) (by decide)
  induction h with
  | @last r h h0 =>
    refine ⟨[], List.replicate m ' ' ++ r, Or.inr ⟨r, rfl, List.suffix_refl _, h⟩, rfl, ?_⟩
    intro a b e ha hal hb
    obtain rfl : a = [] := List.length_eq_zero_iff.mp (by simpa using hal)
    rw [List.nil_append] at e
    rw [← e]
    exact List.prefix_append _ _
  | nil =>
    refine ⟨[], [], Or.inl rfl, rfl, ?_⟩
    intro a b e ha hal hb
    simp at e
    exact absurd e.2 hb
  | @enter a b out ha hl' hw h ih =>
    have := key (X := List.replicate m ' ' ++ a) (r := a ++ '\n' :: b) (by simp [ha, hMn]) (List.prefix_append _ _) ⟨a ++ ['\n'], by simp⟩ ih
    simpa using this
  | @space a b out ha hl' h ih =>
    have := key (X := List.replicate m ' ' ++ a) (r := a ++ ' ' :: b) (by simp [ha, hMn]) (List.prefix_append _ _) ⟨a ++ [' '], by simp⟩ ih
    simpa using this
  | @«break» a b out c ha hs hc hl' h ih =>
    have := key (X := List.replicate m ' ' ++ a) (r := a ++ c :: b) (by simp [ha, hMn]) (List.prefix_append _ _) ⟨a, by simp⟩ ih
    simpa using this
  | @blank a b out ha hl' hw h ih =>
    have := key (X := List.replicate m ' ' ++ a ++ [' ']) (r := a ++ ' ' :: b) (by simp [ha, hMn]) (by rw [List.append_assoc]; exact List.prefix_append _ _) ⟨a ++ [' '], by simp⟩ ih
    simpa using this

theorem words_sep {M t : Text} {l : List Text} (hM : ∀ c ∈ M, isSep c = true) (h : Words t l) : Words (M ++ t) l := by
  induction M with
  | nil => exact h
  | cons c M ih => exact .sep (hM c (by simp)) (ih fun x hx => hM x (by simp [hx]))

theorem words_total : ∀ (n : Nat) {t : Text}, t.length ≤ n → ∃ l, Words t l
  | n, [], _ => ⟨[], .nil⟩
  | 0, c :: t, h => by simp at h
  | n + 1, c :: t, h => by
    simp at h
    cases hc : isSep c with
    | true =>
      obtain ⟨l, hl⟩ := words_total n (t := t) h
      exact ⟨l, .sep hc hl⟩
    | false =>
      have hlen := (List.dropWhile_sublist (fun x => !isSep x) (l := t)).length_le
      obtain ⟨l, hl⟩ := words_total n (t := t.dropWhile fun x => !isSep x) (by omega)
      refine ⟨(c :: t.takeWhile fun x => !isSep x) :: l, ?_⟩
      have e : c :: t = (c :: t.takeWhile fun x => !isSep x) ++ t.dropWhile fun x => !isSep x := by
        rw [List.cons_append, List.takeWhile_append_dropWhile]
      rw [e]
      refine .word (by simp) ?_ ?_ hl
      · intro x hx
        rcases List.mem_cons.mp hx with rfl | hx
        · exact hc
        · simpa using List.mem_takeWhile_imp hx
      · intro x hx
        have := List.head?_dropWhile_not (fun x => !isSep x) t
        rw [Option.mem_def.mp hx] at this
        simpa using this

/-- Words on both sides of a separator. -/
theorem words_split {x : Char} (hx : isSep x = true) {t : Text} {l : List Text} (h : Words t l) : ∀ {a b : Text}, t = a ++ x :: b → ∃ l1 l2, l = l1 ++ l2 ∧ Words a l1 ∧ Words b l2 := by
  induction h with
  | nil => intro a b e; simp at e
  | @sep c t l hc h ih =>
    intro a b e
    cases a with
    | nil =>
      obtain ⟨rfl, rfl⟩ := List.cons.inj e
      exact ⟨[], l, rfl, .nil, h⟩
    | cons y a =>
      obtain ⟨rfl, e'⟩ := List.cons.inj e
      obtain ⟨l1, l2, h1, h2, h3⟩ := ih e'
      exact ⟨l1, l2, h1, .sep hc h2, h3⟩
  | @word w t l hw hc ht h ih =>
    intro a b e
    rcases List.append_eq_append_iff.mp e with ⟨y, hy1, hy2⟩ | ⟨y, hy1, hy2⟩
    · obtain ⟨l1, l2, h1, h2, h3⟩ := ih hy2
      refine ⟨w :: l1, l2, by rw [h1]; rfl, ?_, h3⟩
      rw [hy1]
      refine .word hw hc ?_ h2
      intro c hc'
      apply ht
      rw [hy2]
      cases y with
      | nil => cases hc'
      | cons z y => exact hc'
    · cases y with
      | nil =>
        rw [List.append_nil] at hy1
        obtain ⟨l1, l2, h1, h2, h3⟩ := ih (a := []) (b := b) hy2.symm
        refine ⟨w :: l1, l2, by rw [h1]; rfl, ?_, h3⟩
        have := Words.word hw hc (t := []) (by simp) h2
        rw [List.append_nil] at this
        rw [← hy1]
        exact this
      | cons z y =>
        obtain ⟨rfl, -⟩ := List.cons.inj hy2
        have := hc x (by rw [hy1]; simp)
        rw [hx] at this
        cases this

theorem words_join {x : Char} (hx : isSep x = true) {a b : Text} {l1 l2 : List Text} (h1 : Words a l1) (h2 : Words b l2) : Words (a ++ x :: b) (l1 ++ l2) := by
  induction h1 with
  | nil => exact .sep hx h2
  | sep hc h ih => exact .sep hc ih
  | @word w t l hw hc ht h ih =>
    rw [List.append_assoc, List.cons_append]
    refine .word hw hc ?_ ih
    intro c hc'
    cases t with
    | nil => simp at hc'; rw [← hc']; exact hx
    | cons y t => exact ht c hc'

/-- A part without separators is in one word. -/
theorem words_prefix {t : Text} {l : List Text} (h : Words t l) : ∀ {x b : Text}, x ≠ [] → (∀ c ∈ x, isSep c = false) → t = x ++ b → ∃ v l', l = v :: l' ∧ x <+: v := by
  intro x b h0 hx e
  cases h with
  | nil => simp at e; exact absurd e.1 h0
  | @sep c t l hc h =>
    cases x with
    | nil => exact absurd rfl h0
    | cons y x =>
      obtain ⟨rfl, -⟩ := List.cons.inj e
      have := hx c (by simp)
      rw [hc] at this
      cases this
  | @word w t l hw hc ht h =>
    refine ⟨w, l, rfl, ?_⟩
    rcases List.append_eq_append_iff.mp e with ⟨y, hy1, hy2⟩ | ⟨y, hy1, hy2⟩
    · cases y with
      | nil => rw [hy1]; simp
      | cons z y =>
        have h1 := ht z (by rw [hy2]; simp)
        have h2 := hx z (by rw [hy1]; simp)
        rw [h1] at h2
        cases h2
    · exact ⟨y, hy1.symm⟩

theorem words_unique {t : Text} {l : List Text} (h : Words t l) : ∀ {l' : List Text}, Words t l' → l' = l := by
  induction h with
  | nil =>
    intro l' h'
    generalize ht : ([] : Text) = t at h'
    cases h' with
    | nil => rfl
    | sep hc h => cases ht
    | word hw hc ht' h => simp at ht; exact absurd ht.1 hw
  | @sep c t l hc h ih =>
    intro l' h'
    generalize e : c :: t = t' at h'
    cases h' with
    | nil => cases e
    | sep hc' h' => obtain ⟨rfl, rfl⟩ := List.cons.inj e; exact ih h'
    | @word w t2 l2 hw hc' ht' h' =>
      cases w with
      | nil => exact absurd rfl hw
      | cons y w =>
        obtain ⟨rfl, -⟩ := List.cons.inj e
        have := hc' c (by simp)
        rw [hc] at this
        cases this
  | @word w t l hw hc ht h ih =>
    intro l' h'
    generalize e : w ++ t = t' at h'
    cases h' with
    | nil => simp at e; exact absurd e.1 hw
    | @sep c2 t2 l2 hc' h' =>
      cases w with
      | nil => exact absurd rfl hw
      | cons y w =>
        obtain ⟨rfl, -⟩ := List.cons.inj e
        have := hc y (by simp)
        rw [hc'] at this
        cases this
    | @word w2 t2 l2 hw' hc' ht' h' =>
      have hww : w2 = w ∧ t2 = t := by
        rcases List.append_eq_append_iff.mp e with ⟨y, hy1, hy2⟩ | ⟨y, hy1, hy2⟩
        · cases y with
          | nil => simp at hy1 hy2; exact ⟨hy1, hy2.symm⟩
          | cons z y =>
            have h1 := ht z (by rw [hy2]; simp)
            have h2 := hc' z (by rw [hy1]; simp)
            rw [h1] at h2
            cases h2
        · cases y with
          | nil => simp at hy1 hy2; exact ⟨hy1.symm, hy2⟩
          | cons z y =>
            have h1 := ht' z (by rw [hy2]; simp)
            have h2 := hc z (by rw [hy1]; simp)
            rw [h1] at h2
            cases h2
      obtain ⟨rfl, rfl⟩ := hww
      rw [ih h']

theorem folds_words {m w : Nat} {r out : Text} (h : Folds (List.replicate m ' ') w r out) : ∀ {l : List Text}, Words r l → (∀ v ∈ l, v.length ≤ w) → Words out l := by
  have hM : ∀ c ∈ List.replicate m ' ', isSep c = true := by
    intro c hc
    rw [List.eq_of_mem_replicate hc]
    decide
  have h1 : isSep '\n' = true := by decide
  have h2 : isSep ' ' = true := by decide
  induction h with
  | last h h0 => intro l hl hv; exact words_sep hM hl
  | nil => intro l hl hv; exact hl
  | enter ha hl hw h ih =>
    intro l hl' hv
    obtain ⟨l1, l2, rfl, k1, k2⟩ := words_split h1 hl' rfl
    rw [List.append_assoc, List.append_assoc]
    exact words_sep hM (words_join h1 k1 (ih k2 fun v hv' => hv v (by simp [hv'])))
  | space ha hl h ih =>
    intro l hl' hv
    obtain ⟨l1, l2, rfl, k1, k2⟩ := words_split h2 hl' rfl
    rw [List.append_assoc, List.append_assoc]
    exact words_sep hM (words_join h1 k1 (ih k2 fun v hv' => hv v (by simp [hv'])))
  | @«break» a b out c ha hs hc hl h ih =>
    intro l hl' hv
    have hasep : ∀ x ∈ a, isSep x = false := by
      intro x hx
      unfold isSep
      have h3 : x ≠ ' ' := fun e => hs (e ▸ hx)
      have h4 : x ≠ '\n' := fun e => ha (e ▸ hx)
      simp [h3, h4]
    by_cases hcn : c = '\n'
    · subst hcn
      obtain ⟨l1, l2, rfl, k1, k2⟩ := words_split h1 hl' rfl
      rw [List.append_assoc, List.append_assoc]
      exact words_sep hM (words_join h1 k1 (ih (.sep h1 k2) fun v hv' => hv v (by simp [hv'])))
    · exfalso
      obtain ⟨v, l', rfl, hpre⟩ := words_prefix hl' (x := a ++ [c]) (b := b) (by simp) (by
        intro x hx
        rcases List.mem_append.mp hx with hx | hx
        · exact hasep x hx
        · obtain rfl : x = c := by simpa using hx
          unfold isSep
          simp [hc, hcn]) (by simp)
      have := hpre.length_le
      have := hv v (by simp)
      simp at *
      omega
  | blank ha hl hw h ih =>
    intro l hl' hv
    obtain ⟨l1, l2, rfl, k1, k2⟩ := words_split h2 hl' rfl
    rw [List.append_assoc, List.append_assoc]
    exact words_sep hM (words_join h2 k1 (.sep h1 (ih k2 fun v hv' => hv v (by simp [hv']))))

end Rampack.Fold
