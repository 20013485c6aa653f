import Verif.IO.LinesSpec
import Verif.IO.TextLemmas
/-
Lemmas about reading lines backwards.
-/
namespace Rampack

open Spec

namespace TextFile

theorem findBefore_eq {t : Text} {q : Nat} (hq : q = 0 ∨ t[q]? = some '\n') : ∀ {p : Nat}, q < p → (∀ i, q < i → i < p → t[i]? ≠ some '\n') →
    findBefore t p = .ok q
  | 0, h, _ => absurd h (by omega)
  | p + 1, h, hn => by
    unfold findBefore
    by_cases e : p = q
    · rw [if_pos (by rw [e]; exact hq), e]
    · rw [if_neg]
      · exact findBefore_eq hq (by omega) (fun i h1 h2 => hn i h1 (by omega))
      · rintro (h0 | h0)
        · omega
        · exact hn p (by omega) (by omega) h0

/-- The end of the text or of a line. -/
def AtEnd (after : Text) : Prop := after = [] ∨ ∃ r, after = '\n' :: r

theorem getline_at {line after : Text} (hl : '\n' ∉ line) (ha : AtEnd after) (hne : line ++ after ≠ []) :
    ∃ e, (⟨line ++ after, false, false⟩ : TextIn).getline = (line, ⟨after.drop 1, e, false⟩) := by
  rcases ha with rfl | ⟨r, rfl⟩
  · have h : ∀ c ∈ line, (c != '\n') = true := fun c hc => by
      rw [bne_iff_ne]; rintro rfl; exact hl hc
    have h1 : (line ++ []).dropWhile (· != '\n') = [] := by
      rw [List.append_nil, List.dropWhile_eq_nil_iff]; exact h
    refine ⟨true, ?_⟩
    unfold TextIn.getline
    simp only [TextIn.good, Bool.not_false, Bool.and_self, if_true, h1]
    simp only [List.append_nil] at hne
    simp [hne]
  · exact ⟨false, by rw [TextIn.getline_ok hl]; rfl⟩

theorem takeLine_eq {t line after : Text} {p q : Nat} (hl : '\n' ∉ line) (ha : AtEnd after) (hq : lineStart t p = q) (hd : t.drop q = line ++ after) (e x : Bool)
    (r : Nat) : takeLine ⟨t, r, e, x⟩ p = (line, ⟨t, p, false, false⟩) := by
  unfold takeLine
  simp only [hq]
  by_cases hlt : q < t.length
  · rw [if_pos hlt]
    have hne : line ++ after ≠ [] := by
      rw [← hd]; intro h; rw [List.drop_eq_nil_iff] at h; omega
    obtain ⟨b, hb⟩ := getline_at hl ha hne
    simp only [getline, toIn, hd, hb, ofIn, seekTo]
    simp
  · rw [if_neg hlt]
    rw [List.drop_eq_nil_of_le (by omega)] at hd
    have : line = [] := (List.append_eq_nil_iff.mp hd.symm).1
    rw [this]

theorem back_line {before line after : Text} (hl : '\n' ∉ line) (ha : AtEnd after) (e : Bool) :
    getlineBackwards ⟨before ++ '\n' :: (line ++ after), before.length + 1 + line.length, e, false⟩ =
      .ok (line, ⟨before ++ '\n' :: (line ++ after), before.length, false, false⟩) := by
  have h1 : findBefore (before ++ '\n' :: (line ++ after)) (before.length + 1 + line.length) = .ok before.length := by
    refine findBefore_eq (.inr ?_) (by omega) fun i h1 h2 => ?_
    · rw [List.getElem?_append_right le_rfl]; simp
    · rw [List.getElem?_append_right (by omega)]
      obtain ⟨j, hj⟩ : ∃ j, i - before.length = j + 1 := ⟨i - before.length - 1, by omega⟩
      rw [hj, List.getElem?_cons_succ, List.getElem?_append_left (by omega)]
      intro h
      exact hl (List.mem_of_getElem? h)
  unfold getlineBackwards
  rw [if_neg (by simp), if_neg]
  · simp only [h1, Outcome.ok_bind]
    rw [takeLine_eq hl ha rfl]
    · rfl
    · have : lineStart (before ++ '\n' :: (line ++ after)) before.length = before.length + 1 := by
        unfold lineStart
        rw [if_pos]
        rw [List.getElem?_append_right le_rfl]; simp
      rw [this, List.drop_append]
      simp
  · unfold tellg
    split
    · simp
    · simp

theorem back_first {line after : Text} (hl : '\n' ∉ line) (hne : line ≠ []) (ha : AtEnd after) (e : Bool) :
    getlineBackwards ⟨line ++ after, line.length, e, false⟩ = .ok (line, ⟨line ++ after, 0, false, false⟩) := by
  obtain ⟨c, l, rfl⟩ := List.exists_cons_of_ne_nil hne
  have h1 : findBefore ((c :: l) ++ after) (c :: l).length = .ok 0 := by
    refine findBefore_eq (.inl rfl) (by simp) fun i h1 h2 => ?_
    rw [List.getElem?_append_left h2]
    intro h
    exact hl (List.mem_of_getElem? h)
  unfold getlineBackwards
  rw [if_neg (by simp), if_neg]
  · simp only [h1, Outcome.ok_bind]
    rw [takeLine_eq hl ha rfl]
    · rfl
    · have : lineStart ((c :: l) ++ after) 0 = 0 := by
        unfold lineStart
        rw [if_neg]
        simp only [List.cons_append, List.getElem?_cons_zero, Option.some.injEq]
        rintro rfl
        exact hl (by simp)
      rw [this]
      simp
  · unfold tellg
    split <;> simp

theorem back_zero (t : Text) : getlineBackwards ⟨t, 0, false, false⟩ = .ok ([], ⟨t, 0, false, true⟩) := by
  simp [getlineBackwards, tellg, good]

end TextFile

namespace Spec

theorem joinLines_append : ∀ {ls : List Text} (_ : ls ≠ []) (l : Text), joinLines (ls ++ [l]) = joinLines ls ++ '\n' :: l
  | [k], _, l => by simp [joinLines]
  | k :: k' :: ls, _, l => by
    have := joinLines_append (ls := k' :: ls) (by simp) l
    simp only [List.cons_append] at this ⊢
    simp [joinLines, this]

theorem readsBack_lines {after : Text} (ha : TextFile.AtEnd after) (x : Text) (hx : '\n' ∉ x) (ls : List Text) (hls : ∀ l ∈ ls, '\n' ∉ l) :
    ReadsBack ⟨joinLines (x :: ls) ++ after, (joinLines (x :: ls)).length, false, false⟩ (ls.reverse ++ if x = [] then [] else [x]) := by
  induction ls using List.reverseRecOn generalizing after with
  | nil =>
    by_cases h : x = []
    · subst h
      simp only [joinLines]
      exact .stop (TextFile.back_zero _) rfl
    · simp only [joinLines, h, if_false, List.reverse_nil, List.nil_append]
      exact .line (TextFile.back_first hx h ha false) rfl (.stop (TextFile.back_zero _) rfl)
  | append_singleton ls l ih =>
    have hj : joinLines (x :: (ls ++ [l])) = joinLines (x :: ls) ++ '\n' :: l := joinLines_append (ls := x :: ls) (by simp) l
    have hl := TextFile.back_line (before := joinLines (x :: ls)) (hls l (by simp)) ha false
    rw [hj, List.reverse_append]
    simp only [List.reverse_cons, List.reverse_nil, List.nil_append, List.cons_append, List.append_assoc, List.length_append, List.length_cons] at hl ⊢
    refine .line (f' := ⟨joinLines (x :: ls) ++ '\n' :: (l ++ after), (joinLines (x :: ls)).length, false, false⟩) ?_ rfl
      (ih (after := '\n' :: (l ++ after)) (.inr ⟨_, rfl⟩) (fun k hk => hls k (by simp [hk])))
    rw [← hl]
    congr 2
    omega

end Spec

end Rampack
