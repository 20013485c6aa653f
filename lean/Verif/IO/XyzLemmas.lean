import Verif.IO.LinesLemmas
import Verif.IO.Xyz
import Verif.OutcomeLemmas
/-
Lemmas about XYZ trajectories.
-/
namespace Rampack

open Spec TextFile Traj

namespace Xyz

theorem literal_chars {t : Text} (h : Literal t) : ∀ c ∈ t, c ∈ ['0', '1', '2', '3', '4', '5', '6', '7', '8', '9', '-', '+', '.', 'e'] := by
  obtain ⟨s, w, f, e, hs, hw, hf, he⟩ := h
  have dig : ∀ {d : Text}, Digits d → ∀ c ∈ d, c ∈ ['0', '1', '2', '3', '4', '5', '6', '7', '8', '9', '-', '+', '.', 'e'] := by
    intro d hd c hc
    have := hd.2 c hc
    simp only [List.mem_cons, List.not_mem_nil, or_false] at this ⊢
    tauto
  intro c hc
  rw [List.mem_append, List.mem_append, List.mem_append] at hc
  rcases hc with ((hc | hc) | hc) | hc
  · rcases hs with rfl | rfl
    · cases hc
    · rw [List.mem_singleton] at hc; simp [hc]
  · exact dig hw c hc
  · rcases hf with rfl | ⟨f', hf, rfl⟩
    · cases hc
    · rcases List.mem_cons.mp hc with rfl | hc
      · simp
      · exact dig hf c hc
  · rcases he with rfl | ⟨s', e', hs, he, rfl⟩
    · cases hc
    · rcases List.mem_cons.mp hc with rfl | hc
      · simp
      · rcases List.mem_cons.mp hc with rfl | hc
        · rcases hs with rfl | rfl <;> simp
        · exact dig he c hc

/-- The pattern is found, followed by the given text. -/
def Found (t r : Text) : Prop := ∃ p, find "cycles=".toList t = some p ∧ t.drop (p + 7) = r

theorem found_skip {a t r : Text} (ha : 'c' ∉ a) (h : Found t r) : Found (a ++ t) r := by
  induction a with
  | nil => exact h
  | cons c a ih =>
    rw [List.mem_cons, not_or] at ha
    obtain ⟨p, h1, h2⟩ := ih ha.2
    refine ⟨p + 1, ?_, ?_⟩
    · rw [List.cons_append, find, if_neg, h1]
      · rfl
      · have : ('c' == c) = false := by simpa using ha.1
        simp [List.isPrefixOf, this]
    · rw [List.cons_append]
      exact h2

theorem found_other {c : Char} {t r : Text} (hc : 'y' ≠ c) (h : Found (c :: t) r) : Found ('c' :: c :: t) r := by
  obtain ⟨p, h1, h2⟩ := h
  refine ⟨p + 1, ?_, h2⟩
  rw [find, if_neg, h1]
  · rfl
  · have : ('y' == c) = false := by simpa using hc
    simp [List.isPrefixOf, this]

theorem found_here (r : Text) : Found ("cycles=".toList ++ r) r := by
  refine ⟨0, ?_, rfl⟩
  simp [find, List.isPrefixOf]

theorem lattice_chars {F : Format} {m : MatW} (h : Plain F m) {c : Char} (hc : c ∉ ['0', '1', '2', '3', '4', '5', '6', '7', '8', '9', '-', '+', '.', 'e'])
    (hs : c ≠ ' ') : c ∉ lattice F m := by
  obtain ⟨⟨h1, h2, h3⟩, ⟨h4, h5, h6⟩, h7, h8, h9⟩ := h
  have key : ∀ {t : Text}, Literal t → c ∉ t := fun h hm => hc (literal_chars h c hm)
  unfold lattice
  simp only [List.mem_append, List.mem_singleton, not_or]
  exact ⟨⟨⟨⟨⟨⟨⟨key h1, hs⟩, key h4⟩, hs⟩, key h7⟩, hs⟩, ⟨⟨⟨⟨⟨key h2, hs⟩, key h5⟩, hs⟩, key h8⟩, hs⟩⟩, ⟨⟨⟨key h3, hs⟩, key h6⟩, hs⟩, key h9⟩

theorem natText_not {n : Nat} {c : Char} (hc : isDec c = false) : c ∉ natText n := fun h => by
  rw [natText_dec n c h] at hc; cases hc

theorem infoLine_line {F : Format} {m : MatW} (h : Plain F m) (n : Nat) : '\n' ∉ infoLine F m n := by
  unfold infoLine
  simp only [List.mem_append, not_or]
  exact ⟨⟨⟨⟨by decide, lattice_chars h (by decide) (by decide)⟩, by decide⟩, by decide⟩, natText_not (by decide)⟩

theorem infoLine_eq (F : Format) (m : MatW) (n : Nat) : infoLine F m n = ['L', 'a', 't', 't', 'i'] ++ ('c' :: (['e', '=', '\"'] ++ (lattice F m ++
    (['\"', ' ', 'P', 'r', 'o', 'p', 'e', 'r', 't', 'i', 'e', 's', '=', 's', 'p', 'e'] ++ ('c' :: (['i', 'e', 's', ':', 'S', ':', '1', ':', 'p', 'o', 's', ':', 'R', ':', '3', ':', 'o', 'r', 'i', 'e', 'n', 't', 'a', 't', 'i', 'o', 'n', ':', 'R', ':', '4', ' '] ++ ("cycles=".toList ++ natText n))))))) := by
  have e1 : "Lattice=\"".toList = ['L', 'a', 't', 't', 'i', 'c', 'e', '=', '\"'] := rfl
  have e2 : "\" Properties=species:S:1:pos:R:3:orientation:R:4".toList =
      ['\"', ' ', 'P', 'r', 'o', 'p', 'e', 'r', 't', 'i', 'e', 's', '=', 's', 'p', 'e', 'c', 'i', 'e', 's', ':', 'S', ':', '1', ':', 'p', 'o', 's', ':', 'R', ':', '3', ':', 'o', 'r', 'i', 'e', 'n', 't', 'a', 't', 'i', 'o', 'n', ':', 'R', ':', '4'] := rfl
  have e3 : " cycles=".toList = ' ' :: "cycles=".toList := rfl
  unfold infoLine
  rw [e1, e2, e3]
  simp only [List.append_assoc, List.cons_append, List.nil_append]

theorem infoLine_found {F : Format} {m : MatW} (h : Plain F m) (n : Nat) : Found (infoLine F m n) (natText n) := by
  rw [infoLine_eq]
  refine found_skip (by decide) (found_other (by decide) ?_)
  refine found_skip (a := ['e', '=', '\"']) (by decide) ?_
  refine found_skip (lattice_chars h (by decide) (by decide)) ?_
  refine found_skip (by decide) (found_other (by decide) ?_)
  exact found_skip (a := ['i', 'e', 's', ':', 'S', ':', '1', ':', 'p', 'o', 's', ':', 'R', ':', '3', ':', 'o', 'r', 'i', 'e', 'n', 't', 'a', 't', 'i', 'o', 'n', ':', 'R', ':', '4', ' ']) (by decide) (found_here _)

theorem cyclesIn_ok {F : Format} {m : MatW} (h : Plain F m) {n : Nat} (hn : n < 2 ^ 64) : cyclesIn (infoLine F m n) = .ok n := by
  obtain ⟨p, h1, h2⟩ := infoLine_found h n
  unfold cyclesIn
  have e := TextIn.nat_ok (a := []) (n := n) (t := []) (by simp) hn (by simp)
  have e' : (TextIn.ofText (natText n)).nat = (n, TextIn.left []) := by
    rw [← e]; simp [TextIn.ofText]
  simp only [h1, h2, e']
  rfl

theorem infoLine_prefix {F : Format} {m : MatW} (n : Nat) : "Lattice".toList.isPrefixOf (infoLine F m n) = true := by
  rw [infoLine_eq]
  simp [List.isPrefixOf]

/-- Lines without what is looked for are passed over. -/
theorem findLoop_skip {x after : Text} (ha : AtEnd after) (ks : List Text) (hk : ∀ k ∈ ks, '\n' ∉ k ∧ "Lattice".toList.isPrefixOf k = false) (n : Nat) :
    findLoop (ks.length + n) ⟨x ++ ks.flatMap ('\n' :: ·) ++ after, (x ++ ks.flatMap ('\n' :: ·)).length, false, false⟩ =
      findLoop n ⟨x ++ ks.flatMap ('\n' :: ·) ++ after, x.length, false, false⟩ := by
  induction ks using List.reverseRecOn generalizing after with
  | nil => simp
  | append_singleton ks k ih =>
    have h := back_line (before := x ++ ks.flatMap ('\n' :: ·)) (hk k (by simp)).1 ha false
    have ih := ih (after := '\n' :: (k ++ after)) (.inr ⟨_, rfl⟩) (fun k' hk' => hk k' (by simp [hk']))
    have e : x ++ (ks ++ [k]).flatMap ('\n' :: ·) ++ after = x ++ ks.flatMap ('\n' :: ·) ++ '\n' :: (k ++ after) := by
      simp [List.flatMap_append]
    have el : (x ++ (ks ++ [k]).flatMap ('\n' :: ·)).length = (x ++ ks.flatMap ('\n' :: ·)).length + 1 + k.length := by
      simp [List.flatMap_append]; omega
    rw [e, el, show (ks ++ [k]).length + n = (ks.length + n) + 1 by simp; omega, findLoop, h]
    simp only [Outcome.ok_bind, Bool.false_eq_true, if_false, (hk k (by simp)).2]
    exact ih

theorem shapeLine_ok {F : Format} {s : ShapeW} (hF : ∀ w, '\n' ∉ F.print w) :
    '\n' ∉ shapeLine F s ∧ "Lattice".toList.isPrefixOf (shapeLine F s) = false := by
  constructor
  · unfold shapeLine
    simp [hF]
  · simp [shapeLine, List.isPrefixOf]

theorem findLast_tail {F : Format} {b : Text} {m : MatW} (hm : Plain F m) {n : Nat} (hn : n < 2 ^ 64) {ks : List Text}
    (hk : ∀ k ∈ ks, '\n' ∉ k ∧ "Lattice".toList.isPrefixOf k = false) (p : Nat) (e : Bool) :
    findLast ⟨b ++ '\n' :: infoLine F m n ++ ks.flatMap ('\n' :: ·), p, e, false⟩ =
      .ok (n, ⟨b ++ '\n' :: infoLine F m n ++ ks.flatMap ('\n' :: ·), b.length, false, false⟩) := by
  unfold findLast
  have h1 := findLoop_skip (x := b ++ '\n' :: infoLine F m n) (after := []) (.inl rfl) ks hk
  have hle : ks.length ≤ (ks.flatMap ('\n' :: ·)).length := by
    clear hk h1
    induction ks with
    | nil => simp
    | cons k ks ih => simp only [List.length_cons, List.flatMap_cons, List.length_append]; omega
  have hfuel : (b ++ '\n' :: infoLine F m n ++ ks.flatMap ('\n' :: ·)).length + 1 =
      ks.length + (((b ++ '\n' :: infoLine F m n ++ ks.flatMap ('\n' :: ·)).length - ks.length) + 1) := by
    simp only [List.length_append] at hle ⊢; omega
  rw [List.append_nil] at h1
  simp only [seekEnd, Bool.false_eq_true, if_false]
  rw [hfuel, h1, findLoop]
  have hat : AtEnd (ks.flatMap ('\n' :: ·)) := by
    cases ks with
    | nil => exact .inl rfl
    | cons k ks => exact .inr ⟨k ++ ks.flatMap ('\n' :: ·), by simp⟩
  have h2 := back_line (before := b) (infoLine_line hm n) hat false
  have el : (b ++ '\n' :: infoLine F m n).length = b.length + 1 + (infoLine F m n).length := by simp; omega
  rw [el]
  simp only [List.append_assoc, List.cons_append] at h2 ⊢
  rw [h2]
  simp only [Outcome.ok_bind, Bool.false_eq_true, if_false, infoLine_prefix, if_true, cyclesIn_ok hm hn]
  rfl

/-- The lines after the one with the box. -/
def tailLines (F : Format) (x : Snapshot) : List Text := x.shapes.map (shapeLine F) ++ [[]]

theorem tail_flat (ls : List Text) : (ls ++ [[]]).flatMap ('\n' :: ·) = '\n' :: ls.flatMap (· ++ ['\n']) := by
  induction ls with
  | nil => rfl
  | cons l ls ih => simp only [List.cons_append, List.flatMap_cons, ih]; simp

theorem write_eq (F : Format) (x : Snapshot) (n : Nat) :
    write F x n = natText x.shapes.length ++ '\n' :: infoLine F x.box n ++ (tailLines F x).flatMap ('\n' :: ·) := by
  unfold tailLines
  rw [tail_flat]
  simp [write, List.flatMap_map]

theorem tailLines_ok {F : Format} {x : Snapshot} (hF : ∀ w, '\n' ∉ F.print w) :
    ∀ k ∈ tailLines F x, '\n' ∉ k ∧ "Lattice".toList.isPrefixOf k = false := by
  intro k hk
  simp only [tailLines, List.mem_append, List.mem_map, List.mem_singleton] at hk
  rcases hk with ⟨s, -, rfl⟩ | rfl
  · exact shapeLine_ok hF
  · exact ⟨by simp, by simp [List.isPrefixOf]⟩

theorem findLast_ok {F : Format} {b : Text} {x : Snapshot} (hF : ∀ w, '\n' ∉ F.print w) (hx : Plain F x.box) {n : Nat} (hn : n < 2 ^ 64) (p : Nat) (e : Bool) :
    findLast ⟨b ++ write F x n, p, e, false⟩ = .ok (n, ⟨b ++ write F x n, (b ++ natText x.shapes.length).length, false, false⟩) := by
  have := findLast_tail (b := b ++ natText x.shapes.length) hx hn (tailLines_ok (x := x) hF) p e
  simp only [List.append_assoc, write_eq] at this ⊢
  exact this

end Xyz

end Rampack
