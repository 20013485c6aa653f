import Verif.IO.ObsLemmas
import Verif.IO.XyzLemmas
import Verif.IO.SnapProps
/-
Theorems about reading lines backwards: C35.
-/
namespace Rampack

open Rampack.Spec Rampack.TextFile Rampack.Traj Rampack.Xyz

/-- C35: reading backwards from the end of a text gives its lines in reverse order; the first one is missed if it is empty.

Lines are those between line ends, so a text which ends with a line end has an empty last line. -/
theorem C35_backwards_partial (first : Text) (hf : '\n' ∉ first) (lines : List Text) (hl : ∀ l ∈ lines, '\n' ∉ l) :
    ReadsBack (openAte (joinLines (first :: lines))) (lines.reverse ++ if first = [] then [] else [first]) := by
  have := readsBack_lines (after := []) (.inl rfl) first hf lines hl
  rw [List.append_nil] at this
  exact this

example : ReadsBack (openAte "ab\n\nc\n".toList) [[], "c".toList, [], "ab".toList] :=
  C35_backwards_partial "ab".toList (by decide) [[], "c".toList, []] (by decide)

/-- C35: there is a text whose first line, an empty one, is not given. -/
theorem C35_first_empty_violated : ∃ lines : List Text, lines ≠ [] ∧ (∀ l ∈ lines, '\n' ∉ l) ∧ joinLines lines ≠ [] ∧
    ReadsBack (openAte (joinLines lines)) (lines.tail.reverse) ∧ ¬ ReadsBack (openAte (joinLines lines)) lines.reverse := by
  refine ⟨[[], "a".toList], by simp, by decide, by decide, ?_, ?_⟩
  · exact C35_backwards_partial [] (by simp) ["a".toList] (by decide)
  · intro h
    have h1 : getlineBackwards (openAte (joinLines [[], "a".toList])) = .ok ("a".toList, ⟨"\na".toList, 0, false, false⟩) :=
      back_line (before := []) (line := "a".toList) (after := []) (by decide) (.inl rfl) false
    have h2 := back_zero "\na".toList
    cases h with
    | line e hf rest =>
      rw [h1] at e
      simp only [Outcome.ok.injEq, Prod.mk.injEq] at e
      rw [← e.2] at rest
      cases rest with
      | line e' hf' _ =>
        rw [h2] at e'
        simp only [Outcome.ok.injEq, Prod.mk.injEq] at e'
        rw [← e'.2] at hf'
        cases hf'

/-- C35: a line is read from any place at its end, and the position is set in front of it: at the line end before it. -/
theorem C35_position {before line after : Text} (hl : '\n' ∉ line) (ha : after = [] ∨ ∃ r, after = '\n' :: r) (eof : Bool) :
    getlineBackwards ⟨before ++ '\n' :: (line ++ after), before.length + 1 + line.length, eof, false⟩ =
      .ok (line, ⟨before ++ '\n' :: (line ++ after), before.length, false, false⟩) :=
  back_line hl ha eof

/-- C35: the same for the first line, if not empty; at the beginning reading fails. -/
theorem C35_position_first {line after : Text} (hl : '\n' ∉ line) (hne : line ≠ []) (ha : after = [] ∨ ∃ r, after = '\n' :: r) (eof : Bool) :
    getlineBackwards ⟨line ++ after, line.length, eof, false⟩ = .ok (line, ⟨line ++ after, 0, false, false⟩) ∧
      ∀ t, ∃ f, getlineBackwards ⟨t, 0, false, false⟩ = .ok ([], f) ∧ f.fail = true :=
  ⟨back_first hl hne ha eof, fun t => ⟨_, back_zero t, rfl⟩⟩

variable {ι D : Type}

/-- C35: attaching an output of observables finds the number of cycles in its last line and leaves the output as it was, with the position at the
end. -/
theorem C35_observables {C : Collector ι D} {rows : List (Nat × Text)} (hh : '\n' ∉ C.headerText) (hr : ∀ r ∈ rows, '\n' ∉ r.2 ∧ r.1 < 2 ^ 64) :
    C.attach (openAte (obsText C.headerText rows)) =
      .ok { C with file := some (openAte (obsText C.headerText rows)), lastCycle := lastOf rows } :=
  Collector.attach_ok hh hr

/-- C35: an output of observables cut anywhere is either refused, or it was cut at the end of a line (and then the number of cycles is that of the last
line left), or it is empty (and then it is started again). -/
theorem C35_observables_torn {C : Collector ι D} {rows : List (Nat × Text)} (hh : '\n' ∉ C.headerText) (hr : ∀ r ∈ rows, '\n' ∉ r.2 ∧ r.1 < 2 ^ 64)
    {t : Text} (ht : t <+: obsText C.headerText rows) :
    (∃ m, C.attach (openAte t) = .throw m) ∨
    (∃ k ≤ rows.length, t = obsText C.headerText (rows.take k) ∧
      C.attach (openAte t) = .ok { C with file := some (openAte t), lastCycle := lastOf (rows.take k) }) ∨
    (t = [] ∧ C.attach (openAte t) = .ok { C with file := some (openAte (obsText C.headerText [])), lastCycle := 0 }) := by
  by_cases hne : t = []
  · exact .inr (.inr ⟨hne, by rw [hne]; exact Collector.attach_empty C⟩)
  by_cases hend : ∃ x, t = x ++ ['\n']
  · obtain ⟨x, rfl⟩ := hend
    obtain ⟨k, hk, e⟩ := Collector.prefix_whole hh (fun r h => (hr r h).1) ht
    refine .inr (.inl ⟨k, hk, e, ?_⟩)
    rw [e]
    exact Collector.attach_ok hh (fun r h => hr r (List.mem_of_mem_take h))
  · exact .inl (Collector.attach_torn hne (fun x h => hend ⟨x, h⟩))

/-- An output with one observable. -/
def demoCollector : Collector Unit Unit := { Collector.empty with snapHeader := ["energy".toList], snapIdx := [0], snapValues := [[]], observables :=
  [⟨["energy".toList], [], fun _ _ => [()], fun _ _ => [], "energy".toList⟩] }

theorem demoCollector_text : obsText demoCollector.headerText [(100, "1 ".toList), (200, "2 ".toList)] =
    "cycle energy \n100 1 \n200 2 \n".toList := by
  have h1 : natText 100 = ['1', '0', '0'] := by simp [natText, digitChar]
  have h2 : natText 200 = ['2', '0', '0'] := by simp [natText, digitChar]
  simp [obsText, h1, h2, Collector.headerText, demoCollector]

example : demoCollector.attach (openAte "cycle energy \n100 1 \n200 2 \n".toList) =
    .ok { demoCollector with file := some (openAte "cycle energy \n100 1 \n200 2 \n".toList), lastCycle := 200 } := by
  rw [← demoCollector_text]
  exact C35_observables (C := demoCollector) (rows := [(100, "1 ".toList), (200, "2 ".toList)]) (by decide) (by decide)

/-- In the middle of a line: refused; after a line: accepted. -/
example : (∃ m, demoCollector.attach (openAte "cycle energy \n100 1 \n20".toList) = .throw m) ∧
    "cycle energy \n100 1 \n20".toList <+: obsText demoCollector.headerText [(100, "1 ".toList), (200, "2 ".toList)] := by
  refine ⟨Collector.attach_torn (by simp) (fun x h => ?_), ?_⟩
  swap
  · rw [demoCollector_text]; exact ⟨"0 2 \n".toList, by simp⟩
  have := congrArg List.getLast? h
  rw [List.getLast?_append] at this
  simp at this

/-- C35: in a whole XYZ trajectory the last number of cycles is found. -/
theorem C35_xyz {F : Format} (hF : ∀ w, '\n' ∉ F.print w) {l : List (Snapshot × Nat)} {x : Snapshot} {n : Nat} (hx : Plain F x.box) (hn : n < 2 ^ 64) :
    ∃ r, Xyz.create (openAte (xyzText F (l ++ [(x, n)]))) true = .ok r ∧ r.last = n := by
  have e : xyzText F (l ++ [(x, n)]) = xyzText F l ++ write F x n := by simp [xyzText, List.flatMap_append]
  rw [e]
  have hne : (xyzText F l ++ write F x n).length ≠ 0 := by
    rw [write_eq, List.length_append, List.length_append, List.length_append, List.length_cons]
    omega
  unfold Xyz.create openAte
  have h := findLast_ok (b := xyzText F l) hF hx hn (xyzText F l ++ write F x n).length false
  simp only [seekEnd, Bool.false_eq_true, if_false, if_true, ne_eq, hne, not_false_eq_true, h, Outcome.ok_bind]
  exact ⟨_, rfl, rfl⟩

/-- Printing of numbers, for examples. -/
def demoFormat : Format := ⟨fun w => natText w.toNat, fun m => (m.x.x, m.x.y, m.x.z, m.y.x)⟩

theorem demoFormat_lines (w : Word) : '\n' ∉ demoFormat.print w := natText_not (by decide)

theorem demoFormat_plain (m : MatW) : Plain demoFormat m := by
  have h : ∀ w, Literal (demoFormat.print w) := fun w => (demo_printable w).literal
  exact ⟨⟨h _, h _, h _⟩, ⟨h _, h _, h _⟩, h _, h _, h _⟩

example : ∃ r, Xyz.create (openAte (xyzText demoFormat [(demoSnapshot 3, 100), (demoSnapshot 7, 200)])) true = .ok r ∧ r.last = 200 :=
  C35_xyz demoFormat_lines (l := [(demoSnapshot 3, 100)]) (demoFormat_plain _) (by norm_num)

/-- C35: for XYZ trajectories a partially written last line is not detected: cut in the middle of the number of cycles, 120 becomes 12. -/
theorem C35_xyz_torn_violated {F : Format} (x : Snapshot) (hx : Plain F x.box) :
    ∃ t r, t <+: write F x 120 ∧ t ≠ write F x 120 ∧ Xyz.create (openAte t) true = .ok r ∧ r.last = 12 := by
  have e1 : natText 120 = natText 12 ++ ['0'] := by
    rw [natText]; rw [if_neg (by norm_num)]; rfl
  have e2 : write F x 120 = (natText x.shapes.length ++ '\n' :: infoLine F x.box 12) ++ ('0' :: (tailLines F x).flatMap ('\n' :: ·)) := by
    rw [write_eq]
    have : infoLine F x.box 120 = infoLine F x.box 12 ++ ['0'] := by
      unfold infoLine; rw [e1, List.append_assoc, List.append_assoc]
      simp only [List.append_assoc]
    rw [this]
    simp only [List.append_assoc, List.cons_append, List.nil_append]
  refine ⟨natText x.shapes.length ++ '\n' :: infoLine F x.box 12, ⟨⟨natText x.shapes.length ++ '\n' :: infoLine F x.box 12, (natText x.shapes.length).length, false, false⟩, 12⟩, ⟨_, e2.symm⟩, ?_, ?_, rfl⟩
  · rw [e2]
    intro h
    have := congrArg List.length h
    rw [List.length_append (bs := '0' :: _)] at this
    simp only [List.length_cons] at this
    omega
  · unfold Xyz.create openAte
    have h := findLast_tail (F := F) (b := natText x.shapes.length) hx (n := 12) (by norm_num) (ks := []) (by simp)
      (natText x.shapes.length ++ '\n' :: infoLine F x.box 12).length false
    have hne : (natText x.shapes.length ++ '\n' :: infoLine F x.box 12).length ≠ 0 := by
      rw [List.length_append, List.length_cons]; omega
    simp only [List.flatMap_nil, List.append_nil] at h
    simp only [seekEnd, Bool.false_eq_true, if_false, if_true, ne_eq, hne, not_false_eq_true, h, Outcome.ok_bind]
    rfl

example : Plain demoFormat (demoSnapshot 7).box := demoFormat_plain _

end Rampack
