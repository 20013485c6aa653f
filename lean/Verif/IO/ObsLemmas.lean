import Verif.IO.LinesLemmas
import Verif.IO.Collector
import Verif.OutcomeLemmas
/-
Lemmas about outputs of observables.
-/
namespace Rampack

open Spec TextFile

namespace Collector

variable {ι D : Type}

/-- The text of a row without the line end. -/
def row (r : Nat × Text) : Text := natText r.1 ++ ' ' :: r.2

theorem obsText_nil (h : Text) : obsText h [] = h ++ ['\n'] := rfl

theorem obsText_cons (h : Text) (r : Nat × Text) (rs : List (Nat × Text)) : obsText h (r :: rs) = h ++ '\n' :: obsText (row r) rs := by
  simp [obsText, row]

theorem obsText_snoc (h : Text) (rs : List (Nat × Text)) (r : Nat × Text) : obsText h (rs ++ [r]) = obsText h rs ++ row r ++ ['\n'] := by
  simp [obsText, row, List.flatMap_append]

theorem obsText_ends (h : Text) (rs : List (Nat × Text)) (hh : h ≠ []) : ∃ x, x ≠ [] ∧ obsText h rs = x ++ ['\n'] := by
  induction rs using List.reverseRecOn with
  | nil => exact ⟨h, hh, rfl⟩
  | append_singleton rs r ih =>
    obtain ⟨x, hx, e⟩ := ih
    exact ⟨x ++ '\n' :: row r, by simp, by rw [obsText_snoc, e]; simp⟩

theorem row_line {r : Nat × Text} (h : '\n' ∉ r.2) : '\n' ∉ row r := by
  unfold row
  simp only [List.mem_append, List.mem_cons, not_or]
  refine ⟨fun hc => ?_, by decide, h⟩
  exact absurd (natText_dec _ _ hc) (by decide)

theorem findLastCycle_ok {h : Text} {rs : List (Nat × Text)} (hh : '\n' ∉ h) (hne : h ≠ []) (hr : ∀ r ∈ rs, '\n' ∉ r.2 ∧ r.1 < 2 ^ 64) (p : Nat) (e : Bool) :
    ∃ q, findLastCycle ⟨obsText h rs, p, e, false⟩ = .ok (lastOf rs, ⟨obsText h rs, q, false, false⟩) := by
  rcases List.eq_nil_or_concat rs with rfl | ⟨rs, r, rfl⟩
  · refine ⟨0, ?_⟩
    have h1 := back_line (before := h) (line := []) (after := []) (by simp) (.inl rfl) false
    have h2 := back_first hh hne (after := ['\n']) (.inr ⟨_, rfl⟩) false
    simp only [List.append_nil, List.length_nil, Nat.add_zero] at h1 h2
    unfold findLastCycle
    simp only [seekEnd, obsText_nil, Bool.false_eq_true, if_false, List.length_append, List.length_cons, List.length_nil, Nat.zero_add, h1, h2,
      Outcome.ok_bind]
    rfl
  · obtain ⟨x, hx, ex⟩ := obsText_ends h rs hne
    have hr' := hr r (by simp)
    have e0 : obsText h (rs.concat r) = x ++ '\n' :: (row r ++ ['\n']) := by
      rw [List.concat_eq_append, obsText_snoc, ex]; simp
    have h1 := back_line (before := x ++ '\n' :: row r) (line := []) (after := []) (by simp) (.inl rfl) false
    have h2 := back_line (before := x) (line := row r) (after := ['\n']) (row_line hr'.1) (.inr ⟨_, rfl⟩) false
    refine ⟨x.length, ?_⟩
    rw [e0]
    unfold findLastCycle
    simp only [List.append_nil, List.length_nil, Nat.add_zero, List.append_assoc, List.cons_append, List.length_append, List.length_cons] at h1 h2
    have hl : x.length + ((row r).length + 1 + 1) = x.length + ((row r).length + 1) + 1 := by omega
    have hl2 : x.length + ((row r).length + 1) = x.length + 1 + (row r).length := by omega
    simp only [seekEnd, Bool.false_eq_true, if_false, List.length_append, List.length_cons, List.length_nil, Nat.zero_add, hl, h1, Outcome.ok_bind]
    rw [hl2, h2]
    simp only [Outcome.ok_bind]
    unfold lastCycleFrom
    have hn := TextIn.nat_ok (a := []) (n := r.1) (t := ' ' :: r.2) (by simp) hr'.2 (by simp; decide)
    have hn' : (TextIn.ofText (row r)).nat = (r.1, TextIn.left (' ' :: r.2)) := by
      rw [← hn]; rfl
    simp only [good, tellg, hn']
    simp [TextIn.left, lastOf, hx]

theorem prefix_cases {q a b : Text} (h : q <+: a ++ b) : q <+: a ∨ ∃ q', q = a ++ q' ∧ q' <+: b := by
  obtain ⟨s, e⟩ := h
  rcases List.append_eq_append_iff.mp e with ⟨u, h1, h2⟩ | ⟨u, h1, h2⟩
  · exact .inl ⟨u, h1.symm⟩
  · exact .inr ⟨u, h1, ⟨s, h2.symm⟩⟩

theorem prefix_whole {h : Text} {rs : List (Nat × Text)} (hh : '\n' ∉ h) (hr : ∀ r ∈ rs, '\n' ∉ r.2) {x : Text} (hp : x ++ ['\n'] <+: obsText h rs) :
    ∃ k ≤ rs.length, x ++ ['\n'] = obsText h (rs.take k) := by
  induction rs generalizing h x with
  | nil =>
    rw [obsText_nil] at hp
    rcases prefix_cases hp with hp | ⟨q, e, hq⟩
    · exact absurd (hp.subset (by simp)) hh
    · refine ⟨0, le_rfl, ?_⟩
      rw [List.take_nil, obsText_nil, e]
      rcases q with _ | ⟨c, q⟩
      · exact absurd (by rw [List.append_nil] at e; rw [← e]; simp) hh
      · obtain ⟨s, hs⟩ := hq
        simp only [List.cons_append, List.cons.injEq, List.append_eq_nil_iff] at hs
        rw [hs.1, hs.2.1]
  | cons r rs ih =>
    rw [obsText_cons] at hp
    rcases prefix_cases hp with hp | ⟨q, e, hq⟩
    · exact absurd (hp.subset (by simp)) hh
    · rcases q with _ | ⟨c, q⟩
      · exact absurd (by rw [List.append_nil] at e; rw [← e]; simp) hh
      · obtain ⟨s, hs⟩ := hq
        simp only [List.cons_append, List.cons.injEq] at hs
        obtain ⟨rfl, hs⟩ := hs
        rcases List.eq_nil_or_concat q with rfl | ⟨y, z, rfl⟩
        · exact ⟨0, by omega, by rw [List.take_zero, obsText_nil, e]⟩
        · rw [List.concat_eq_append] at e hs
          have e' : x ++ ['\n'] = (h ++ '\n' :: y) ++ [z] := by rw [e]; simp
          have ez : '\n' = z := by
            have := congrArg List.getLast? e'
            rw [List.getLast?_append, List.getLast?_append] at this
            simpa using this
          rw [← ez] at e hs
          obtain ⟨k, hk, ek⟩ := ih (row_line (hr r (by simp))) (fun r' h' => hr r' (by simp [h'])) (x := y) ⟨s, hs⟩
          refine ⟨k + 1, by simpa using hk, ?_⟩
          rw [e, ek, List.take_succ_cons, obsText_cons]

theorem last_newline : ∀ (p : Text), '\n' ∉ p ∨ ∃ before line, p = before ++ '\n' :: line ∧ '\n' ∉ line
  | [] => .inl (by simp)
  | c :: p => by
    rcases last_newline p with h | ⟨b, l, e, h⟩
    · by_cases hc : c = '\n'
      · exact .inr ⟨[], p, by rw [hc]; rfl, h⟩
      · exact .inl (by simp only [List.mem_cons, not_or]; exact ⟨fun h => hc h.symm, h⟩)
    · exact .inr ⟨c :: b, l, by rw [e]; rfl, h⟩

theorem getlineBackwards_ok (f : TextFile) (h : f.pos ≠ 0) : ∃ l f', f.getlineBackwards = .ok (l, f') := by
  have key : ∀ t p, p ≠ 0 → ∃ q, findBefore t p = .ok q := by
    intro t p
    induction p with
    | zero => intro h; exact absurd rfl h
    | succ p ih =>
      intro _
      unfold findBefore
      by_cases h : p = 0 ∨ t[p]? = some '\n'
      · exact ⟨p, by rw [if_pos h]⟩
      · rw [if_neg h]; exact ih (fun h0 => h (.inl h0))
  unfold getlineBackwards
  split
  · exact ⟨_, _, rfl⟩
  · split
    · exact ⟨_, _, rfl⟩
    · obtain ⟨q, e⟩ := key f.text f.pos h
      rw [e]
      exact ⟨_, _, rfl⟩

/-- Without the line end at the end a file is refused. -/
theorem findLastCycle_torn {t : Text} (hne : t ≠ []) (hend : ∀ x, t ≠ x ++ ['\n']) (p : Nat) (e : Bool) :
    ∃ m, findLastCycle ⟨t, p, e, false⟩ = .throw m := by
  have main : ∃ line f', seekEnd ⟨t, p, e, false⟩ = ⟨t, t.length, false, false⟩ ∧ line ≠ [] ∧ f'.eof = false ∧ f'.fail = false ∧
      getlineBackwards ⟨t, t.length, false, false⟩ = .ok (line, f') := by
    rcases last_newline t with h | ⟨b, l, rfl, h⟩
    · have := back_first h hne (after := []) (.inl rfl) false
      rw [List.append_nil] at this
      exact ⟨t, ⟨t, 0, false, false⟩, by simp [seekEnd], hne, rfl, rfl, this⟩
    · have := back_line (before := b) h (after := []) (.inl rfl) false
      rw [List.append_nil] at this
      refine ⟨l, ⟨b ++ '\n' :: l, b.length, false, false⟩, by simp [seekEnd], ?_, rfl, rfl, ?_⟩
      · rintro rfl
        exact hend b rfl
      · rw [← this]
        congr 2
        simp; omega
  obtain ⟨line, f', h1, h2, h3, h4, h5⟩ := main
  unfold findLastCycle
  rw [h1, h5]
  simp only [Outcome.ok_bind]
  have : ∃ l2 f2, f'.getlineBackwards = .ok (l2, f2) := by
    by_cases h0 : f'.pos = 0
    · have hf : f' = ⟨f'.text, 0, false, false⟩ := by ext1 <;> simp [h0, h3, h4]
      rw [hf]
      exact ⟨_, _, back_zero _⟩
    · exact getlineBackwards_ok f' h0
  obtain ⟨l2, f2, e2⟩ := this
  rw [e2]
  simp only [Outcome.ok_bind]
  unfold lastCycleFrom
  have : line.isEmpty = false := by
    cases line with
    | nil => exact absurd rfl h2
    | cons => rfl
  rw [this, Bool.and_false]
  exact ⟨_, rfl⟩

theorem headerText_ne (C : Collector ι D) : C.headerText ≠ [] := by simp [headerText]

theorem verifyHeader_ok {C : Collector ι D} {rs : List (Nat × Text)} (hh : '\n' ∉ C.headerText) (p : Nat) (e : Bool) :
    ∃ q e', C.verifyHeader ⟨obsText C.headerText rs, p, e, false⟩ = .ok ⟨obsText C.headerText rs, q, e', false⟩ := by
  unfold verifyHeader
  have : (getline (seekTo 0 ⟨obsText C.headerText rs, p, e, false⟩)).1 = C.headerText ∧ ∃ q, (getline (seekTo 0 ⟨obsText C.headerText rs, p, e, false⟩)).2 =
      ⟨obsText C.headerText rs, q, false, false⟩ := by
    simp only [getline, seekTo, Bool.false_eq_true, if_false, toIn, List.drop_zero, obsText, TextIn.getline_ok hh, ofIn, true_and]
    exact ⟨_, rfl⟩
  obtain ⟨h1, q, h2⟩ := this
  refine ⟨q, false, ?_⟩
  generalize hg : getline (seekTo 0 ⟨obsText C.headerText rs, p, e, false⟩) = g at h1 h2
  obtain ⟨l, f⟩ := g
  simp only at h1 h2 ⊢
  rw [h1, h2]
  simp

theorem attach_ok {C : Collector ι D} {rs : List (Nat × Text)} (hh : '\n' ∉ C.headerText) (hr : ∀ r ∈ rs, '\n' ∉ r.2 ∧ r.1 < 2 ^ 64) :
    C.attach (openAte (obsText C.headerText rs)) = .ok { C with file := some (openAte (obsText C.headerText rs)), lastCycle := lastOf rs } := by
  obtain ⟨x, hx, ex⟩ := obsText_ends C.headerText rs C.headerText_ne
  have hl : (obsText C.headerText rs).length ≠ 0 := by rw [ex]; simp
  unfold attach openAte
  simp only [seekEnd, Bool.false_eq_true, if_false, tellg, good, Bool.not_false, Bool.and_self, if_true, Option.some.injEq, hl]
  obtain ⟨q, e', h1⟩ := verifyHeader_ok (C := C) (rs := rs) hh (obsText C.headerText rs).length false
  rw [h1]
  simp only [Outcome.ok_bind]
  obtain ⟨q2, h2⟩ := findLastCycle_ok hh C.headerText_ne hr q e'
  rw [h2]
  rfl

theorem attach_empty (C : Collector ι D) : C.attach (openAte []) = .ok { C with file := some (openAte (obsText C.headerText [])), lastCycle := 0 } := by
  simp [attach, openAte, seekEnd, tellg, good, write, obsText]

theorem attach_torn {C : Collector ι D} {t : Text} (hne : t ≠ []) (hend : ∀ x, t ≠ x ++ ['\n']) : ∃ m, C.attach (openAte t) = .throw m := by
  have hl : t.length ≠ 0 := fun h => hne (List.length_eq_zero_iff.mp h)
  unfold attach openAte
  simp only [seekEnd, Bool.false_eq_true, if_false, tellg, good, Bool.not_false, Bool.and_self, if_true, Option.some.injEq, hl]
  unfold verifyHeader
  have hg : ∃ l q e', getline (seekTo 0 ⟨t, t.length, false, false⟩) = (l, ⟨t, q, e', false⟩) := by
    simp only [getline, seekTo, Bool.false_eq_true, if_false, toIn, List.drop_zero]
    unfold TextIn.getline
    simp only [TextIn.good, Bool.not_false, Bool.and_self, if_true]
    cases hd : t.dropWhile (· != '\n') with
    | nil =>
      have : t.isEmpty = false := by cases t; exact absurd rfl hne; rfl
      refine ⟨t, t.length, true, ?_⟩
      simp [ofIn, this]
    | cons c r => exact ⟨_, _, _, rfl⟩
  obtain ⟨l, q, e', hg⟩ := hg
  rw [hg]
  simp only
  by_cases hd : l = C.headerText
  · obtain ⟨m, hm⟩ := findLastCycle_torn hne hend q e'
    refine ⟨m, ?_⟩
    simp only [hd, decide_true, Outcome.require_true, Outcome.ok_bind]
    show (findLastCycle _ >>= _) = _
    rw [hm]
    rfl
  · simp only [hd, decide_false]
    exact ⟨_, rfl⟩

end Collector

end Rampack
