import Verif.Sim.SamplerLemmas
import Verif.Box.Lemmas
import Mathlib.Analysis.Real.Pi.Bounds
/-
C27: step sizes of the samplers stay legal.
-/
namespace Rampack

namespace Spec

/-- Requests for changing step sizes. -/
inductive Request where
  | increase
  | decrease

/-- Serving a request: the sampler afterwards and what is reported. -/
noncomputable def serve (s : Sampler) : Request → Outcome (Sampler × Bool)
  | .increase => s.increase
  | .decrease => s.decrease

/-- The samplers one gets from another one by serving any number of requests. -/
inductive Served (s : Sampler) : Sampler → Prop
  | start : Served s s
  | step {s' s'' : Sampler} {b : Bool} (r : Request) (h : Served s s') (hr : serve s' r = .ok (s'', b)) : Served s s''

/-- Samplers ready for use: made by a constructor and then set up. -/
inductive Ready : Sampler → Prop
  | rotation {x : ℝ} {T : Traits} {s s' : Sampler} (h : Sampler.mkRotation x = .ok s) (hs : s.setup T = .ok s') : Ready s'
  | translation {x m : ℝ} {T : Traits} {s s' : Sampler} (h : Sampler.mkTranslation x m = .ok s)
      (hs : s.setup T = .ok s') : Ready s'
  | rototranslation {x m : ℝ} {r : Option ℝ} {T : Traits} {s s' : Sampler} (h : Sampler.mkRototranslation x r m = .ok s)
      (hs : s.setup T = .ok s') : Ready s'

end Spec

open Spec

theorem mkRotation_ok {x : ℝ} {s : Sampler} (h : Sampler.mkRotation x = .ok s) : 0 < x ∧ s = .rotation x := by
  unfold Sampler.mkRotation at h
  by_cases hx : x > 0
  · rw [decide_eq_true hx] at h
    injection h with h
    exact ⟨hx, h.symm⟩
  · rw [decide_eq_false hx] at h
    cases h

theorem checkTranslation_ok {x m : ℝ} {u : Unit} (h : Sampler.checkTranslation x m = .ok u) :
    0 ≤ m ∧ (0 < m → x ≤ m) ∧ 0 < x := by
  unfold Sampler.checkTranslation at h
  by_cases h1 : m ≥ 0
  · by_cases h2 : (!decide (m > 0) || decide (x ≤ m)) = true
    · by_cases h3 : x > 0
      · refine ⟨h1, fun hm => ?_, h3⟩
        simp [hm] at h2
        exact h2
      · rw [decide_eq_true h1, h2, decide_eq_false h3] at h
        cases h
    · rw [decide_eq_true h1, Bool.eq_false_iff.mpr h2] at h
      cases h
  · rw [decide_eq_false h1] at h
    cases h

theorem mkTranslation_ok {x m : ℝ} {s : Sampler} (h : Sampler.mkTranslation x m = .ok s) :
    0 ≤ m ∧ (0 < m → x ≤ m) ∧ 0 < x ∧ s = .translation x m (decide (m = 0)) := by
  unfold Sampler.mkTranslation at h
  cases hc : Sampler.checkTranslation x m with
  | throw e => rw [hc] at h; cases h
  | ub => rw [hc] at h; cases h
  | diverge => rw [hc] at h; cases h
  | ok u =>
    rw [hc, Outcome.ok_bind] at h
    obtain ⟨h1, h2, h3⟩ := checkTranslation_ok hc
    injection h with h
    exact ⟨h1, h2, h3, h.symm⟩

theorem mkRototranslation_ok {x m : ℝ} {r : Option ℝ} {s : Sampler} (h : Sampler.mkRototranslation x r m = .ok s) :
    0 ≤ m ∧ (0 < m → x ≤ m) ∧ 0 < x ∧ (∀ y, r = some y → 0 < y) ∧ s = .rototranslation x r m (decide (m = 0)) := by
  unfold Sampler.mkRototranslation at h
  cases hc : Sampler.checkTranslation x m with
  | throw e => rw [hc] at h; cases h
  | ub => rw [hc] at h; cases h
  | diverge => rw [hc] at h; cases h
  | ok u =>
    rw [hc, Outcome.ok_bind] at h
    obtain ⟨h1, h2, h3⟩ := checkTranslation_ok hc
    rcases r with _ | y
    · injection h with h
      exact ⟨h1, h2, h3, by simp, h.symm⟩
    · by_cases hy : y > 0
      · unfold Sampler.checkRotation at h
        simp only [decide_eq_true hy, Outcome.require_true, Outcome.ok_bind] at h
        injection h with h
        refine ⟨h1, h2, h3, ?_, h.symm⟩
        rintro z ⟨⟩
        exact hy
      · unfold Sampler.checkRotation at h
        simp only [decide_eq_false hy, Outcome.require_false, Outcome.throw_bind] at h
        cases h

/-- The invariant: every step size is positive (and known). -/
def Sampler.Legal : Sampler → Prop
  | .rotation x => 0 < x
  | .translation x _ _ => 0 < x
  | .rototranslation x (some r) _ _ => 0 < x ∧ 0 < r
  | .rototranslation _ none _ _ => False
  | .flip _ _ _ _ => False

theorem Spec.Ready.legal {s : Sampler} (h : Ready s) : s.Legal := by
  cases h with
  | rotation h hs =>
    obtain ⟨hx, rfl⟩ := mkRotation_ok h
    injection hs with hs
    subst hs
    exact hx
  | translation h hs =>
    obtain ⟨-, -, hx, rfl⟩ := mkTranslation_ok h
    injection hs with hs
    subst hs
    exact hx
  | @rototranslation x m r T _ _ h hs =>
    obtain ⟨-, -, hx, hr, rfl⟩ := mkRototranslation_ok h
    rcases r with _ | y
    · unfold Sampler.setup at hs
      by_cases h1 : T.I.totalRange > 0
      · by_cases h2 : Sampler.autoRotation (x / T.I.totalRange) > 0
        · rw [decide_eq_true h1] at hs
          simp only [Outcome.require_true, Outcome.ok_bind] at hs
          rw [decide_eq_true h2] at hs
          injection hs with hs
          subst hs
          exact ⟨hx, h2⟩
        · rw [decide_eq_true h1] at hs
          simp only [Outcome.require_true, Outcome.ok_bind] at hs
          rw [decide_eq_false h2] at hs
          cases hs
      · rw [decide_eq_false h1] at hs
        cases hs
    · injection hs with hs
      subst hs
      exact ⟨hx, hr y rfl⟩

/-- Serving a request to a legal sampler succeeds and gives a legal sampler. -/
theorem Sampler.Legal.serve {s : Sampler} (h : s.Legal) (r : Request) : ∃ s' b, Spec.serve s r = .ok (s', b) ∧ s'.Legal := by
  rcases s with x | ⟨x, m, i⟩ | ⟨x, _ | y, m, i⟩ | _
  · cases r with
    | increase =>
      refine ⟨_, _, rfl, ?_⟩
      unfold Sampler.Legal at h ⊢
      simp only
      split_ifs
      · exact Real.pi_pos
      · linarith
    | decrease =>
      refine ⟨_, _, rfl, ?_⟩
      unfold Sampler.Legal at h ⊢
      simp only
      positivity
  · cases r with
    | increase =>
      unfold Spec.serve Sampler.increase Sampler.increasedTranslation
      simp only
      split_ifs
      · exact ⟨_, _, rfl, h⟩
      · refine ⟨_, _, rfl, ?_⟩
        unfold Sampler.Legal at h ⊢
        simp only
        linarith
    | decrease =>
      refine ⟨_, _, rfl, ?_⟩
      unfold Sampler.Legal at h ⊢
      simp only
      positivity
  · exact h.elim
  · have hx : 0 < x := h.1
    have hy : 0 < y := h.2
    cases r with
    | increase =>
      unfold Spec.serve Sampler.increase Sampler.increasedTranslation
      simp only
      split_ifs
      · refine ⟨_, _, rfl, hx, ?_⟩
        positivity
      · refine ⟨_, _, rfl, ?_, ?_⟩ <;> positivity
    | decrease =>
      refine ⟨_, _, rfl, ?_, ?_⟩ <;> positivity
  · exact h.elim

theorem Sampler.Legal.served {s s' : Sampler} (h : s.Legal) (hs : Served s s') : s'.Legal := by
  induction hs with
  | start => exact h
  | step r _ hr ih =>
    obtain ⟨s1, b1, h1, h2⟩ := ih.serve r
    rw [h1] at hr
    injection hr with hr
    injection hr with hr _
    exact hr ▸ h2

theorem Sampler.Legal.steps {s : Sampler} (h : s.Legal) : ∃ l, s.stepSizes = .ok l ∧ l ≠ [] ∧ ∀ x ∈ l, 0 < x := by
  rcases s with x | ⟨x, m, i⟩ | ⟨x, _ | y, m, i⟩ | _
  · exact ⟨_, rfl, by simp, by simpa [Sampler.Legal] using h⟩
  · exact ⟨_, rfl, by simp, by simpa [Sampler.Legal] using h⟩
  · exact h.elim
  · exact ⟨_, rfl, by simp, by simpa [Sampler.Legal] using h⟩
  · exact h.elim

/-- **C27** Whatever requests are made, each of them is served, and step sizes are positive at all times. -/
theorem C27_positive {s s' : Sampler} (h : Ready s) (hs : Served s s') :
    (∃ l, s'.stepSizes = .ok l ∧ l ≠ [] ∧ ∀ x ∈ l, 0 < x) ∧ ∀ r, ∃ s'' b, serve s' r = .ok (s'', b) :=
  ⟨(h.legal.served hs).steps, fun r => by
    obtain ⟨s'', b, h1, -⟩ := (h.legal.served hs).serve r
    exact ⟨s'', b, h1⟩⟩

/-- **C27** (part: for rotation samplers whose initial step is at most π, see `C27_violation_pi`) The rotation step never exceeds
π. -/
theorem C27_rotation_partial {x : ℝ} {s s' : Sampler} (h : Sampler.mkRotation x = .ok s) (hx : x ≤ Real.pi)
    (hs : Served s s') : ∃ y, s'.stepSizes = .ok [y] ∧ 0 < y ∧ y ≤ Real.pi := by
  obtain ⟨h0, rfl⟩ := mkRotation_ok h
  suffices hh : ∃ y, s' = .rotation y ∧ 0 < y ∧ y ≤ Real.pi by
    obtain ⟨y, rfl, h1, h2⟩ := hh
    exact ⟨y, rfl, h1, h2⟩
  induction hs with
  | start => exact ⟨x, rfl, h0, hx⟩
  | step r _ hr ih =>
    obtain ⟨y, rfl, h1, h2⟩ := ih
    cases r with
    | increase =>
      injection hr with hr
      injection hr with hr _
      refine ⟨_, hr.symm, ?_⟩
      split_ifs with hc
      · exact ⟨Real.pi_pos, le_refl _⟩
      · exact ⟨by linarith, not_lt.mp hc⟩
    | decrease =>
      injection hr with hr
      injection hr with hr _
      refine ⟨_, hr.symm, by positivity, ?_⟩
      rw [div_le_iff₀ (by norm_num)]
      nlinarith [Real.pi_pos]

/-- **C27** What an increase reports: it is refused exactly when a translation step has reached its maximum or a rotation step
(not above π) is π, and then the step sizes stay as they were; otherwise all of them grow. -/
theorem C27_reported {s₀ s s' : Sampler} {b : Bool} {l l' : List ℝ} (h₀ : Ready s₀) (hs : Served s₀ s)
    (hr : s.increase = .ok (s', b)) (hl : s.stepSizes = .ok l) (hl' : s'.stepSizes = .ok l') (hpi : ∀ x, s = .rotation x → x ≤ Real.pi) :
    (b = false → l' = l) ∧ (b = true → List.Forall₂ (· < ·) l l') ∧
    (b = false ↔ s = .rotation Real.pi ∨
      (∃ x m i, s = .translation x m i ∧ 0 < m ∧ m ≤ x) ∨ ∃ x y m i, s = .rototranslation x y m i ∧ 0 < m ∧ m ≤ x) := by
  have h := h₀.legal.served hs
  rcases s with x | ⟨x, m, i⟩ | ⟨x, _ | y, m, i⟩ | _
  · injection hr with hr
    injection hr with h1 h2
    subst h1 h2
    injection hl with hl
    injection hl' with hl'
    subst hl hl'
    have hx : 0 < x := h
    have hp := hpi x rfl
    by_cases hc : x * (11 / 10) > Real.pi
    · simp only [if_pos hc]
      rcases hp.lt_or_eq with h1 | h1
      · have : Real.pi ≠ x := ne_of_gt h1
        simp [this, h1, ne_of_lt h1]
      · subst h1
        simp
    · simp only [if_neg hc]
      have h1 : x * (11 / 10) ≠ x := by intro h2; linarith
      have h2 : x < x * (11 / 10) := by linarith
      have h3 : x ≠ Real.pi := by intro h3; linarith
      refine ⟨fun h4 => absurd h4 (by simp [h1]), fun _ => by simpa using h2, ?_⟩
      simp [h1, h3]
  · have hx : 0 < x := h
    unfold Sampler.increase Sampler.increasedTranslation at hr
    simp only at hr
    by_cases hc : m > 0 ∧ x ≥ m
    · rw [if_pos hc] at hr
      injection hr with hr
      injection hr with h1 h2
      subst h1 h2
      rw [hl] at hl'
      injection hl' with hl'
      refine ⟨fun _ => hl'.symm, by simp, ?_⟩
      simp
      exact hc
    · rw [if_neg hc] at hr
      injection hr with hr
      injection hr with h1 h2
      subst h1 h2
      injection hl with hl
      injection hl' with hl'
      subst hl hl'
      have : x < x * (11 / 10) := by linarith
      refine ⟨by simp, fun _ => by simpa using this, ?_⟩
      simpa using hc
  · exact h.elim
  · have hx : 0 < x := h.1
    have hy : 0 < y := h.2
    unfold Sampler.increase Sampler.increasedTranslation at hr
    simp only at hr
    by_cases hc : m > 0 ∧ x ≥ m
    · rw [if_pos hc] at hr
      injection hr with hr
      injection hr with h1 h2
      subst h1 h2
      injection hl with hl
      injection hl' with hl'
      subst hl hl'
      refine ⟨fun _ => by rw [div_self hx.ne', mul_one], by simp, ?_⟩
      simp
      exact hc
    · rw [if_neg hc] at hr
      injection hr with hr
      injection hr with h1 h2
      subst h1 h2
      injection hl with hl
      injection hl' with hl'
      subst hl hl'
      have h1 : x < x * (11 / 10) := by linarith
      have h2 : y < y * (x * (11 / 10) / x) := by
        rw [mul_div_right_comm, div_self hx.ne']
        linarith
      refine ⟨by simp, fun _ => by simpa using ⟨h1, h2⟩, ?_⟩
      simpa using hc
  · exact h.elim

/-- **C27** (part: unless the increase was cut at π, see `C27_violation_undo`) A decrease undoes a previous increase. -/
theorem C27_undo_partial {s₀ s s' : Sampler} (h₀ : Ready s₀) (hs : Served s₀ s) (hr : s.increase = .ok (s', true))
    (hcut : ∀ x, s = .rotation x → x * (11 / 10) ≤ Real.pi) :
    ∃ s'', s'.decrease = .ok (s'', true) ∧ s''.stepSizes = s.stepSizes := by
  have h := h₀.legal.served hs
  rcases s with x | ⟨x, m, i⟩ | ⟨x, _ | y, m, i⟩ | _
  · injection hr with hr
    injection hr with h1 h2
    subst h1
    rw [if_neg (not_lt.mpr (hcut x rfl))]
    refine ⟨_, rfl, ?_⟩
    unfold Sampler.stepSizes
    simp
  · unfold Sampler.increase Sampler.increasedTranslation at hr
    simp only at hr
    by_cases hc : m > 0 ∧ x ≥ m
    · rw [if_pos hc] at hr
      injection hr with hr
      injection hr with h1 h2
      cases h2
    · rw [if_neg hc] at hr
      injection hr with hr
      injection hr with h1 h2
      subst h1
      refine ⟨_, rfl, ?_⟩
      unfold Sampler.stepSizes
      simp
  · exact h.elim
  · have hx : x ≠ 0 := h.1.ne'
    unfold Sampler.increase Sampler.increasedTranslation at hr
    simp only at hr
    by_cases hc : m > 0 ∧ x ≥ m
    · rw [if_pos hc] at hr
      injection hr with hr
      injection hr with h1 h2
      cases h2
    · rw [if_neg hc] at hr
      injection hr with hr
      injection hr with h1 h2
      subst h1
      refine ⟨_, rfl, ?_⟩
      unfold Sampler.stepSizes
      simp only
      congr 2
      · field_simp
      · congr 1
        field_simp
  · exact h.elim

/-- **C27** (part: a step may pass the maximum by a tenth before increases are refused, see `C27_violation_max`) The translation
step never exceeds the given maximum by more than a tenth. -/
theorem C27_max_partial {x m : ℝ} {s s' : Sampler} (hm : 0 < m)
    (h : Sampler.mkTranslation x m = .ok s ∨ ∃ r, Sampler.mkRototranslation x (some r) m = .ok s) (hs : Served s s') :
    ∃ y l, s'.stepSizes = .ok (y :: l) ∧ y ≤ m * (11 / 10) := by
  rcases h with h | ⟨r, h⟩
  · obtain ⟨-, h1, h2, rfl⟩ := mkTranslation_ok h
    suffices hh : ∃ y i, s' = .translation y m i ∧ 0 < y ∧ y ≤ m * (11 / 10) by
      obtain ⟨y, i, rfl, -, h3⟩ := hh
      exact ⟨y, [], rfl, h3⟩
    induction hs with
    | start => exact ⟨x, _, rfl, h2, by linarith [h1 hm]⟩
    | step r _ hr ih =>
      obtain ⟨y, i, rfl, h3, h4⟩ := ih
      cases r with
      | increase =>
        unfold serve Sampler.increase Sampler.increasedTranslation at hr
        simp only at hr
        split_ifs at hr with hc
        · injection hr with hr
          injection hr with hr _
          exact ⟨y, i, hr.symm, h3, h4⟩
        · injection hr with hr
          injection hr with hr _
          refine ⟨_, i, hr.symm, by linarith, ?_⟩
          have : y < m := by
            by_contra h5
            exact hc ⟨hm, not_lt.mp h5⟩
          linarith
      | decrease =>
        injection hr with hr
        injection hr with hr _
        refine ⟨_, i, hr.symm, by positivity, ?_⟩
        rw [div_le_iff₀ (by norm_num)]
        linarith
  · obtain ⟨-, h1, h2, hr0, rfl⟩ := mkRototranslation_ok h
    suffices hh : ∃ y z i, s' = .rototranslation y (some z) m i ∧ 0 < y ∧ y ≤ m * (11 / 10) by
      obtain ⟨y, z, i, rfl, -, h3⟩ := hh
      exact ⟨y, [z], rfl, h3⟩
    induction hs with
    | start => exact ⟨x, r, _, rfl, h2, by linarith [h1 hm]⟩
    | step r _ hr ih =>
      obtain ⟨y, z, i, rfl, h3, h4⟩ := ih
      cases r with
      | increase =>
        unfold serve Sampler.increase Sampler.increasedTranslation at hr
        simp only at hr
        split_ifs at hr with hc
        · injection hr with hr
          injection hr with hr _
          exact ⟨y, _, i, hr.symm, h3, h4⟩
        · injection hr with hr
          injection hr with hr _
          refine ⟨_, _, i, hr.symm, by linarith, ?_⟩
          have : y < m := by
            by_contra h5
            exact hc ⟨hm, not_lt.mp h5⟩
          linarith
      | decrease =>
        injection hr with hr
        injection hr with hr _
        refine ⟨_, _, i, hr.symm, by positivity, ?_⟩
        rw [div_le_iff₀ (by norm_num)]
        linarith

/-- **C27** Box scalers: whatever requests are made, the step size is positive, and a decrease undoes an increase. -/
theorem C27_scaler {k : ScalerKind} {x : ℝ} {s : Scaler} (h : Scaler.make k x = .ok s) (l : List Request) :
    let f : Scaler → Request → Scaler := fun s r => match r with | .increase => s.increase | .decrease => s.decrease
    0 < (l.foldl f s).step ∧ (l.foldl f s).increase.decrease = l.foldl f s := by
  intro f
  have h0 : 0 < s.step := by
    unfold Scaler.make at h
    by_cases hx : x > 0
    · rw [decide_eq_true hx] at h
      injection h with h
      subst h
      exact hx
    · rw [decide_eq_false hx] at h
      cases h
  refine ⟨?_, ?_⟩
  · clear h
    induction l generalizing s with
    | nil => exact h0
    | cons r l ih =>
      rw [List.foldl_cons]
      refine ih (s := f s r) ?_
      cases r with
      | increase =>
        change 0 < s.step * (11 / 10)
        positivity
      | decrease =>
        change 0 < s.step / (11 / 10)
        positivity
  · generalize l.foldl f s = w
    unfold Scaler.increase Scaler.decrease
    simp

/-- **C27** Sampled translations: no component exceeds the step size, and none exceeds the maximum (half of the smallest height of
the box, if it was not given). -/
theorem C27_sampled_translation {P : Packing} {idxs : List Nat} {t t' : Tape} {s s' : Sampler} {mv : MoveData} {x m : ℝ}
    {implicit : Bool} (ht : t.Ok) (hx : 0 < x) (hm : implicit = false → 0 < m)
    (hs : s = .translation x m implicit ∨ ∃ r, s = .rototranslation x (some r) m implicit)
    (h : s.sampleMove P idxs t = .ok (mv, s', t')) :
    ∃ v, (mv.kind = .translation v ∨ ∃ R, mv.kind = .move v R) ∧ (|v.x| ≤ x ∧ |v.y| ≤ x ∧ |v.z| ≤ x) ∧
      (implicit = false → |v.x| ≤ m ∧ |v.y| ≤ m ∧ |v.z| ≤ m) ∧
      (implicit = true → ∀ a ∈ [P.box.heights.x, P.box.heights.y, P.box.heights.z],
        |v.x| ≤ a / 2 ∧ |v.y| ≤ a / 2 ∧ |v.z| ≤ a / 2) := by
  set M := Sampler.adjustMax P.box m implicit with hM
  have hh : 0 ≤ P.box.heights.x ∧ 0 ≤ P.box.heights.y ∧ 0 ≤ P.box.heights.z :=
    ⟨div_nonneg (abs_nonneg _) (Vec3.norm_nonneg _), div_nonneg (abs_nonneg _) (Vec3.norm_nonneg _),
      div_nonneg (abs_nonneg _) (Vec3.norm_nonneg _)⟩
  have hM0 : 0 ≤ M := by
    rw [hM]
    unfold Sampler.adjustMax
    cases implicit
    · exact (hm rfl).le
    · simp only [Bool.not_true]
      exact div_nonneg (le_min hh.1 (le_min hh.2.1 hh.2.2)) (by norm_num)
  have key : ∀ y : ℝ, |y| ≤ min M x → |y| ≤ x ∧ (implicit = false → |y| ≤ m) ∧
      (implicit = true → ∀ a ∈ [P.box.heights.x, P.box.heights.y, P.box.heights.z], |y| ≤ a / 2) := by
    intro y hy
    refine ⟨hy.trans (min_le_right _ _), ?_, ?_⟩
    · rintro rfl
      exact hy.trans (min_le_left _ _)
    · rintro rfl a ha
      refine (hy.trans (min_le_left _ _)).trans ?_
      rw [hM]
      unfold Sampler.adjustMax
      simp only [Bool.not_true]
      refine div_le_div_of_nonneg_right ?_ (by norm_num)
      simp only [List.mem_cons, List.not_mem_nil, or_false] at ha
      rcases ha with rfl | rfl | rfl
      · exact min_le_left _ _
      · exact (min_le_right _ _).trans (min_le_left _ _)
      · exact (min_le_right _ _).trans (min_le_right _ _)
  have hs0 : 0 ≤ min M x := le_min hM0 hx.le
  have b0 := key _ (Sampler.uniformReal_abs hs0 (ht 0).1 (ht 0).2)
  have b1 := key _ (Sampler.uniformReal_abs hs0 (ht 1).1 (ht 1).2)
  have b2 := key _ (Sampler.uniformReal_abs hs0 (ht 2).1 (ht 2).2)
  refine ⟨(Sampler.sampleTranslation x M t).1, ?_, ⟨b0.1, b1.1, b2.1⟩, fun hi => ⟨b0.2.1 hi, b1.2.1 hi, b2.2.1 hi⟩,
    fun hi a ha => ⟨b0.2.2 hi a ha, b1.2.2 hi a ha, b2.2.2 hi a ha⟩⟩
  rcases hs with rfl | ⟨r, rfl⟩
  · unfold Sampler.sampleMove at h
    simp only [← hM] at h
    obtain ⟨⟨j, t2⟩, h2, h⟩ := Outcome.bind_eq_ok.mp h
    injection h with h
    injection h with h6 h7
    subst h6
    exact Or.inl rfl
  · unfold Sampler.sampleMove at h
    simp only [← hM] at h
    obtain ⟨⟨R, t1⟩, h1, h⟩ := Outcome.bind_eq_ok.mp h
    simp only at h
    obtain ⟨⟨j, t2⟩, h2, h⟩ := Outcome.bind_eq_ok.mp h
    injection h with h
    injection h with h6 h7
    subst h6
    exact Or.inr ⟨R, rfl⟩

theorem normalize_ok {v n : Vec3 ℝ} (h : normalize v = .ok n) : n.norm2 = 1 := by
  unfold normalize at h
  split_ifs at h with hv
  injection h with h
  subst h
  have h1 : v.norm ^ 2 = v.norm2 := v.norm_sq
  unfold Vec3.norm2 Vec3.dot at h1 ⊢
  field_simp
  linarith

/-- **C27** Sampled rotations are rotations about a unit axis by an angle which exceeds neither the step size nor (for
rototranslations always, for rotations if the step does not) π. -/
theorem C27_sampled_rotation {P : Packing} {idxs : List Nat} {t t' : Tape} {s s' : Sampler} {mv : MoveData} {r : ℝ}
    (ht : t.Ok) (hr : 0 < r) (hs : s = .rotation r ∨ ∃ x m i, s = .rototranslation x (some r) m i)
    (h : s.sampleMove P idxs t = .ok (mv, s', t')) :
    ∃ (n : Vec3 ℝ) (a : ℝ), n.norm2 = 1 ∧ |a| ≤ r ∧ (s = .rotation r ∨ |a| ≤ Real.pi) ∧
      (mv.kind = .rotation (axisRotation n a) ∨ ∃ v, mv.kind = .move v (axisRotation n a)) := by
  rcases hs with rfl | ⟨x, m, i, rfl⟩
  · unfold Sampler.sampleMove at h
    obtain ⟨⟨R, t1⟩, h1, h⟩ := Outcome.bind_eq_ok.mp h
    simp only at h
    obtain ⟨⟨j, t2⟩, h2, h⟩ := Outcome.bind_eq_ok.mp h
    obtain ⟨n, v, k, h3, rfl, -⟩ := Sampler.sampleRotation_ok h1
    injection h with h
    injection h with h6 h7
    subst h6
    exact ⟨n, _, normalize_ok h3, Sampler.uniformReal_abs hr.le (ht k).1 (ht k).2, Or.inl rfl, Or.inl rfl⟩
  · unfold Sampler.sampleMove at h
    simp only [Sampler.sampleTranslation] at h
    obtain ⟨⟨R, t1⟩, h1, h⟩ := Outcome.bind_eq_ok.mp h
    simp only at h
    obtain ⟨⟨j, t2⟩, h2, h⟩ := Outcome.bind_eq_ok.mp h
    obtain ⟨n, v, k, h3, rfl, -⟩ := Sampler.sampleRotation_ok h1
    injection h with h
    injection h with h6 h7
    subst h6
    have hb := Sampler.uniformReal_abs (le_min hr.le Real.pi_pos.le) ((ht.drop 3) k).1 ((ht.drop 3) k).2
    exact ⟨n, _, normalize_ok h3, hb.trans (min_le_left _ _), Or.inr (hb.trans (min_le_right _ _)), Or.inr ⟨_, rfl⟩⟩

/-- The code violates C27: a rotation sampler may be made with a step above π; the next increase reports success although the
step becomes smaller. -/
theorem C27_violation_pi : ∃ s s' : Sampler, Sampler.mkRotation 4 = .ok s ∧ s.stepSizes = .ok [4] ∧ Real.pi < 4 ∧
    s.increase = .ok (s', true) ∧ s'.stepSizes = .ok [Real.pi] := by
  have h4 : Real.pi < 4 := by linarith [Real.pi_lt_d2]
  refine ⟨.rotation 4, .rotation Real.pi, ?_, rfl, h4, ?_, rfl⟩
  · unfold Sampler.mkRotation
    rw [decide_eq_true (by norm_num)]
    rfl
  · unfold Sampler.increase
    simp only
    rw [if_pos (by linarith)]
    simp [ne_of_lt h4]

/-- The code violates C27: a decrease does not undo an increase which was cut at π. -/
theorem C27_violation_undo : ∃ s s' s'' : Sampler, Sampler.mkRotation 3 = .ok s ∧ s.increase = .ok (s', true) ∧
    s'.decrease = .ok (s'', true) ∧ ∃ x, s''.stepSizes = .ok [x] ∧ x < 3 := by
  have h1 := Real.pi_lt_d2
  have h2 := Real.pi_gt_three
  refine ⟨.rotation 3, .rotation Real.pi, .rotation (Real.pi / (11 / 10)), ?_, ?_, rfl, _, rfl, ?_⟩
  · unfold Sampler.mkRotation
    rw [decide_eq_true (by norm_num)]
    rfl
  · unfold Sampler.increase
    simp only
    rw [if_pos (by linarith)]
    simp [ne_of_gt h2]
  · rw [div_lt_iff₀ (by norm_num)]
    linarith

/-- The code violates C27: an increase which passes the maximum is not refused. -/
theorem C27_violation_max : ∃ s s' : Sampler, Sampler.mkTranslation 1 (101 / 100) = .ok s ∧ s.increase = .ok (s', true) ∧
    ∃ x, s'.stepSizes = .ok [x] ∧ 101 / 100 < x := by
  refine ⟨.translation 1 (101 / 100) false, .translation (1 * (11 / 10)) (101 / 100) false, ?_, ?_, _, rfl, by norm_num⟩
  · unfold Sampler.mkTranslation Sampler.checkTranslation
    rw [decide_eq_true (by norm_num), decide_eq_true (show (101 / 100 : ℝ) > 0 by norm_num),
      decide_eq_true (show (1 : ℝ) ≤ 101 / 100 by norm_num), decide_eq_true (show (1 : ℝ) > 0 by norm_num),
      decide_eq_false (by norm_num)]
    rfl
  · unfold Sampler.increase Sampler.increasedTranslation
    simp only
    rw [if_neg (by norm_num)]

/-- The code violates C27: the rotation step of a rototranslation sampler (without a maximal translation step) passes every bound,
and so π. -/
theorem C27_violation_rototranslation (B : ℝ) : ∃ s s' : Sampler, Sampler.mkRototranslation 1 (some 1) 0 = .ok s ∧
    Served s s' ∧ ∃ x y, s'.stepSizes = .ok [x, y] ∧ B < y := by
  refine ⟨.rototranslation 1 (some 1) 0 true, ?_⟩
  obtain ⟨n, hn⟩ := pow_unbounded_of_one_lt B (show (1 : ℝ) < 11 / 10 by norm_num)
  refine ⟨.rototranslation ((11 / 10) ^ n) (some ((11 / 10) ^ n)) 0 true, ?_, ?_, _, _, rfl, hn⟩
  · unfold Sampler.mkRototranslation Sampler.checkTranslation Sampler.checkRotation
    rw [decide_eq_true (by norm_num), decide_eq_false (show ¬ (0 : ℝ) > 0 by norm_num),
      decide_eq_true (show (1 : ℝ) > 0 by norm_num), decide_eq_true rfl]
    simp only [decide_eq_true (show (1 : ℝ) > 0 by norm_num)]
    rfl
  · clear hn
    induction n with
    | zero => simpa using Served.start
    | succ n ih =>
      refine Served.step (b := true) .increase ih ?_
      unfold serve Sampler.increase Sampler.increasedTranslation
      simp only
      rw [if_neg (by norm_num)]
      simp only
      have h0 : ((11 : ℝ) / 10) ^ n ≠ 0 := by positivity
      rw [mul_div_right_comm, div_self h0, one_mul, ← pow_succ]

/-- A sampler as in the theorems, with a history of requests. -/
example : ∃ s s' : Sampler, Sampler.mkRotation 1 = .ok s ∧ Ready s ∧ Served s s' ∧ s' ≠ s := by
  have h1 := Real.pi_gt_three
  have hmk : Sampler.mkRotation 1 = .ok (.rotation 1) := by
    unfold Sampler.mkRotation
    rw [decide_eq_true (by norm_num)]
    rfl
  have hinc : serve (.rotation 1) .increase = .ok (.rotation (1 * (11 / 10)), true) := by
    unfold serve Sampler.increase
    simp only
    rw [if_neg (by linarith)]
    norm_num
  refine ⟨.rotation 1, .rotation (1 * (11 / 10)), hmk,
    Ready.rotation (T := ⟨⟨false, false, false, [], 0, 0, fun _ _ _ => false, fun _ _ _ => 0, fun _ _ _ => false⟩, false, 0, .ub⟩)
      hmk rfl, Served.step .increase .start hinc, ?_⟩
  intro h
  injection h with h
  norm_num at h

/-- The hypotheses about maximal steps are met. -/
example : ∃ s, Sampler.mkTranslation 1 2 = .ok s ∧ ∃ s', Sampler.mkRototranslation 1 (some 1) 2 = .ok s' := by
  refine ⟨.translation 1 2 false, ?_, .rototranslation 1 (some 1) 2 false, ?_⟩
  · unfold Sampler.mkTranslation Sampler.checkTranslation
    rw [decide_eq_true (by norm_num), decide_eq_true (show (2 : ℝ) > 0 by norm_num),
      decide_eq_true (show (1 : ℝ) ≤ 2 by norm_num), decide_eq_true (show (1 : ℝ) > 0 by norm_num),
      decide_eq_false (by norm_num)]
    rfl
  · unfold Sampler.mkRototranslation Sampler.checkTranslation Sampler.checkRotation
    rw [decide_eq_true (by norm_num), decide_eq_true (show (2 : ℝ) > 0 by norm_num),
      decide_eq_true (show (1 : ℝ) ≤ 2 by norm_num), decide_eq_true (show (1 : ℝ) > 0 by norm_num),
      decide_eq_false (by norm_num)]
    simp only [decide_eq_true (show (1 : ℝ) > 0 by norm_num)]
    rfl

end Rampack
