import Verif.Param.Model
import Verif.OutcomeLemmas
/-
Values of dynamic parameters do not depend on the number of all cycles.
-/
namespace Rampack

mutual
theorem Param.value_indep : ∀ (q : Param) (c t t' : Nat) (v w : ℝ), q.value c t = .ok v → q.value c t' = .ok w → v = w
  | .const a, c, t, t', v, w, h, h' => by
    simp only [Param.value, Outcome.ok_inj] at h h'
    rw [← h, ← h']
  | .linear a b, c, t, t', v, w, h, h' => by
    simp only [Param.value, Outcome.ok_inj] at h h'
    rw [← h, ← h']
  | .exponential a b, c, t, t', v, w, h, h' => by
    simp only [Param.value, Outcome.ok_inj] at h h'
    rw [← h, ← h']
  | .shifted true s p, c, t, t', v, w, h, h' => by
    rw [Param.value] at h h'
    obtain ⟨_, h1, h⟩ := Outcome.bind_eq_ok.mp h
    obtain ⟨_, h1, h'⟩ := Outcome.bind_eq_ok.mp h'
    exact Param.value_indep p _ _ _ v w h h'
  | .shifted false s p, c, t, t', v, w, h, h' => by
    rw [Param.value] at h h'
    obtain ⟨_, h1, h⟩ := Outcome.bind_eq_ok.mp h
    obtain ⟨_, h1, h⟩ := Outcome.bind_eq_ok.mp h
    obtain ⟨_, h1, h'⟩ := Outcome.bind_eq_ok.mp h'
    obtain ⟨_, h1, h'⟩ := Outcome.bind_eq_ok.mp h'
    exact Param.value_indep p _ _ _ v w h h'
  | .piecewise l, c, t, t', v, w, h, h' => by
    rw [Param.value] at h h'
    obtain ⟨_, h1, h⟩ := Outcome.bind_eq_ok.mp h
    obtain ⟨_, h1, h'⟩ := Outcome.bind_eq_ok.mp h'
    cases hl : l.getLast? with
    | none => rw [hl] at h; cases h
    | some last =>
      rw [hl] at h h'
      obtain ⟨_, h1, h⟩ := Outcome.bind_eq_ok.mp h
      obtain ⟨_, h1, h'⟩ := Outcome.bind_eq_ok.mp h'
      exact piecesValue_indep l c t t' v w h h'

theorem piecesValue_indep : ∀ (l : List (Nat × Param)) (c t t' : Nat) (v w : ℝ), piecesValue l c t = .ok v → piecesValue l c t' = .ok w → v = w
  | [], c, t, t', v, w, h, h' => by rw [piecesValue] at h; cases h
  | [(s, p)], c, t, t', v, w, h, h' => by
    rw [piecesValue] at h h'
    by_cases hc : c < s
    · rw [if_pos hc] at h; cases h
    · rw [if_neg hc] at h h'
      exact Param.value_indep p _ _ _ v w h h'
  | (s, p) :: (s', p') :: rest, c, t, t', v, w, h, h' => by
    rw [piecesValue] at h h'
    by_cases hc : c < s
    · rw [if_pos hc] at h; cases h
    · rw [if_neg hc] at h h'
      by_cases hc' : c < s'
      · rw [if_pos hc'] at h h'
        rw [h, Outcome.ok_inj] at h'
        exact h'
      · rw [if_neg hc'] at h h'
        exact piecesValue_indep ((s', p') :: rest) c t t' v w h h'
end
end Rampack
