import Verif.Sim.CompleteLemmas
/-
Runs without overlaps.
-/
namespace Rampack

open Spec Packing

namespace Sim

/-- The state of a run without overlaps, in which the check of overlaps is never skipped in scaling. -/
structure Clear (T : Traits) (n : Nat) (S : Sim) : Prop where
  proper : Proper T n S
  clear : numTotal S.P T.I = 0
  checked : T.I.isConvex = false ∨ scalerKind S.env.scaler = none

theorem numTotal_zero {P P' : Packing} {I : Interaction} (hP : PInv P' I) (hI : Contract I) (h : numTotal P' I ≤ numTotal P I)
    (h0 : numTotal P I = 0) : numTotal P' I = 0 := by
  have := numTotal_nonneg hP.q hI
  linarith

theorem tryMove_scaler {T : Traits} {idxs accs : List Nat} {tid : Nat} {domain : Option (Vec3 ℝ → Bool)} {S S' : Sim}
    {cs cs' : List Counter} (h : Sim.tryMove T idxs accs tid domain (S, cs) = .ok (S', cs')) : S'.env.scaler = S.env.scaler := by
  obtain ⟨g, s, s', mv, t, k, P, dE, c, -, -, -, -, -, -, h7⟩ := tryMove_ok h
  rcases h7 with ⟨P', -, -, rfl, -⟩ | ⟨-, rfl, -⟩ <;> rfl

theorem clear_kept (T : Traits) (n : Nat) : Kept T n (Clear T n) where
  size h := ⟨h.proper.1.size, h.proper.1.all⟩
  core h hs := ⟨(proper_kept T n).core h.proper hs, by rw [hs.P]; exact h.clear, by rw [hs.scaler]; exact h.checked⟩
  tape h ht := ⟨(proper_kept T n).tape h.proper ht, h.clear, h.checked⟩
  move h hi hm := by
    have h0 := (proper_kept T n).move h.proper hi hm
    obtain ⟨h1, -, h2⟩ := h.proper.1.tryMove hi hm
    refine ⟨h0, ?_, by rw [tryMove_scaler hm]; exact h.checked⟩
    rcases h2 with ⟨-, h2⟩ | ⟨s, mv, s', t, t', sh, -, -, -, -, h2⟩
    · rw [h2]; exact h.clear
    · exact numTotal_zero h1.inv.1 h1.inv.2 h2 h.clear
  scaling := by
    intro S S' b h hs
    have h0 := (proper_kept T n).scaling h.proper hs
    obtain ⟨h1, -, -, h2⟩ := h.proper.1.tryScaling hs
    have hsc : S'.env.scaler = S.env.scaler := by
      obtain ⟨t, s, box, t', P', -, -, -, -, rfl, -⟩ := tryScaling_ok hs
      rfl
    refine ⟨h0, ?_, by rw [hsc]; exact h.checked⟩
    rcases h2 with ⟨-, -, h2⟩ | ⟨s, b, t, t', M, dE, h3, -, -, -, -, -, h2⟩
    · rw [h2]; exact h.clear
    · refine h2 ?_ h.clear
      rcases h.checked with hc | hc
      · right; rw [hc]; rfl
      · rw [h3] at hc; cases hc
  thermo := by
    intro S S' h hs
    have h0 := (proper_kept T n).thermo h.proper hs
    obtain ⟨h1, h2, -⟩ := h.proper.1.updateThermo hs
    refine ⟨h0, by rw [h2]; exact h.clear, ?_⟩
    have : S'.env = S.env := by
      unfold Sim.updateThermo at hs
      obtain ⟨p, -, hs⟩ := Outcome.bind_eq_ok.mp hs
      obtain ⟨t, -, hs⟩ := Outcome.bind_eq_ok.mp hs
      obtain ⟨q, -, hs⟩ := Outcome.bind_eq_ok.mp hs
      injection hs with hs
      rw [← hs]
    rw [this]
    exact h.checked
  fix := by
    intro S S' h hs
    have h0 := (proper_kept T n).fix h.proper hs
    obtain ⟨h1, -, -, h2⟩ := h.proper.1.fixRotationMatrices hs
    refine ⟨h0, numTotal_zero h1.inv.1 h1.inv.2 h2 h.clear, ?_⟩
    have : S'.env = S.env := by
      unfold Sim.fixRotationMatrices at hs
      obtain ⟨p, -, hs⟩ := Outcome.bind_eq_ok.mp hs
      injection hs with hs
      rw [← hs]
    rw [this]
    exact h.checked

end Sim

end Rampack
