import Verif.Sim.CompleteLemmas
import Verif.Sim.RelaxLemmas
/-
Relaxations which are interrupted sooner or later complete.
-/
namespace Rampack

open Rampack.Spec Rampack.Packing

namespace Sim

theorem relaxLoop_total {T : Traits} {n : Nat} {p : RunParams} {stop : Nat → Bool} (h1 : 0 < p.rotationMatrixFixEvery)
    (h2 : 0 < p.snapshotEvery) (h3 : 0 < p.inlineInfoEvery) {ss₀ : List Sampler} {sc₀ : ScalerStatus} {base : List Event} :
    ∀ (fuel j : Nat) {S : Sim} {L : List Event} {marks : List Mark} {performed total : Nat},
    Live T n S → S.P.overlapCounting = true → Progress ss₀ sc₀ base marks performed total true L S → stop (total + j + 1) = true → j < fuel →
    ∃ S', Sim.relaxLoop p T stop fuel S = .ok S' ∧ Live T n S'
  | 0, j, S, L, marks, performed, total, _, _, _, _, hj => absurd hj (by omega)
  | fuel + 1, j, S, L, marks, performed, total, h, hc, hp, hs, hj => by
    simp only [Sim.relaxLoop]
    have : ∃ k, S.P.getCachedNumberOfOverlaps = .ok k := by
      unfold Packing.getCachedNumberOfOverlaps
      rw [hc]
      exact ⟨_, rfl⟩
    obtain ⟨k, e⟩ := this
    rw [e, Outcome.ok_bind]
    split_ifs
    · obtain ⟨S1, e1, h4⟩ := h.thermalisationCycle h1 h2 h3
      obtain ⟨M, p1⟩ := thermalisationCycle_progress hp e1
      rw [e1, Outcome.ok_bind]
      split_ifs with hst <;> rw [p1.total] at hst
      · exact ⟨_, rfl, h4.flag true⟩
      · have hk := (counted_kept T n true).thermalisationCycle (Q := fun _ => True) (base := S.log) (p := p) (fun _ _ => trivial)
          ⟨⟨h.proper, hc⟩, [], by simp, by simp⟩ e1
        cases j with
        | zero => exact absurd hs hst
        | succ j =>
          exact relaxLoop_total h1 h2 h3 fuel j h4 hk.1.2 p1 (by rw [← hs]; congr 1; omega) (by omega)
    · exact ⟨S, rfl, h⟩

theorem Ready.relaxOverlaps {T : Traits} {S : Sim} {env : Env} {I₀ : Interaction} (h : Ready T S env I₀) {p : RunParams}
    (h1 : 0 < p.rotationMatrixFixEvery) (h2 : 0 < p.snapshotEvery) (h3 : 0 < p.inlineInfoEvery) {stop : Nat → Bool} {j fuel : Nat}
    (hs : stop (p.cycleOffset + j + 1) = true) (hj : j < fuel) : ∃ S', S.relaxOverlaps env p T stop fuel = .ok S' := by
  obtain ⟨S₁, S₂, e1, e2, hl, -, hc⟩ := h.live p.cycleOffset sizeMax true
  obtain ⟨ss₀, b1, -, f1⟩ := start_ok e1
  obtain ⟨t, pr, P, P₁, -, -, f2⟩ := prepare_ok e2
  have p0 := begin_progress (ss₀ := ss₀) (t := t) (p := pr) (base := S.log ++ [.clear]) (S := S₂) (by rw [f2, f1]) (by rw [f2, f1])
    (by rw [f2, f1]) (by rw [f2, f1]) (by rw [f2, f1]) (by rw [f2, f1])
  have et : S₂.total = p.cycleOffset := by rw [f2]
  have h0 : checkRelaxParams p = .ok () := by
    unfold checkRelaxParams
    rw [decide_eq_true h1, decide_eq_true h2, decide_eq_true h3]
    rfl
  obtain ⟨S', e, -⟩ := relaxLoop_total h1 h2 h3 fuel j (hl.phase true (S₂.log ++ [.thermalisation])) hc p0 (by rw [et]; exact hs) hj
  refine ⟨S', ?_⟩
  unfold Sim.relaxOverlaps
  rw [h0, Outcome.ok_bind, e1, Outcome.ok_bind, e2, Outcome.ok_bind, e]

end Sim

end Rampack
