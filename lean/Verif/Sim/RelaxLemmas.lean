import Verif.Sim.IntegrateLemmas
/-
Overlap relaxation: the schedule and the end.
-/
namespace Rampack

open Rampack.Spec

namespace Sim

theorem phaseMarks_succ (p : RunParams) (a : Option Nat) (o k : Nat) :
    phaseMarks p a o (k + 1) = cycleMarks p a (o + 1) ++ phaseMarks p a (o + 1) k := by
  unfold phaseMarks
  rw [List.range_succ_eq_map, List.flatMap_cons, List.flatMap_map]
  congr 1
  apply List.flatMap_congr
  intro i _
  congr 1
  omega

theorem relaxLoop_progress {ss₀ : List Sampler} {sc₀ : ScalerStatus} {base : List Event} {p : RunParams} {T : Traits} {stop : Nat → Bool} :
    ∀ (fuel : Nat) {L : List Event} {marks : List Mark} {performed total : Nat} {S S' : Sim},
    Progress ss₀ sc₀ base marks performed total true L S → relaxLoop p T stop fuel S = .ok S' →
    ∃ k M S'' b, Progress ss₀ sc₀ base (marks ++ phaseMarks p none total k) (performed + k) (total + k) true (L ++ M) S'' ∧
      S' = { S'' with interrupted := b } ∧ (∀ i, 0 < i → i < k → stop (total + i) = false) ∧
      ((b = true ∧ 0 < k ∧ stop (total + k) = true) ∨
       (b = false ∧ (0 < k → stop (total + k) = false) ∧ ∃ n, S'.P.getCachedNumberOfOverlaps = .ok n ∧ n ≤ 0)) ∧
      (∀ n, S.P.getCachedNumberOfOverlaps = .ok n → n ≤ 0 → k = 0)
  | 0, L, marks, performed, total, S, S', _, h => by cases h
  | fuel + 1, L, marks, performed, total, S, S', hp, h => by
    simp only [relaxLoop] at h
    obtain ⟨n, h1, h⟩ := Outcome.bind_eq_ok.mp h
    rcases Outcome.ite_eq_ok.mp h with ⟨hn, h⟩ | ⟨hn, h⟩
    · obtain ⟨S₁, h2, h⟩ := Outcome.bind_eq_ok.mp h
      obtain ⟨M₁, p1⟩ := thermalisationCycle_progress hp h2
      have hcontra : ∀ m, S.P.getCachedNumberOfOverlaps = .ok m → m ≤ 0 → False := by
        intro m hm hm0
        rw [h1] at hm
        injection hm with hm
        omega
      rcases Outcome.ite_eq_ok.mp h with ⟨hs, h⟩ | ⟨hs, h⟩
      · injection h with h
        subst h
        rw [p1.total] at hs
        refine ⟨1, M₁, S₁, true, ?_, rfl, by omega, .inl ⟨rfl, by omega, hs⟩, fun m hm h0 => absurd h0 (fun h0 => hcontra m hm h0)⟩
        have : phaseMarks p none total 1 = cycleMarks p none (total + 1) := by
          rw [phaseMarks_succ]; simp [phaseMarks]
        rw [this]
        exact p1
      · rw [p1.total] at hs
        obtain ⟨k, M₂, S'', b, p2, h3, h4, h5, -⟩ := relaxLoop_progress fuel p1 h
        refine ⟨k + 1, M₁ ++ M₂, S'', b, ?_, h3, ?_, ?_, fun m hm h0 => absurd h0 (fun h0 => hcontra m hm h0)⟩
        · rw [phaseMarks_succ, ← List.append_assoc, ← List.append_assoc]
          have e1 : performed + 1 + k = performed + (k + 1) := by omega
          have e2 : total + 1 + k = total + (k + 1) := by omega
          rw [← e1, ← e2]
          exact p2
        · intro i hi hik
          by_cases h1 : i = 1
          · subst h1; simpa using hs
          · have := h4 (i - 1) (by omega) (by omega)
            rwa [show total + 1 + (i - 1) = total + i from by omega] at this
        · have e2 : total + 1 + k = total + (k + 1) := by omega
          rw [e2] at h5
          rcases h5 with ⟨g1, g2, g3⟩ | ⟨g1, g2, g3⟩
          · exact .inl ⟨g1, by omega, g3⟩
          · refine .inr ⟨g1, fun _ => ?_, g3⟩
            rcases Nat.eq_zero_or_pos k with rfl | hk
            · simpa using hs
            · exact g2 hk
    · injection h with h
      subst h
      refine ⟨0, [], S, false, ?_, ?_, by omega, .inr ⟨rfl, by omega, n, h1, by omega⟩, fun _ _ _ => rfl⟩
      · simp only [phaseMarks, List.range_zero, List.flatMap_nil, List.append_nil, Nat.add_zero]
        exact hp
      · rw [← hp.interrupted]

theorem relax_progress {S S' : Sim} {env : Env} {p : RunParams} {T : Traits} {stop : Nat → Bool} {fuel : Nat}
    (h : S.relaxOverlaps env p T stop fuel = .ok S') :
    ∃ ss₀ L k S'' b, setupSamplers T (S.env.combine env).samplers = .ok ss₀ ∧
      Progress ss₀ (S.env.combine env).scaler (S.log ++ [.clear]) (.thermalisation :: phaseMarks p none p.cycleOffset k) k
        (p.cycleOffset + k) true L S'' ∧
      S' = { S'' with interrupted := b } ∧ (∀ i, 0 < i → i < k → stop (p.cycleOffset + i) = false) ∧
      ((b = true ∧ 0 < k ∧ stop (p.cycleOffset + k) = true) ∨
       (b = false ∧ (0 < k → stop (p.cycleOffset + k) = false) ∧ ∃ n, S'.P.getCachedNumberOfOverlaps = .ok n ∧ n ≤ 0)) ∧
      ∀ S₁ S₂, S.start env T = .ok S₁ → S₁.prepare T p.cycleOffset sizeMax true = .ok S₂ →
        ∀ n, S₂.P.getCachedNumberOfOverlaps = .ok n → n ≤ 0 → k = 0 := by
  unfold relaxOverlaps at h
  obtain ⟨_, h0, ha⟩ := Outcome.bind_eq_ok.mp h
  obtain ⟨S₁, h1, hb⟩ := Outcome.bind_eq_ok.mp ha
  obtain ⟨S₂, h2, hc⟩ := Outcome.bind_eq_ok.mp hb
  clear h ha hb h0
  obtain ⟨ss₀, b1, -, e1⟩ := start_ok h1
  obtain ⟨t, pr, P, P₁, -, -, e2⟩ := prepare_ok h2
  have p0 := begin_progress (ss₀ := ss₀) (t := t) (p := pr) (base := S.log ++ [.clear]) (S := S₂) (by rw [e2, e1]) (by rw [e2, e1])
    (by rw [e2, e1]) (by rw [e2, e1]) (by rw [e2, e1]) (by rw [e2, e1])
  obtain ⟨k, M, S'', b, p1, h3, h4, h5, h6⟩ := relaxLoop_progress fuel p0 hc
  have et : S₂.total = p.cycleOffset := by rw [e2]
  have es : S₂.env.scaler = (S.env.combine env).scaler := by rw [e2, e1]
  rw [et] at p1 h4 h5
  rw [es] at p1
  refine ⟨ss₀, ([.thermo t pr] ++ [.thermalisation]) ++ M, k, S'', b, b1, ?_, h3, h4, h5, ?_⟩
  · rw [Nat.zero_add] at p1
    exact p1
  · intro S₃ S₄ g1 g2 n hn h0
    rw [h1] at g1
    injection g1 with g1
    subst g1
    rw [h2] at g2
    injection g2 with g2
    subst g2
    exact h6 n hn h0

end Sim

end Rampack
