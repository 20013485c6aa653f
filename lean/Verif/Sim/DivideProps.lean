import Verif.Sim.DivideLemmas
import Verif.Sim.KeepProps
/-
Theorems on the division of sweeps into domains (C24).
-/
namespace Rampack

open Rampack.Spec Rampack.Packing Rampack.Sim

private theorem lowerDivs_get {d d' : Vec3 Nat} {a : Fin 3} (h : lowerDivs d a = .ok d') : d'.get a = d.get a - 1 ∧ 0 < d.get a ∧
    ∀ c, c ≠ a → d'.get c = d.get c := by
  fin_cases a
  · have h' : lowerDivs d 0 = .ok d' := h
    simp only [lowerDivs] at h'
    split_ifs at h'
    injection h' with h'
    subst h'
    refine ⟨rfl, by show 0 < d.x; omega, ?_⟩
    rw [Domain.forall_axis]
    exact ⟨fun h => absurd rfl h, fun _ => rfl, fun _ => rfl⟩
  · have h' : lowerDivs d 1 = .ok d' := h
    simp only [lowerDivs] at h'
    split_ifs at h'
    injection h' with h'
    subst h'
    refine ⟨rfl, by show 0 < d.y; omega, ?_⟩
    rw [Domain.forall_axis]
    exact ⟨fun _ => rfl, fun h => absurd rfl h, fun _ => rfl⟩
  · have h' : lowerDivs d 2 = .ok d' := h
    simp only [lowerDivs] at h'
    split_ifs at h'
    injection h' with h'
    subst h'
    refine ⟨rfl, by show 0 < d.z; omega, ?_⟩
    rw [Domain.forall_axis]
    exact ⟨fun _ => rfl, fun _ => rfl, fun h => absurd rfl h⟩

private theorem loop_division {T : Traits} {n : Nat} : ∀ (fuel : Nat) {S : Sim}, Live T n S → S.divs.x + S.divs.y + S.divs.z < fuel →
    ∃ S', movesLoop T fuel S = .ok S' ∧ S'.numDomains = S'.divs.x * S'.divs.y * S'.divs.z ∧
      (∀ g, S.P.ng = some g → ∀ a, FirstFit S.P.box T.I g.getCellDivisions a (S.divs.get a) (S'.divs.get a)) ∧
      (S'.numDomains = 1 → Tries (movesAsked n S.env.samplers) S S') ∧
      (S'.numDomains ≠ 1 → ∃ g origin D, S.P.ng = some g ∧ Inside S.P.box origin ∧
        Domain.decompose S.P T.I S'.divs g.getCellDivisions origin = .ok (.ok D) ∧
        Tries ((loopCells S'.divs).countP (occupied D) * movesAsked (n / S'.numDomains) S.env.samplers) S S')
  | 0, S, _, hf => by omega
  | fuel + 1, S, h, hf => by
    simp only [movesLoop]
    rcases h.attempt_fit with ⟨S', e, e1, e2, e3, e4, e5⟩ | ⟨a, t, ht, e, e1, e2, e3⟩
    · rw [e]
      refine ⟨S', rfl, by rw [e1, e2, h.product], fun g hg a => ?_, fun hn => e4 (by rw [← e2]; exact hn), fun hn => ?_⟩
      · rw [e1]
        exact ⟨h.divs_pos a, le_rfl, e3 g hg a, fun _ h1 h2 => by omega⟩
      · rw [e1, e2]
        rw [e2] at hn
        exact e5 hn
    · rw [e]
      simp only [Outcome.ok_bind]
      obtain ⟨d, f1, f2, f3, f4⟩ := lowerDivs_total e2
      obtain ⟨l1, l2, l3⟩ := lowerDivs_get f1
      have hl := h.tape ht
      obtain ⟨S2, k1, k2, k3, k4, k5⟩ := loop_division fuel (S := { S with mts := S.mts.set 0 (t.drop 3), divs := d, numDomains := d.x * d.y * d.z })
        (hl.reduce f2 (fun a => f3 a (h.divs_pos a))) (by simp only; omega)
      refine ⟨S2, ?_, k2, fun g hg c => ?_, k4, k5⟩
      · unfold reduceDomains
        simp only
        rw [f1]
        exact k1
      · obtain ⟨m1, m2, m3, m4⟩ := k3 g hg c
        simp only at m2 m3 m4
        refine ⟨m1, m2.trans (f2 c), m3, fun x h1 h2 => ?_⟩
        by_cases hc : c = a
        · subst hc
          rcases Nat.lt_or_ge x (S.divs.get c) with hx | hx
          · exact m4 x h1 (by rw [l1]; omega)
          · have : x = S.divs.get c := le_antisymm h2 hx
            subst this
            exact e3 g hg
        · exact m4 x h1 (by rw [l3 c hc]; exact h2)

/-- C24, partly: the moves of a cycle are done with the first possible number of domains along each axis, counting down from what was
asked for (and never up), and exactly one sweep is done: without domains, as many moves are tried as all groups ask for; with domains,
in each domain with molecules, as many as they ask for a domain's share of molecules. Attempts with too many domains leave no trace.
Part of what is assumed of the state (`Live`, which runs keep): if domains are used, the packing uses a grid, and each group can be used
with a domain's share of molecules. Without it the code goes wrong, as shown below. -/
theorem C24_division_partial {T : Traits} {n : Nat} {S : Sim} (h : Live T n S) : ∃ S', S.performMoves T = .ok S' ∧
      S'.numDomains = S'.divs.x * S'.divs.y * S'.divs.z ∧
      (∀ g, S.P.ng = some g → ∀ a, FirstFit S.P.box T.I g.getCellDivisions a (S.divs.get a) (S'.divs.get a)) ∧
      (S'.numDomains = 1 → Tries (movesAsked n S.env.samplers) S S') ∧
      (S'.numDomains ≠ 1 → ∃ g origin D, S.P.ng = some g ∧ Inside S.P.box origin ∧
        Domain.decompose S.P T.I S'.divs g.getCellDivisions origin = .ok (.ok D) ∧
        Tries ((loopCells S'.divs).countP (occupied D) * movesAsked (n / S'.numDomains) S.env.samplers) S S') :=
  loop_division _ h (Nat.lt_succ_self _)

/-- Two balls and two domains. -/
example : ∃ S : Sim, Live (demoTraits (1 / 40)) 2 S ∧ mols S.P = twoShapes := by
  obtain ⟨P, S, P1, k, -, -, hm, hr, -⟩ := demo_ready (r := 1 / 40) (by norm_num) (by norm_num) (.inr ⟨rfl, rfl, rfl⟩)
  obtain ⟨S₁, S₂, -, -, h, h', -⟩ := hr.live 0 10 true
  have hs : S.P.size = 2 := by rw [← mols_length, hm]; rfl
  rw [hs] at h
  exact ⟨S₂, h, h'.trans hm⟩

/-- C24: the search for a possible division ends, in whatever state: a bound on the number of attempts greater than the sum of
divisions makes no difference. -/
theorem C24_ends (T : Traits) : ∀ (k : Nat) (S : Sim), movesLoop T (S.divs.x + S.divs.y + S.divs.z + 1 + k) S = S.performMoves T := by
  have key : ∀ (fuel : Nat) (S : Sim), S.divs.x + S.divs.y + S.divs.z < fuel → movesLoop T (fuel + 1) S = movesLoop T fuel S := by
    intro fuel
    induction fuel with
    | zero => intro S h; omega
    | succ fuel ih =>
      intro S hf
      rw [show movesLoop T (fuel + 1 + 1) S = _ from rfl, show movesLoop T (fuel + 1) S = _ from rfl]
      simp only [movesLoop]
      cases ha : S.attempt T with
      | ok a =>
        simp only [Outcome.ok_bind]
        rcases attempt_ok ha with ⟨S', rfl, -⟩ | ⟨c, l, rfl⟩
        · rfl
        · simp only
          unfold reduceDomains
          simp only
          cases hd : lowerDivs S.divs c with
          | ok d =>
            simp only [Outcome.ok_bind]
            refine ih { S with mts := l, divs := d, numDomains := d.x * d.y * d.z } ?_
            simp only
            unfold lowerDivs at hd
            split at hd <;> first | (split_ifs at hd; injection hd with hd; subst hd; simp only; omega) | cases hd
          | _ => rfl
      | _ => rfl
  intro k S
  induction k with
  | zero => rfl
  | succ k ih => rw [← ih]; exact key (S.divs.x + S.divs.y + S.divs.z + 1 + k) S (by omega)

/-- The code violates C24 in full: when the packing is too small for a grid (which scaling may lead to), a sweep with domains is
undefined behaviour. -/
theorem C24_no_grid_violated {T : Traits} {S : Sim} (hg : S.P.ng = none) (hd : S.numDomains ≠ 1) (hm : S.mts ≠ []) : S.performMoves T = .ub := by
  unfold performMoves
  simp only [movesLoop]
  have : S.attempt T = .ub := by
    unfold attempt
    rw [if_neg hd]
    unfold sweepDomains
    obtain ⟨t, l, e⟩ := List.exists_cons_of_ne_nil hm
    rw [e]
    simp only [vget, List.getElem?_cons_zero, Outcome.ok_bind]
    unfold Packing.gridDivisions
    simp only [hg]
    rfl
  rw [this]
  rfl

example : ∃ (S : Sim), Reachable S.P (ballsI [] (1 / 4) 1) ∧ S.P.ng = none ∧ S.numDomains = 2 ∧ S.mts ≠ [] := by
  obtain ⟨P, h, -, -, hg, -⟩ := two_reachable_noGrid [] (by simp) (r := 1 / 4) (by norm_num) 1 2
  exact ⟨⟨1, 1, demoEnv demoSamplers .disabled, [], [], ⟨0, 0, 0, 0⟩, true, false, 0, 0, 0, [demoTape, demoTape], P, [0, 1], ⟨2, 1, 1⟩, 2, false, []⟩,
    h, hg, rfl, by simp⟩

/-- The code violates C24 in full: a group of flips which is fine for all molecules may be refused inside a parallel region, because
there it is asked about a domain's share of molecules only. -/
theorem C24_flip_violated (n d every : Nat) (axis origin : Vec3 ℝ) (z : Bool) (h1 : every < n) (h2 : n / d ≤ every) :
    (∃ k, (Sampler.flip every axis origin z).requested n = .ok k) ∧ ∃ m, (Sampler.flip every axis origin z).requested (n / d) = .throw m := by
  constructor
  · refine ⟨n / every, ?_⟩
    unfold Sampler.requested
    simp only [gt_iff_lt, h1, decide_true]
    rfl
  · refine ⟨"Expects(numParticles > this->flipEvery)", ?_⟩
    unfold Sampler.requested
    simp only [gt_iff_lt, not_lt.mpr h2, decide_false]
    rfl

example : (10 : Nat) < 100 ∧ 100 / 16 ≤ 10 := by decide

end Rampack
