import Verif.Sim.CompleteLemmas
import Verif.Sim.ScalerLemmas
import Verif.Packing.Props
/-
Concrete simulations used in the examples beside the theorems on runs: two hard balls in the unit cube, touching or overlapping,
and an engine which always gives 3/4.
-/
namespace Rampack

open Rampack.Spec Rampack.Packing

namespace Sim

/-- The engine which always gives 3/4. -/
noncomputable def demoTape : Tape := fun _ => 3 / 4

theorem demoTape_positive : demoTape.Positive := by intro n; norm_num [demoTape]

theorem demoTape_fair : Fair demoTape := by
  intro j
  have hc : axisCandidate (demoTape.drop j) 0 = ⟨1 / 2, 1 / 2, 1 / 2⟩ := by
    norm_num [axisCandidate, uniformReal, demoTape, Tape.drop]
  have hk : ∀ k, axisCandidate (demoTape.drop j) k = ⟨1 / 2, 1 / 2, 1 / 2⟩ := by
    intro k; norm_num [axisCandidate, uniformReal, demoTape, Tape.drop]
  have h : ∃ k, (axisCandidate (demoTape.drop j) k).norm2 ≤ 1 := ⟨0, by rw [hc]; norm_num [Vec3.norm2, Vec3.dot]⟩
  unfold sampleAxis
  rw [dif_pos h]
  refine ⟨_, _, rfl, ?_⟩
  rw [hk]
  intro e
  have := congrArg Vec3.x e
  norm_num at this

/-- The hard balls, with a symmetry axis along z. -/
noncomputable def demoTraits (r : ℝ) : Traits := ⟨ballsI [] r (3 * r), true, 0, .ok ⟨0, 0, 1⟩⟩

/-- Translations, rotations, rototranslations and flips. -/
noncomputable def demoSamplers : List Sampler :=
  [.translation (1 / 10) 0 true, .rotation (1 / 10), .rototranslation (1 / 10) none (1 / 2) false, .flip 1 0 0 false]

/-- Scaling the box in all directions on their own. -/
noncomputable def demoScaler : Scaler := ⟨.adapter (.anisotropic .log [⟨true, false, false⟩, ⟨false, true, false⟩, ⟨false, false, true⟩] true), 1 / 10⟩

/-- Temperature and pressure 1. -/
noncomputable def demoEnv (ss : List Sampler) (sc : ScalerStatus) : Env := ⟨some (.const 1), some (.const 1), ss, sc⟩

theorem log_safe {dirs : Directions} (hd : dirs ≠ []) (ind : Bool) : SafeKind (.adapter (.anisotropic .log dirs ind)) := by
  intro step M b t _ hb ht
  obtain ⟨f, t', e⟩ := log_total hd ind b.heights step ht.ok
  have hp : PositiveFactors f := by
    rcases anisotropic_ok e with ⟨-, -, d, -, e1⟩ | ⟨-, e1⟩
    · exact (sample_ok e1).2.1
    · exact (sampleAll_ok ⟨by norm_num, by norm_num, by norm_num⟩ e1).1
  obtain ⟨b', e1, -⟩ := scaleSides_ok (Box.make_wf hb).1 (f := f) (by have := hp.1; have := hp.2.1; have := hp.2.2; positivity)
  refine ⟨b', t', ?_⟩
  simp only [Scaler.updateBox]
  rw [e, Outcome.ok_bind]
  simp only
  rw [e1]
  rfl

/-- Two molecules at a small distance, perhaps through a face, overlap once if they do. -/
theorem pairOverlaps_near {P : Packing} {r : ℝ} (hr : 0 < r) (hr' : 3 * r ≤ 1 / 5) (hb : P.box = unitBox) (hg : P.ng.isSome = true)
    {s1 s2 : Shape} (h1 : s1.pos.y = s2.pos.y) (h2 : s1.pos.z = s2.pos.z) {n : ℤ} {d : ℝ} (hd0 : d ≤ 1 / 20)
    (hn0 : |s1.pos.x - s2.pos.x - n| = d) :
    pairOverlaps P (ballsI [] r (3 * r)) s1 s2 = if d < 2 * r then 1 else 0 := by
  have hd1 : 0 ≤ d := by rw [← hn0]; exact abs_nonneg _
  have hn : (s1.pos.x - s2.pos.x - n) ^ 2 = d ^ 2 := by rw [← hn0, sq_abs]
  unfold pairOverlaps
  rw [if_pos hg, hb]
  simp only [sitePairs, molSites, ballsI, List.length_nil, if_true, List.map_cons, List.map_nil, List.sum_cons, List.sum_nil, add_zero]
  unfold overlappingImages
  have hd : ∀ t : Vec3 ℤ, dist2 s1.pos (s2.pos + lattice unitBox t) = (s1.pos.x - s2.pos.x - t.x) ^ 2 + (t.y : ℝ) ^ 2 + (t.z : ℝ) ^ 2 := by
    intro t
    simp only [dist2, lattice, Vec3.add_x, Vec3.add_y, Vec3.add_z, combo, unitBox, Mat3.diag, Mat3.c0, Mat3.c1, Mat3.c2, Vec3.smul_x, Vec3.smul_y, Vec3.smul_z, h1, h2, Vec3.map]
    ring
  simp only [BC.hard, decide_eq_true_eq, hd]
  have hlow : ∀ m : ℤ, m ≠ n → (9 / 10) ^ 2 ≤ (s1.pos.x - s2.pos.x - m) ^ 2 := by
    intro m hm
    have h1 : (1 : ℝ) ≤ |((n - m : ℤ) : ℝ)| := by
      rw [← Int.cast_abs]
      exact_mod_cast Int.one_le_abs (by omega)
    have h2 : |((n - m : ℤ) : ℝ)| ≤ |s1.pos.x - s2.pos.x - m| + |s1.pos.x - s2.pos.x - n| := by
      have := abs_sub (s1.pos.x - s2.pos.x - m) (s1.pos.x - s2.pos.x - n)
      have e : s1.pos.x - s2.pos.x - m - (s1.pos.x - s2.pos.x - n) = ((n - m : ℤ) : ℝ) := by push_cast; ring
      rw [e] at this
      exact this
    rw [← sq_abs (s1.pos.x - s2.pos.x - m)]
    have h3 : 9 / 10 ≤ |s1.pos.x - s2.pos.x - m| := by linarith
    nlinarith
  have hsq : ∀ m : ℤ, m ≠ 0 → (1 : ℝ) ≤ (m : ℝ) ^ 2 := by
    intro m hm
    have : (1 : ℤ) ≤ m ^ 2 := by have := Int.one_le_abs hm; nlinarith [sq_abs m, abs_nonneg m]
    exact_mod_cast this
  have hset : {t : Vec3 ℤ | (s1.pos.x - s2.pos.x - t.x) ^ 2 + (t.y : ℝ) ^ 2 + (t.z : ℝ) ^ 2 < (2 * r) ^ 2} = if d < 2 * r then {⟨n, 0, 0⟩} else ∅ := by
    split_ifs with hc
    · ext t
      simp only [Set.mem_ofPred_eq, Set.mem_singleton_iff]
      constructor
      · intro ht
        have e1 : t.x = n := by
          by_contra hne
          have := hlow t.x hne
          nlinarith [sq_nonneg (t.y : ℝ), sq_nonneg (t.z : ℝ)]
        have e2 : t.y = 0 := by
          by_contra hne
          have := hsq t.y hne
          nlinarith [sq_nonneg (s1.pos.x - s2.pos.x - t.x), sq_nonneg (t.z : ℝ)]
        have e3 : t.z = 0 := by
          by_contra hne
          have := hsq t.z hne
          nlinarith [sq_nonneg (s1.pos.x - s2.pos.x - t.x), sq_nonneg (t.y : ℝ)]
        ext <;> assumption
      · rintro rfl
        simp only [Int.cast_zero]
        rw [hn]
        nlinarith
    · ext t
      simp only [Set.mem_ofPred_eq, Set.mem_empty_iff_false, iff_false, not_lt]
      by_cases hx' : t.x = n
      · rw [hx', hn]; nlinarith [sq_nonneg (t.y : ℝ), sq_nonneg (t.z : ℝ)]
      · have := hlow t.x hx'
        nlinarith [sq_nonneg (t.y : ℝ), sq_nonneg (t.z : ℝ)]
  rw [hset]
  split_ifs <;> simp

/-- The two molecules overlap, if they do, through one face only. -/
theorem pairOverlaps_two {P : Packing} {r : ℝ} (hr : 0 < r) (hr' : 3 * r ≤ 1 / 5) (hb : P.box = unitBox) (hg : P.ng.isSome = true)
    {s1 s2 : Shape} (h1 : s1.pos.y = s2.pos.y) (h2 : s1.pos.z = s2.pos.z) (hx : s1.pos.x - s2.pos.x = 19 / 20 ∨ s2.pos.x - s1.pos.x = 19 / 20) :
    pairOverlaps P (ballsI [] r (3 * r)) s1 s2 = if 1 / 40 < r then 1 else 0 := by
  have key : pairOverlaps P (ballsI [] r (3 * r)) s1 s2 = if 1 / 20 < 2 * r then 1 else 0 := by
    rcases hx with h | h
    · refine pairOverlaps_near hr hr' hb hg h1 h2 (n := 1) le_rfl ?_
      rw [h]; norm_num [abs_of_neg]
    · have h' : s1.pos.x - s2.pos.x = -(19 / 20) := by linarith
      refine pairOverlaps_near hr hr' hb hg h1 h2 (n := -1) le_rfl ?_
      rw [h']; norm_num [abs_of_pos]
  rw [key]
  congr 1
  rw [eq_iff_iff]
  constructor <;> intro h <;> linarith

theorem count_two {P : Packing} {r : ℝ} (hr : 0 < r) (hr' : 3 * r ≤ 1 / 5) (h : Reachable P (ballsI [] r (3 * r))) (hm : mols P = twoShapes)
    (hb : P.box = unitBox) (hg : P.ng.isSome = true) (hw : P.hasWall = ⟨false, false, false⟩) :
    P.countTotalOverlaps (ballsI [] r (3 * r)) false = .ok (if 1 / 40 < r then 1 else 0) := by
  obtain ⟨hP, hI⟩ := h.inv
  have hs : P.size = 2 := by rw [← mols_length, hm]; rfl
  obtain ⟨c, w, K, h1, h2, h3⟩ := C09_counts_add_up h
  have hw0 : ∀ i, i < P.size → w i = 0 := by
    intro i hi
    have e := (h1 i hi).2
    have : P.countParticleWallOverlaps (ballsI [] r (3 * r)) i false = .ok 0 := by
      obtain ⟨k, ek, -, hk⟩ := wallCount_ok hP.q.core.m_eq (hP.q.core.shapeFn hi).1 false
      rw [ek, hk rfl, wallNum_of_none _ (by simp [hasAnyWalls, hw])]
    rw [this] at e
    injection e with e
    exact e.symm
  have m0 : (mols P)[0]? = some ⟨⟨1 / 40, 1 / 2, 1 / 2⟩, 1⟩ := by rw [hm]; rfl
  have m1 : (mols P)[1]? = some ⟨⟨39 / 40, 1 / 2, 1 / 2⟩, 1⟩ := by rw [hm]; rfl
  have c0 : c 0 = if 1 / 40 < r then 1 else 0 := by
    obtain ⟨w', e1, e2⟩ := C08_particle_count h m0
    rw [(h1 0 (by omega)).1] at e2
    rw [(h1 0 (by omega)).2] at e1
    injection e1 with e1
    injection e2 with e2
    rw [e2, ← e1, hw0 0 (by omega), overlapsOf, hm]
    simp only [twoShapes, List.eraseIdx_zero, List.tail_cons, List.map_cons, List.map_nil, List.sum_cons, List.sum_nil, add_zero]
    exact pairOverlaps_two hr hr' hb hg rfl rfl (.inr (by norm_num))
  have c1 : c 1 = if 1 / 40 < r then 1 else 0 := by
    obtain ⟨w', e1, e2⟩ := C08_particle_count h m1
    rw [(h1 1 (by omega)).1] at e2
    rw [(h1 1 (by omega)).2] at e1
    injection e1 with e1
    injection e2 with e2
    rw [e2, ← e1, hw0 1 (by omega), overlapsOf, hm]
    simp only [twoShapes, List.eraseIdx_cons_succ, List.eraseIdx_zero, List.tail_cons, List.map_cons, List.map_nil, List.sum_cons, List.sum_nil, add_zero]
    exact pairOverlaps_two hr hr' hb hg rfl rfl (.inl (by norm_num))
  rw [hs, Finset.sum_range_succ, Finset.sum_range_one, Finset.sum_range_succ, Finset.sum_range_one, c0, c1, hw0 0 (by omega), hw0 1 (by omega)] at h3
  rw [h2]
  congr 1
  split_ifs at h3 ⊢ <;> omega

theorem defined_const {v : ℝ} (hv : 0 ≤ v) : Defined (.const v) := fun _ _ => ⟨v, by simp [Param.value], hv⟩

/-- Simulations of two balls in the unit cube: the whole box at once with scaling, or two domains without scaling. -/
theorem ready_of {r : ℝ} (hr : 0 < r) (hr' : 3 * r ≤ 1 / 5) {divs : Vec3 Nat} {ss : List Sampler} {sc : ScalerStatus}
    (hcase : (divs = ⟨1, 1, 1⟩ ∧ ss = demoSamplers ∧ sc = .enabled demoScaler) ∨ (divs = ⟨2, 1, 1⟩ ∧ ss = demoSamplers.take 3 ∧ sc = .disabled))
    {P : Packing} (h : Reachable P (ballsI [] r (3 * r))) (hb : P.box = unitBox) (hs : P.size = 2) (ht : P.moveThreads = 2)
    (hrot : ∀ s ∈ mols P, s.rot = 1) :
    ∃ S, Sim.make P (fun _ => demoTape) (demoEnv ss sc) divs = .ok S ∧ S.P = P ∧ S.divs = divs ∧ S.log = [] ∧
      Ready (demoTraits r) S Env.empty (ballsI [] r (3 * r)) := by
  obtain ⟨hP, hI⟩ := h.inv
  have hall : Op.Allowed P (ballsI [] r (3 * r)) (.setup (ballsI [] r (3 * r))) := by
    refine ⟨hI, ?_, .inl le_rfl, id⟩
    rw [hs]
    show 2 * Max.max 1 0 < 2 ^ 50
    norm_num
  obtain ⟨P1, hset, hg1⟩ : ∃ P1, P.setupForInteraction (ballsI [] r (3 * r)) = .ok P1 ∧ P1.ng.isSome = true := by
    have hg' : GridsHave P (P.size * Max.max 1 (ballsI [] r (3 * r)).centres.length) := by
      apply hP.gridsHave.mono
      unfold cap; rw [hP.q.core.m_eq]
    obtain ⟨P1, e1, hP1, m1, b1, w1, -⟩ := setup_ok hP hI hg' hall.2.1 (fun hh => hP.noHard hh)
    exact ⟨P1, e1, hP1.used.mpr (unitBox_usesGrid hP1 (by rw [b1, hb]) hr')⟩
  have hmake : Sim.make P (fun _ => demoTape) (demoEnv ss sc) divs = .ok {
      temperature := 0, pressure := 0, env := demoEnv ss sc, cancelReported := [], counters := [], scalingCounter := .zero,
      shouldAdjust := false, overlapsCounted := false, performed := 0, total := 0, max := 0,
      mts := (List.range (divs.x * divs.y * divs.z)).map fun _ => demoTape, P := P, all := List.range P.size, divs := divs,
      numDomains := divs.x * divs.y * divs.z, interrupted := false, log := [] } := by
    unfold Sim.make
    rcases hcase with ⟨rfl, -, -⟩ | ⟨rfl, -, -⟩ <;> simp [hs, ht, Outcome.require]
  have hcomb : (demoEnv ss sc).combine Env.empty = demoEnv ss sc := rfl
  refine ⟨_, hmake, rfl, rfl, rfl, ?_⟩
  have htapes : ∀ t ∈ (List.range (divs.x * divs.y * divs.z)).map fun _ => demoTape, t = demoTape := by
    intro t ht
    obtain ⟨-, -, rfl⟩ := List.mem_map.mp ht
    rfl
  refine ⟨⟨h, hall, ?_, ?_, ?_, ?_, ?_⟩, ?_, ?_, ?_, ?_, ?_, ?_, ?_, ?_, rfl, ?_, ?_, ?_⟩ <;> simp only [hcomb]
  · intro i hi; exact List.mem_range.mp hi
  · rw [ht]; rcases hcase with ⟨rfl, -, -⟩ | ⟨rfl, -, -⟩ <;> simp
  · intro t ht; rw [htapes t ht]; exact demoTape_positive
  · rcases hcase with ⟨rfl, -, -⟩ | ⟨rfl, -, -⟩ <;> simp
  · rintro p hp a b t e
    simp only [demoEnv, Option.some.injEq] at hp
    subst hp
    simp only [Param.value] at e
    injection e with e
    rw [← e]; norm_num
  · intro s hs'
    rw [hrot s hs']
    show IsRotation 1
    have : IsRotation 1 := ⟨by unfold Orthogonal; rw [Mat3.mul_one]; ext <;> rfl, by show Mat3.det ⟨⟨1, 0, 0⟩, ⟨0, 1, 0⟩, ⟨0, 0, 1⟩⟩ = 1; norm_num [Mat3.det]⟩
    exact this
  · rw [hs]; simp
  · rcases hcase with ⟨-, rfl, -⟩ | ⟨-, rfl, -⟩ <;> simp [demoEnv, demoSamplers]
  · intro s hs'
    have htr : (demoTraits r).I.totalRange > 0 := by simp only [demoTraits, ballsI]; linarith
    have hauto : Sampler.autoRotation (1 / 10 / (demoTraits r).I.totalRange) > 0 := by
      unfold Sampler.autoRotation
      nlinarith [sq_nonneg (1 / 10 / (demoTraits r).I.totalRange - 118634 / 100000 * 100 / (2 * 26437))]
    have hthree : ∀ s ∈ demoSamplers.take 3, ∀ n, ∃ s', s.setup (demoTraits r) = .ok s' ∧ Usable n s' := by
      intro s hs n
      simp only [demoSamplers, List.take_succ_cons, List.take_zero, List.mem_cons, List.not_mem_nil, or_false] at hs
      rcases hs with rfl | rfl | rfl
      · exact ⟨_, rfl, trivial⟩
      · exact ⟨_, rfl, trivial⟩
      · refine ⟨.rototranslation (1 / 10) (some (Sampler.autoRotation (1 / 10 / (demoTraits r).I.totalRange))) (1 / 2) false, ?_, rfl⟩
        simp only [Sampler.setup]
        rw [decide_eq_true htr, decide_eq_true hauto]
        rfl
    rcases hcase with ⟨rfl, rfl, -⟩ | ⟨rfl, rfl, -⟩
    · have hs2 : s ∈ demoSamplers.take 3 ∨ s = .flip 1 0 0 false := by
        simp only [demoEnv, demoSamplers, List.mem_cons, List.not_mem_nil, or_false, List.take_succ_cons, List.take_zero] at hs' ⊢
        tauto
      rcases hs2 with h2 | rfl
      · exact hthree s h2 _
      · refine ⟨.flip 1 ⟨0, 0, 1⟩ 0 (decide ((0 : Vec3 ℝ).norm2 < (1 / 10 ^ 14) * (1 / 10 ^ 14))), rfl, by norm_num, by rw [hs]; norm_num, ?_⟩
        intro e
        have := congrArg Vec3.z e
        norm_num at this
    · exact hthree s hs' _
  · intro t ht; rw [htapes t ht]; exact demoTape_fair
  · rcases hcase with ⟨-, -, rfl⟩ | ⟨-, -, rfl⟩
    · exact ⟨by norm_num [demoScaler], log_safe (by simp) true⟩
    · trivial
  · exact ⟨_, rfl, defined_const (by norm_num)⟩
  · intro _; exact ⟨_, rfl, defined_const (by norm_num)⟩
  · rcases hcase with ⟨rfl, -, -⟩ | ⟨rfl, -, -⟩ <;> simp
  · simp
  · rcases hcase with ⟨rfl, -, -⟩ | ⟨rfl, -, rfl⟩
    · left; rfl
    · right
      refine ⟨?_, rfl, ⟨?_, ?_⟩, ?_⟩
      · intro P' hP'
        have : P.setupForInteraction (ballsI [] r (3 * r)) = .ok P' := hP'
        rw [hset] at this
        injection this with this
        rw [← this]; exact hg1
      · simp [demoTraits, ballsI]
      · simp [demoTraits, ballsI]
      · exact Domain.forall_axis.mpr ⟨by simp, by simp, by simp⟩

/-- Simulations of the two close balls. -/
theorem demo_ready {r : ℝ} (hr : 0 < r) (hr' : 3 * r ≤ 1 / 5) {divs : Vec3 Nat} {ss : List Sampler} {sc : ScalerStatus}
    (hcase : (divs = ⟨1, 1, 1⟩ ∧ ss = demoSamplers ∧ sc = .enabled demoScaler) ∨ (divs = ⟨2, 1, 1⟩ ∧ ss = demoSamplers.take 3 ∧ sc = .disabled)) :
    ∃ P S P1 k, Reachable P (ballsI [] r (3 * r)) ∧ Sim.make P (fun _ => demoTape) (demoEnv ss sc) divs = .ok S ∧ mols S.P = twoShapes ∧
      Ready (demoTraits r) S Env.empty (ballsI [] r (3 * r)) ∧ S.P.setupForInteraction (demoTraits r).I = .ok P1 ∧
      P1.countTotalOverlaps (demoTraits r).I true = .ok k ∧ (0 < k ↔ 1 / 40 < r) ∧ S.P.box = unitBox ∧ S.log = [] := by
  obtain ⟨P, h, hm, hb, hg, hw, -, ht, hs⟩ := two_reachable [] (by simp) hr hr' (3 * r) 2
  obtain ⟨hP, hI⟩ := h.inv
  have hall : Op.Allowed P (ballsI [] r (3 * r)) (.setup (ballsI [] r (3 * r))) := by
    refine ⟨hI, ?_, .inl le_rfl, id⟩
    rw [hs]
    show 2 * Max.max 1 0 < 2 ^ 50
    norm_num
  obtain ⟨P1, k, hset, hg1, hk, hk0⟩ : ∃ P1 k, P.setupForInteraction (ballsI [] r (3 * r)) = .ok P1 ∧ P1.ng.isSome = true ∧
      P1.countTotalOverlaps (ballsI [] r (3 * r)) true = .ok k ∧ (0 < k ↔ 1 / 40 < r) := by
    have hg' : GridsHave P (P.size * Max.max 1 (ballsI [] r (3 * r)).centres.length) := by
      apply hP.gridsHave.mono
      unfold cap; rw [hP.q.core.m_eq]
    obtain ⟨P1, e1, hP1, m1, b1, w1, -⟩ := setup_ok hP hI hg' hall.2.1 (fun hh => hP.noHard hh)
    have r1 : Reachable P1 (ballsI [] r (3 * r)) := by
      refine .step (.setup _) h hall ?_
      simp only [Op.run]
      rw [e1]
      rfl
    have g1 : P1.ng.isSome = true := hP1.used.mpr (unitBox_usesGrid hP1 (by rw [b1, hb]) hr')
    have c1 := count_two hr hr' r1 (by rw [m1, hm]) (by rw [b1, hb]) g1 (by rw [w1, hw])
    obtain ⟨K, hK, hk⟩ := countTotal_ok hP1.q hI
    obtain ⟨k1, ek1, h1, -⟩ := hk true
    obtain ⟨k2, ek2, h2, -⟩ := hk false
    refine ⟨P1, k1, e1, g1, ek1, ?_⟩
    rw [c1] at ek2
    injection ek2 with ek2
    rw [h1, ← h2, ← ek2]
    by_cases hc : 1 / 40 < r
    · rw [if_pos hc]; exact ⟨fun _ => hc, fun _ => by norm_num⟩
    · rw [if_neg hc]; exact ⟨fun h => absurd h (lt_irrefl _), fun h => absurd h hc⟩
  obtain ⟨S, hmake, eP, -, elog, hready⟩ := ready_of hr hr' hcase h hb hs ht (by
    intro s hs'
    rw [hm] at hs'
    simp only [twoShapes, List.mem_cons, List.not_mem_nil, or_false] at hs'
    rcases hs' with rfl | rfl <;> rfl)
  refine ⟨P, S, P1, k, h, hmake, by rw [eP, hm], hready, by rw [eP]; exact hset, hk, hk0, by rw [eP, hb], elog⟩

end Sim

end Rampack
