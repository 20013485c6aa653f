import Verif.Sim.MetroSpec
import Verif.Sim.KeepProps
/-
Theorems on the acceptance of moves and volume changes (C64).
-/
namespace Rampack

open Rampack.Spec Rampack.Packing Rampack.Sim

private theorem boltzmann_move {hard counting : Bool} {N0 N1 K0 K1 : ℕ} {e0 e1 T u : ℝ} (hT : 0 < T) (hu : 0 < u)
    (hN : N1 + K0 = N0 + K1) :
    (boltzmann (moveChange hard counting K0 K1 e0 e1) T).geNum u = true ↔ Metropolis hard counting N0 N1 K1 (e1 - e0) 0 T u := by
  have hT' : T ≠ 0 := hT.ne'
  have fin : (boltzmann (.fin (e1 - e0)) T).geNum u = true ↔ u ≤ Real.exp (0 - (e1 - e0) / T) := by
    simp only [boltzmann, EnergyChange.toExt, Ext.neg, Ext.div, hT', ne_eq, not_false_iff, if_true, Ext.exp, Ext.geNum, decide_eq_true_eq]
    rw [show -(e1 - e0) / T = 0 - (e1 - e0) / T by ring]
  have pos : (boltzmann .posInf T).geNum u = false := by
    simp [boltzmann, EnergyChange.toExt, Ext.neg, Ext.div, hT.le, Ext.exp, Ext.geNum, hu]
  have neg : (boltzmann .negInf T).geNum u = true := by
    simp [boltzmann, EnergyChange.toExt, Ext.neg, Ext.div, hT.le, Ext.exp, Ext.geNum]
  unfold moveChange Metropolis
  cases hard
  · simpa using fin
  · cases counting
    · simp only [if_true, Bool.false_eq_true, if_false, true_and, false_and]
      by_cases h : 0 < K1
      · rw [if_pos h, if_pos h, pos]; simp
      · rw [if_neg h, if_neg h]; exact fin
    · simp only [if_true, true_and, Bool.true_eq_false, false_and, if_false]
      by_cases h1 : K1 < K0
      · rw [if_pos h1, if_pos (show N1 < N0 by omega), neg]; simp
      · rw [if_neg h1, if_neg (show ¬ N1 < N0 by omega)]
        by_cases h2 : K0 < K1
        · rw [if_pos h2, if_pos (show N0 < N1 by omega), pos]; simp
        · rw [if_neg h2, if_neg (show ¬ N0 < N1 by omega)]; exact fin

/-- C64, moves: a move of a molecule `i` is proposed, from the numbers of the thread's engine `t`, and the next
number `t n` is used for the decision. Leaving the domain is refused. Otherwise the packing becomes the proposed one exactly if the Metropolis rule tells so, with the energies and overlap numbers which the packing
reports for the present and for the proposed configuration (`K` is the number of overlaps of the moved molecule after the move; if there
are no overlaps before, it is the number of all overlaps). Otherwise nothing changes. -/
theorem C64_move {T : Traits} {idxs accs : List Nat} {tid : Nat} {domain : Option (Vec3 ℝ → Bool)} {S S' : Sim}
    {cs cs' : List Counter} (hr : Reachable S.P T.I) (ht : tid < S.P.moveThreads) (hi : ∀ i ∈ idxs, i < S.P.size)
    (hT : 0 < S.temperature) (hu : ∀ t ∈ S.mts, t.Positive) (h : Sim.tryMove T idxs accs tid domain (S, cs) = .ok (S', cs')) :
    ∃ (i : Nat) (k : Kind) (s : Shape) (t : Tape) (n : Nat), i ∈ idxs ∧ (mols S.P)[i]? = some s ∧ S.mts[tid]? = some t ∧
      (∃ sm ∈ S.env.samplers, ∃ sm', sm.sampleMove S.P idxs (t.drop 1) = .ok (⟨i, k⟩, sm', t.drop n)) ∧
      S'.mts = S.mts.set tid (t.drop (n + 1)) ∧ S'.P.box = S.P.box ∧
      (¬ InDomain k domain (k.apply S.P.box s).pos → mols S'.P = mols S.P) ∧
      (InDomain k domain (k.apply S.P.box s).pos → ∃ P2 E0 E1 N0 N1 K,
        Proposed T.I S.P P2 ((mols S.P).set i (k.apply S.P.box s)) S.P.box ∧
        S.P.totalEnergy T.I = .ok E0 ∧ P2.totalEnergy T.I = .ok E1 ∧
        S.P.countTotalOverlaps T.I false = .ok N0 ∧ P2.countTotalOverlaps T.I false = .ok N1 ∧
        P2.countParticleOverlaps T.I i i false = .ok K ∧ (N0 = 0 → K = N1) ∧
        (Metropolis T.I.hasHard S.P.overlapCounting N0 N1 K (E1 - E0) 0 S.temperature (t n) → mols S'.P = mols P2) ∧
        (¬ Metropolis T.I.hasHard S.P.overlapCounting N0 N1 K (E1 - E0) 0 S.temperature (t n) → mols S'.P = mols S.P)) := by
  obtain ⟨g, sm, sm', mv, t, n, P, dE, c, h1, h2, h3, h4, h5, h6, h7⟩ := tryMove_ok h
  obtain ⟨hP, hI⟩ := hr.inv
  have hmem := (Sampler.sampleMove_ok h5).1
  have hlt := hi _ hmem
  have hpos := (hu t (List.mem_of_getElem? h2) n).1
  have hms : (mols S.P)[mv.idx]? = some (S.P.shapeFn mv.idx) := by rw [mols_getElem? hlt, shape_some hlt]
  refine ⟨mv.idx, mv.kind, S.P.shapeFn mv.idx, t, n, hmem, hms, h2, ⟨sm, List.mem_of_getElem? h1, sm', h5⟩, ?_, ?_⟩
  · rcases h7 with ⟨P', ha, hb, rfl, -⟩ | ⟨ha, rfl, -⟩ <;> rfl
  by_cases hd : InDomain mv.kind domain (mv.kind.apply S.P.box (S.P.shapeFn mv.idx)).pos
  · have hfor : How.For mv.kind .move := by cases mv.kind <;> trivial
    obtain ⟨P1, P2, K0, K1, e1, e2, p1, p2, sm1, rp, hsome, hn, hsoft, q0, q1⟩ := move_pinv hP hI ht hlt hd (hfor.fits _ _)
    obtain ⟨N0, en0, hN0⟩ := count_exact hP hI
    obtain ⟨N1, en1, hN1⟩ := count_exact p2 hI
    rw [e1] at h6
    injection h6 with h6
    injection h6 with h6 h8
    subst h6 h8
    have hNK : N1 + K0 = N0 + K1 := by
      have : (N1 : ℝ) + K0 = N0 + K1 := by rw [hN0, hN1, hn]; ring
      exact_mod_cast this
    have hreach : Reachable P2 T.I := .step (.move tid mv.idx mv.kind domain .move) hr ⟨ht, hfor, _, hms, hd⟩
      (by simp only [Op.run]; rw [e1, Outcome.ok_bind]; simp only; rw [e2, Outcome.ok_bind]; rfl)
    have hm2 : mols P2 = (mols S.P).set mv.idx (mv.kind.apply S.P.box (S.P.shapeFn mv.idx)) := by rw [rp.mols, sm1.mols]
    have hsz : P2.size = S.P.size := by
      have := congrArg List.length hm2
      rw [List.length_set, mols_length, mols_length] at this
      exact this
    have hs2 : (mols P2)[mv.idx]? = some (mv.kind.apply S.P.box (S.P.shapeFn mv.idx)) := by
      rw [hm2, List.getElem?_set_self (by rw [mols_length]; exact hlt)]
    have hin := Kind.apply_inside hP.q.core.box (hP.q.core.shapeFn hlt).2 mv.kind
    have hbox : P2.box = S.P.box := rp.box.trans sm1.box
    have hwal : P2.hasWall = S.P.hasWall := rp.hasWall.trans sm1.hasWall
    obtain ⟨hi2, hf2⟩ := mem_mols hs2
    obtain ⟨K, hK, hk⟩ := countParticle_ok p2.q hI (p2.q.core.shapeFn hi2).1 (p2.q.core.shapeFn hi2).2 mv.idx
    obtain ⟨k, ek, -, hkK⟩ := hk false
    have hKK : k = K1 := by
      rw [hkK rfl]
      rw [single_overlaps p2 hI hi2 (p2.q.core.shapeFn hi2).2, hf2] at hK
      rw [single_overlaps hP hI hlt hin] at q1
      have e3 : overlapsOf P2 T.I mv.idx (mv.kind.apply S.P.box (S.P.shapeFn mv.idx)) =
          overlapsOf S.P T.I mv.idx (mv.kind.apply S.P.box (S.P.shapeFn mv.idx)) := by
        unfold overlapsOf
        rw [hm2, List.eraseIdx_set_eq]
        congr 2
        funext x
        unfold pairOverlaps
        rw [hsome, hbox]
      rw [e3, hbox, hwal, ← q1] at hK
      exact_mod_cast hK
    subst hKK
    have hE : softTotal P2 T.I - softTotal S.P T.I = S.P.soft T.I mv.idx (mv.kind.apply S.P.box (S.P.shapeFn mv.idx)) -
        S.P.soft T.I mv.idx (S.P.shapeFn mv.idx) := by rw [hsoft]; ring
    have key := boltzmann_move (hard := T.I.hasHard) (counting := S.P.overlapCounting)
      (e0 := S.P.soft T.I mv.idx (S.P.shapeFn mv.idx)) (e1 := S.P.soft T.I mv.idx (mv.kind.apply S.P.box (S.P.shapeFn mv.idx))) hT hpos hNK
    rw [← hE] at key
    have hzero : N0 = 0 → k = N1 := by
      intro h0
      have hle := single_le_total hP hI hlt
      rw [← q0, ← hN0, h0] at hle
      have : K0 = 0 := by
        have : (K0 : ℝ) ≤ 0 := by exact_mod_cast hle
        have : K0 ≤ 0 := by exact_mod_cast this
        omega
      omega
    refine ⟨?_, fun hd' => absurd hd hd', fun _ => ⟨P2, _, _, N0, N1, k, ⟨hreach, hm2, hbox, hwal, ?_⟩, totalEnergy_ok hP.q hI, totalEnergy_ok p2.q hI, en0, en1,
      ek, hzero, ?_, ?_⟩⟩
    · rcases h7 with ⟨P', ha, hb, rfl, -⟩ | ⟨ha, rfl, -⟩
      · rw [show P1.acceptMove tid = .ok P2 from e2] at hb
        injection hb with hb
        subst hb
        exact hbox
      · exact sm1.box
    · exact rp.overlapCounting.trans sm1.overlapCounting
    · intro hM
      rcases h7 with ⟨P', ha, hb, rfl, -⟩ | ⟨ha, rfl, -⟩
      · rw [show P1.acceptMove tid = .ok P2 from e2] at hb
        injection hb with hb
        subst hb
        rfl
      · rw [key.mpr hM] at ha
        cases ha
    · intro hM
      rcases h7 with ⟨P', ha, hb, rfl, -⟩ | ⟨ha, rfl, -⟩
      · exact absurd (key.mp ha) hM
      · exact sm1.mols
  · obtain ⟨P1, e1, sm1, -⟩ := trial_out hP ht hlt hd
    rw [e1] at h6
    injection h6 with h6
    injection h6 with h6 h8
    subst h6 h8
    have pos : (boltzmann .posInf S.temperature).geNum (t n) = false := by
      simp [boltzmann, EnergyChange.toExt, Ext.neg, Ext.div, hT.le, Ext.exp, Ext.geNum, hpos]
    rcases h7 with ⟨P', ha, hb, rfl, -⟩ | ⟨ha, rfl, -⟩
    · rw [pos] at ha; cases ha
    · exact ⟨sm1.box, fun _ => sm1.mols, fun hd' => absurd hd' hd⟩

/-- A state after a run of two touching balls, at temperature and pressure 1, with scaling and no domains. -/
theorem demo_state : ∃ S : Sim, Live (demoTraits (1 / 40)) S.P.size S ∧ S.temperature = 1 ∧ S.env.isBoxScalingEnabled = true := by
  obtain ⟨S0, S, -, -, h⟩ := demo_run demoParams demoParams_legal (fun _ => false)
  have hsz := h.proper.1.size
  rw [← hsz] at h
  refine ⟨⟨1, 1, ⟨S.env.temperature, some (.const 1), S.env.samplers, .enabled demoScaler⟩, S.cancelReported, S.counters, S.scalingCounter,
    S.shouldAdjust, S.overlapsCounted, S.performed, S.total, S.max, S.mts, S.P, S.all, ⟨1, 1, 1⟩, 1, S.interrupted, S.log⟩, ⟨⟨⟨h.proper.1.reach, rfl, h.proper.1.all, h.proper.1.threads, h.proper.1.tapes, h.proper.1.engines,
      zero_le_one, h.proper.1.temps, h.proper.1.counted⟩, h.proper.2⟩, h.molecules, h.groups, ?_, h.counters, h.cancel, h.fair, ?_, h.temperature,
      ?_, rfl, Nat.one_pos, h.proper.1.engines, .inl rfl⟩, rfl, rfl⟩
  · intro s hs
    exact Sampler.Usable.mono (h.usable s hs) (by rw [Nat.div_one]; exact Nat.div_le_self _ _)
  · exact ⟨by norm_num [demoScaler], log_safe (by simp) true⟩
  · exact fun _ => ⟨_, rfl, defined_const (by norm_num)⟩

/-- The hypotheses are met by a move in such a state. -/
example : ∃ (S S' : Sim) (accs : List Nat) (cs' : List Counter), Reachable S.P (demoTraits (1 / 40)).I ∧ 0 < S.P.moveThreads ∧
    (∀ i ∈ S.all, i < S.P.size) ∧ 0 < S.temperature ∧ (∀ t ∈ S.mts, t.Positive) ∧
    Sim.tryMove (demoTraits (1 / 40)) S.all accs 0 none (S, S.counters) = .ok (S', cs') := by
  obtain ⟨S, h, hT, -⟩ := demo_state
  obtain ⟨accs, a1, a2, a3⟩ := accumulations_total (m := S.P.size) S.env.samplers 0
    (fun s hs => Sampler.Usable.mono (h.usable s hs) (Nat.div_le_self _ _))
  obtain ⟨last, b1, -, b3, b4⟩ := a3 h.groups
  have hpos : 0 < S.mts.length := lt_of_lt_of_le h.domains h.engines
  obtain ⟨S', cs', e⟩ := Live.tryMove (idxs := S.all) (accs := accs) (tid := 0) (cs := S.counters) h
    ⟨h.molecules, h.proper.1.all, ⟨last, b1, b3 h.size_pos, b4⟩, a2, h.counters, hpos⟩ none
  exact ⟨S, S', accs, cs', h.proper.1.reach, lt_of_lt_of_le hpos h.proper.1.threads, h.proper.1.all, by rw [hT]; exact one_pos,
    h.proper.1.tapes, e⟩

/-- The decision on a volume change. -/
private theorem scale_decision {hard counting skip : Bool} {N0 N1 : ℕ} {dE w v T u : ℝ} (hT : 0 < T) (hu : 0 < u) (hs : skip = false) :
    ((((Ext.fin v).sub ((scaleChange hard counting skip N0 N1 dE).toExt.div T)).sub ((Ext.fin w).div T)).exp.geNum u = true ↔
      Metropolis hard counting N0 N1 N1 dE (v - w / T) T u) := by
  have hT' : T ≠ 0 := hT.ne'
  have fin : (((Ext.fin v).sub ((EnergyChange.fin dE).toExt.div T)).sub ((Ext.fin w).div T)).exp.geNum u = true ↔
      u ≤ Real.exp (v - w / T - dE / T) := by
    simp only [EnergyChange.toExt, Ext.div, hT', ne_eq, not_false_iff, if_true, Ext.sub, Ext.neg, Ext.add, Ext.exp, Ext.geNum, decide_eq_true_eq]
    rw [show v + -(dE / T) + -(w / T) = v - w / T - dE / T by ring]
  have pos : (((Ext.fin v).sub ((EnergyChange.posInf).toExt.div T)).sub ((Ext.fin w).div T)).exp.geNum u = false := by
    simp [EnergyChange.toExt, Ext.div, hT', hT.le, Ext.sub, Ext.neg, Ext.add, Ext.exp, Ext.geNum, hu]
  have neg : (((Ext.fin v).sub ((EnergyChange.negInf).toExt.div T)).sub ((Ext.fin w).div T)).exp.geNum u = true := by
    simp [EnergyChange.toExt, Ext.div, hT', hT.le, Ext.sub, Ext.neg, Ext.add, Ext.exp, Ext.geNum]
  unfold scaleChange Metropolis
  subst hs
  cases hard
  · simpa using fin
  · cases counting
    · simp only [if_true, Bool.false_eq_true, if_false, true_and, false_and]
      by_cases h : 0 < N1
      · rw [if_pos h, if_pos h, pos]; simp
      · rw [if_neg h, if_neg h]; exact fin
    · simp only [if_true, true_and, Bool.true_eq_false, false_and, if_false, Nat.cast_lt]
      by_cases h1 : N1 < N0
      · rw [if_pos h1, if_pos h1, neg]; simp
      · rw [if_neg h1, if_neg h1]
        by_cases h2 : N0 < N1
        · rw [if_pos h2, if_pos h2, pos]; simp
        · rw [if_neg h2, if_neg h2]; exact fin

/-- C64, volume changes: the scaler proposes a box from the numbers of the first engine, and the next number `t' 0` is used for the
decision. The packing becomes the rescaled one exactly if the Metropolis rule tells so; otherwise nothing changes. Used here: the
packing counts overlaps exactly when the simulation wants it (which runs see to), and the shortcut for convex shapes (no check of
overlaps if the box is only expanded, see C18) is right when it is taken; C18 tells when it is and that it may not be. The early rejection
of hard particles is included. -/
theorem C64_scaling_partial {S S' : Sim} {I : Interaction} {accepted : Bool} (hr : Reachable S.P I) (hT : 0 < S.temperature)
    (hu : ∀ t ∈ S.mts, t.Positive) (hc : S.P.overlapCounting = S.overlapsCounted)
    (hright : ∀ b P2, Proposed I S.P P2 ((mols S.P).map (Shape.rescale S.P.box b)) b → I.isConvex = true → S.P.overlapCounting = false →
      isBoxUpscaled S.P.box b = true → P2.countTotalOverlaps I false = .ok 0)
    (h : S.tryScaling I = .ok (S', accepted)) :
    ∃ (s : Scaler) (t t' : Tape) (b : Box) (P2 : Packing) (E0 E1 : ℝ) (N0 N1 : ℕ), S.env.scaler = .enabled s ∧ S.mts[0]? = some t ∧
      s.updateBox S.P.box t = .ok (b, t') ∧ S'.mts = S.mts.set 0 (t'.drop 1) ∧
      Proposed I S.P P2 ((mols S.P).map (Shape.rescale S.P.box b)) b ∧
      S.P.totalEnergy I = .ok E0 ∧ P2.totalEnergy I = .ok E1 ∧
      S.P.countTotalOverlaps I false = .ok N0 ∧ P2.countTotalOverlaps I false = .ok N1 ∧
      (accepted = true ↔ Metropolis I.hasHard S.P.overlapCounting N0 N1 N1 (E1 - E0)
        (S.P.size * Real.log (|b.volume| / |S.P.box.volume|) - S.pressure * (|b.volume| - |S.P.box.volume|) / S.temperature)
        S.temperature (t' 0)) ∧
      (accepted = true → mols S'.P = mols P2 ∧ S'.P.box = P2.box) ∧
      (accepted = false → mols S'.P = mols S.P ∧ S'.P.box = S.P.box) := by
  obtain ⟨hP, hI⟩ := hr.inv
  unfold Sim.tryScaling at h
  obtain ⟨_, h1, h⟩ := Outcome.bind_eq_ok.mp h
  obtain ⟨t, h2, h⟩ := Outcome.bind_eq_ok.mp h
  rw [vget_eq_ok] at h2
  obtain ⟨s, h3, h⟩ := Outcome.bind_eq_ok.mp h
  have h3' : S.env.scaler = .enabled s := by
    unfold Env.getBoxScaler at h3
    split at h3
    · injection h3 with h3
      subst h3
      assumption
    · cases h3
  obtain ⟨⟨b, t'⟩, h4, h⟩ := Outcome.bind_eq_ok.mp h
  simp only at h
  obtain ⟨_, h5, h⟩ := Outcome.bind_eq_ok.mp h
  obtain ⟨⟨M, hb⟩, j, hj⟩ := Scaler.updateBox_ok h4
  have hpos : 0 < t' 0 := by rw [hj]; exact (hu t (List.mem_of_getElem? h2) _).1
  obtain ⟨as, og, n, K, e, p1, hK⟩ := Packing.tryScaling_ok hP hI (Box.make_wf hb).1
  obtain ⟨N0, en0, hN0⟩ := count_exact hP hI
  obtain ⟨N1, en1, hN1⟩ := count_exact p1 hI
  have hKN : K = N1 := by exact_mod_cast hK.trans hN1.symm
  subst hKN
  have hreach : Reachable (S.P.scaledState b as og n) I := .step (.scale b true) hr ⟨M, hb⟩ (by simp only [Op.run]; rw [e, Outcome.ok_bind]; rfl)
  obtain ⟨as', er, smr, -⟩ := revert_ok hP p1
  have hnum : scaleChange I.hasHard S.P.overlapCounting (I.isConvex && isBoxUpscaled S.P.box b) S.P.numOverlaps K
      (softTotal (S.P.scaledState b as og n) I - softTotal S.P I) =
      scaleChange I.hasHard S.P.overlapCounting false N0 K (softTotal (S.P.scaledState b as og n) I - softTotal S.P I) := by
    by_cases hcc : S.P.overlapCounting = true
    · have hcache : S.P.numOverlaps = (N0 : Int) := by
        have := hP.cached hcc
        rw [← hN0] at this
        exact_mod_cast this
      rw [hcache]
      unfold scaleChange
      simp [hcc]
    · have hcf : S.P.overlapCounting = false := by simpa using hcc
      unfold scaleChange
      rw [hcf]
      by_cases hs : (I.isConvex && isBoxUpscaled S.P.box b) = true
      · rw [Bool.and_eq_true] at hs
        have := hright b _ ⟨hreach, mols_scaledState S.P b as og n, rfl, rfl, rfl⟩ hs.1 hcf hs.2
        rw [en1] at this
        injection this with this
        simp [this]
      · rw [Bool.not_eq_true] at hs
        rw [hs]
        simp
  rw [hnum] at e
  have hmols := mols_scaledState S.P b as og n
  obtain ⟨hsm, hsb⟩ : mols _ = mols S.P ∧ _ = S.P.box := ⟨smr.mols, smr.box⟩
  rcases Outcome.ite_eq_ok.mp h with ⟨h0, h⟩ | ⟨h0, h⟩
  · unfold scaleSoft at h
    obtain ⟨⟨P₁, dE⟩, h6, h⟩ := Outcome.bind_eq_ok.mp h
    simp only at h6
    rw [e] at h6
    injection h6 with h6
    injection h6 with h6 h7
    subst h6 h7
    obtain ⟨h7, h8⟩ := decideScaling_ok h
    have key := scale_decision (hard := I.hasHard) (counting := S.P.overlapCounting) (skip := false) (N0 := N0) (N1 := K)
      (dE := softTotal (S.P.scaledState b as og n) I - softTotal S.P I) (w := S.pressure * (|b.volume| - |S.P.box.volume|))
      (v := S.P.size * Real.log (|b.volume| / |S.P.box.volume|)) hT hpos rfl
    refine ⟨s, t, t', b, S.P.scaledState b as og n, softTotal S.P I, softTotal (S.P.scaledState b as og n) I, N0, K, h3', h2, h4, ?_, ⟨hreach, hmols, rfl, rfl, rfl⟩,
      totalEnergy_ok hP.q hI, totalEnergy_ok p1.q hI, en0, en1, ?_, ?_, ?_⟩
    · rcases h8 with ⟨h8, rfl⟩ | ⟨h8, P, h9, rfl⟩ <;> rfl
    · rw [h7]; exact key
    · intro ha
      rcases h8 with ⟨h8, rfl⟩ | ⟨h8, P, h9, rfl⟩
      · exact ⟨rfl, rfl⟩
      · rw [h7, h8] at ha; cases ha
    · intro ha
      rcases h8 with ⟨h8, rfl⟩ | ⟨h8, P, h9, rfl⟩
      · rw [h7, h8] at ha; cases ha
      · simp only at h9
        rw [er] at h9
        injection h9 with h9
        subst h9
        exact ⟨hsm, hsb⟩
  · have hno : I.hasSoft = false ∧ S.P.overlapCounting = false := by rw [hc]; simpa using h0
    have hz : ∀ P, softTotal P I = 0 := fun P => by simp [softTotal, hno.1]
    have hexp : ∀ u : ℝ, ((S.volumeTerm (|b.volume| / |S.P.box.volume|)).sub (S.workTerm (|b.volume| - |S.P.box.volume|))).exp.ltNum u = true ↔
        ¬ u ≤ Real.exp (S.P.size * Real.log (|b.volume| / |S.P.box.volume|) - S.pressure * (|b.volume| - |S.P.box.volume|) / S.temperature) := by
      intro u
      simp only [volumeTerm, workTerm, Ext.div, hT.ne', ne_eq, not_false_iff, if_true, Ext.sub, Ext.neg, Ext.add, Ext.exp, Ext.ltNum, decide_eq_true_eq, not_le,
        ← sub_eq_add_neg, gt_iff_lt]
    have hM : ∀ u bias : ℝ, Metropolis I.hasHard S.P.overlapCounting N0 K K
        (softTotal (S.P.scaledState b as og n) I - softTotal S.P I) bias S.temperature u ↔
        ¬ (I.hasHard = true ∧ 0 < K) ∧ u ≤ Real.exp bias := by
      intro u bias
      unfold Metropolis
      rw [hno.2, hz, hz]
      simp only [Bool.false_eq_true, false_and, and_false, if_false, true_and, sub_zero, zero_div]
      split_ifs with h1
      · simp [h1]
      · simp only [h1, not_false_iff, true_and]
    unfold scaleHard at h
    simp only at h
    refine ⟨s, t, t', b, S.P.scaledState b as og n, softTotal S.P I, softTotal (S.P.scaledState b as og n) I, N0, K, h3', h2, h4, ?_, ⟨hreach, hmols, rfl, rfl, rfl⟩,
      totalEnergy_ok hP.q hI, totalEnergy_ok p1.q hI, en0, en1, ?_⟩
    · rcases Outcome.ite_eq_ok.mp h with ⟨h6, h⟩ | ⟨h6, h⟩
      · injection h with h
        injection h with h7 h8
        subst h7 h8
        rfl
      · obtain ⟨⟨P₁, dE⟩, h7, h⟩ := Outcome.bind_eq_ok.mp h
        obtain ⟨h8, h9⟩ := decideScaling_ok h
        rcases h9 with ⟨h9, rfl⟩ | ⟨h9, P, h10, rfl⟩ <;> rfl
    rcases Outcome.ite_eq_ok.mp h with ⟨h6, h⟩ | ⟨h6, h⟩
    · injection h with h
      injection h with h7 h8
      subst h7 h8
      refine ⟨?_, ⟨fun ha => (by cases ha), fun _ => ⟨rfl, rfl⟩⟩⟩
      rw [hM]
      exact ⟨fun ha => (by cases ha), fun ha => absurd ha.2 ((hexp _).mp h6)⟩
    · obtain ⟨⟨P₁, dE⟩, h7, h⟩ := Outcome.bind_eq_ok.mp h
      rw [e] at h7
      injection h7 with h7
      injection h7 with h7 h8
      subst h7 h8
      obtain ⟨h8, h9⟩ := decideScaling_ok h
      have hle := not_not.mp (fun q => h6 ((hexp _).mpr q))
      have hpos' : (scaleChange I.hasHard S.P.overlapCounting false N0 K (softTotal (S.P.scaledState b as og n) I - softTotal S.P I)).positive = true ↔
          I.hasHard = true ∧ 0 < K := by
        rw [hno.2, hz, hz]
        unfold scaleChange
        cases I.hasHard
        · simp [EnergyChange.positive]
        · by_cases hk : 0 < K <;> simp [hk, EnergyChange.positive]
      refine ⟨?_, ?_, ?_⟩
      · rw [hM, h8, Bool.not_eq_true', ← Bool.not_eq_true, hpos']
        exact ⟨fun q => ⟨q, hle⟩, fun q => q.1⟩
      · intro ha
        rcases h9 with ⟨h9, rfl⟩ | ⟨h9, P, h10, rfl⟩
        · exact ⟨rfl, rfl⟩
        · rw [h8, h9] at ha; cases ha
      · intro ha
        rcases h9 with ⟨h9, rfl⟩ | ⟨h9, P, h10, rfl⟩
        · rw [h8, h9] at ha; cases ha
        · simp only at h10
          rw [er] at h10
          injection h10 with h10
          subst h10
          exact ⟨hsm, hsb⟩

/-- The hypotheses are met by a volume change of two balls while overlaps are being counted. -/
example : ∃ (S S' : Sim) (a : Bool), Reachable S.P (demoTraits (1 / 40)).I ∧ 0 < S.temperature ∧ (∀ t ∈ S.mts, t.Positive) ∧
    S.P.overlapCounting = S.overlapsCounted ∧ S.P.overlapCounting = true ∧ S.tryScaling (demoTraits (1 / 40)).I = .ok (S', a) := by
  obtain ⟨S, h, hT, hen⟩ := demo_state
  obtain ⟨P', I', e, hr⟩ := h.proper.1.reach.next (op := .counting true) trivial
  simp only [Op.run, toggleOverlapCounting, recount, if_true] at e
  obtain ⟨P1, e1, e⟩ := Outcome.bind_eq_ok.mp e
  obtain ⟨k, -, e1⟩ := Outcome.bind_eq_ok.mp e1
  injection e with e
  injection e with e e2
  injection e1 with e1
  subst e e2 e1
  have hl : Live (demoTraits (1 / 40)) S.P.size ⟨S.temperature, S.pressure, S.env, S.cancelReported, S.counters, S.scalingCounter,
      S.shouldAdjust, true, S.performed, S.total, S.max, S.mts, _, S.all, S.divs, S.numDomains, S.interrupted, S.log⟩ :=
    ⟨⟨⟨hr, rfl, h.proper.1.all, h.proper.1.threads, h.proper.1.tapes, h.proper.1.engines, h.proper.1.temp, h.proper.1.temps, rfl⟩,
      h.proper.2⟩, h.molecules, h.groups, h.usable, h.counters, h.cancel, h.fair, h.scaler, h.temperature, h.pressure, h.product, h.domains,
      h.engines, h.narrow⟩
  obtain ⟨S', a, e, -⟩ := hl.tryScaling hen
  exact ⟨_, S', a, hl.proper.1.reach, by show 0 < S.temperature; rw [hT]; exact one_pos, hl.proper.1.tapes, hl.proper.1.counted, rfl, e⟩

end Rampack
