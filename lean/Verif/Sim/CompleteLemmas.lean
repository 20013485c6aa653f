import Verif.Sim.LiveLemmas
/-
Runs complete: scaling, adjustment, whole runs.
-/
namespace Rampack

open Spec Packing Sampler

namespace Sim

/-- Scaling completes. -/
theorem Live.tryScaling {T : Traits} {n : Nat} {S : Sim} (h : Live T n S) (hen : S.env.isBoxScalingEnabled = true) :
    ∃ S' b, S.tryScaling T.I = .ok (S', b) ∧ Live T n S' := by
  obtain ⟨hP, hI⟩ := h.proper.1.inv
  obtain ⟨s, hs⟩ : ∃ s, S.env.scaler = .enabled s := by
    unfold Env.isBoxScalingEnabled at hen
    split at hen
    · next s e => exact ⟨s, e⟩
    · cases hen
  have hpos : 0 < S.mts.length := lt_of_lt_of_le h.domains h.engines
  have ht := List.getElem?_eq_getElem hpos
  have htm := List.getElem_mem hpos
  have hsafe := h.scaler
  rw [hs] at hsafe
  have htp := h.proper.1.tapes _ htm
  obtain ⟨b, t', e1⟩ := hsafe.2 s.step _ S.P.box S.mts[0] hsafe.1 hP.q.core.box.make htp
  obtain ⟨⟨M, hM⟩, kk, hk⟩ := Scaler.updateBox_ok e1
  have hb := (Box.make_wf hM).1
  obtain ⟨as, og, num, K1, e2, hP1, -⟩ := Packing.tryScaling_ok hP hI hb
  obtain ⟨as', e3, -, -⟩ := revert_ok hP hP1
  have done : ∀ (S₁ : Sim) (a : Bool), S₁.P = S.P.scaledState b as og num → ∃ S' b', S₁.decideScaling a = .ok (S', b') := by
    intro S₁ a hS₁
    unfold decideScaling
    cases a with
    | true => rw [if_pos rfl]; exact ⟨_, _, rfl⟩
    | false =>
      rw [if_neg (by simp)]
      rw [hS₁, e3]
      exact ⟨_, _, rfl⟩
  have hall : ∃ S' b', S.tryScaling T.I = .ok (S', b') := by
    unfold Sim.tryScaling
    rw [hen]
    show ∃ S' b', (vget S.mts 0 >>= _) = _
    rw [vget_eq_ok.mpr ht, Outcome.ok_bind]
    have e4 : S.env.getBoxScaler = .ok s := by
      unfold Env.getBoxScaler
      rw [hs]
    rw [e4, Outcome.ok_bind]
    rw [e1, Outcome.ok_bind]
    simp only
    rw [decide_eq_true (Box.volume_pos hb).ne']
    show ∃ S' b', (if T.I.hasSoft || S.overlapsCounted then _ else _) = _
    split_ifs
    · unfold scaleSoft
      simp only
      rw [e2, Outcome.ok_bind]
      exact done _ _ rfl
    · unfold scaleHard
      simp only
      split_ifs
      · exact ⟨_, _, rfl⟩
      · rw [e2, Outcome.ok_bind]
        exact done _ _ rfl
  obtain ⟨S', b', e⟩ := hall
  refine ⟨S', b', e, ?_⟩
  have hp := (proper_kept T n).scaling h.proper e
  obtain ⟨t1, s1, box, t2, P', f1, -, f3, -, rfl, -⟩ := tryScaling_ok e
  have hdis : S.numDomains = 1 := by
    rcases h.narrow with h1 | ⟨-, h2, -⟩
    · exact h1
    · rw [hen] at h2; cases h2
  obtain ⟨-, kk', hk'⟩ := Scaler.updateBox_ok f3
  refine ⟨hp, h.molecules, h.groups, h.usable, h.counters, h.cancel, ?_, h.scaler, h.temperature, h.pressure, h.product, h.domains, ?_,
    Or.inl hdis⟩
  · refine mem_set_fair h.fair ?_
    rw [hk']
    exact Fair.drop (Fair.drop (h.fair t1 (List.mem_of_getElem? f1)) kk') 1
  · show S.numDomains ≤ (S.mts.set 0 _).length
    rw [List.length_set]
    exact h.engines

theorem Live.cycleScaling {T : Traits} {n : Nat} {S : Sim} (h : Live T n S) : ∃ S', S.cycleScaling T.I = .ok S' ∧ Live T n S' := by
  unfold Sim.cycleScaling
  by_cases hen : S.env.isBoxScalingEnabled = true
  · obtain ⟨S', b, e, h1⟩ := h.tryScaling hen
    rw [if_pos hen, e]
    refine ⟨_, rfl, ?_⟩
    exact h1.congr ⟨rfl, rfl, rfl, rfl, rfl, rfl, rfl, rfl⟩ rfl h1.usable rfl rfl h1.scaler rfl rfl
  · rw [if_neg hen]
    exact ⟨S, rfl, h⟩

theorem adjustSampler_total {s : Sampler} {m : Nat} (hs : Usable m s) (rate : Option ℝ) (c : Bool) :
    ∃ s' c', adjustSampler s rate c = .ok (s', c') ∧ Usable m s' := by
  unfold adjustSampler
  cases rate with
  | none => exact ⟨s, c, rfl, hs⟩
  | some r =>
    simp only
    split_ifs
    · obtain ⟨s', b, e, h⟩ := increase_total hs
      rw [e]
      exact ⟨s', _, rfl, h m hs⟩
    · obtain ⟨s', b, e, h⟩ := decrease_total hs
      rw [e]
      exact ⟨s', _, rfl, h m hs⟩
    · exact ⟨s, c, rfl, hs⟩

theorem Live.evaluateGroup {T : Traits} {n : Nat} {S : Sim} (h : Live T n S) {g : Nat} (hg : g < S.env.samplers.length) :
    ∃ S', S.evaluateGroup g = .ok S' ∧ Live T n S' ∧ S'.env.samplers.length = S.env.samplers.length := by
  have hgc : g < S.counters.length := by rw [h.counters]; exact hg
  have hgb : g < S.cancelReported.length := by rw [h.cancel]; exact hg
  have hu := h.usable _ (List.getElem_mem hg)
  obtain ⟨r, e1, -⟩ := requested_total (Usable.mono hu (Nat.div_le_self n S.numDomains))
  obtain ⟨l, e2⟩ := stepSizes_total hu
  obtain ⟨s', c', e3, hu'⟩ := adjustSampler_total hu S.counters[g].currentRate S.cancelReported[g]
  unfold Sim.evaluateGroup
  rw [getMoveSamplers_total h.groups, Outcome.ok_bind, vget_eq_ok.mpr (List.getElem?_eq_getElem hg), Outcome.ok_bind,
    vget_eq_ok.mpr (List.getElem?_eq_getElem hgc), Outcome.ok_bind, vget_eq_ok.mpr (List.getElem?_eq_getElem hgb), Outcome.ok_bind,
    h.proper.1.size, e1, Outcome.ok_bind]
  split_ifs
  · exact ⟨S, rfl, h, rfl⟩
  · unfold endWindow
    rw [e2, Outcome.ok_bind, e3]
    refine ⟨_, rfl, h.congr ⟨rfl, rfl, rfl, rfl, rfl, rfl, rfl, rfl⟩ ?_ (mem_set_usable h.usable hu') ?_ ?_ h.scaler rfl rfl, ?_⟩
    all_goals exact List.length_set ..

theorem adjustScaler_safe {s : Scaler} (h : 0 < s.step ∧ SafeKind s.kind) (rate : Option ℝ) :
    0 < (adjustScaler s rate).step ∧ SafeKind (adjustScaler s rate).kind := by
  unfold adjustScaler
  cases rate with
  | none => exact h
  | some r =>
    simp only
    split_ifs
    · exact ⟨by unfold Scaler.increase; simp only; linarith [h.1], h.2⟩
    · exact ⟨by unfold Scaler.decrease; simp only; exact div_pos h.1 (by norm_num), h.2⟩
    · exact h

theorem Live.cycleAdjust {T : Traits} {n : Nat} {S : Sim} (h : Live T n S) : ∃ S', S.cycleAdjust = .ok S' ∧ Live T n S' := by
  unfold Sim.cycleAdjust
  by_cases ha : S.shouldAdjust = true
  · rw [if_pos ha]
    obtain ⟨S1, e1, h1, -⟩ := foldlM_total (f := Sim.evaluateGroup)
      (Inv := fun S1 => Live T n S1 ∧ S1.env.samplers.length = S.env.samplers.length) (List.range S.env.samplers.length) (by
        rintro S1 g hg ⟨h1, h2⟩
        obtain ⟨S2, e, h3, h4⟩ := h1.evaluateGroup (g := g) (by rw [h2]; exact List.mem_range.mp hg)
        exact ⟨S2, e, h3, h4.trans h2⟩) S ⟨h, rfl⟩
    have e2 : S.evaluateMoves = .ok S1 := by
      unfold evaluateMoves
      rw [getMoveSamplers_total h.groups, Outcome.ok_bind, e1]
    unfold evaluateCounters
    rw [e2, Outcome.ok_bind]
    by_cases hen : S1.env.isBoxScalingEnabled = true
    · rw [if_pos hen]
      unfold evaluateScaling
      split_ifs
      · exact ⟨S1, rfl, h1⟩
      · obtain ⟨s, hs⟩ : ∃ s, S1.env.scaler = .enabled s := by
          unfold Env.isBoxScalingEnabled at hen
          split at hen
          · next s e => exact ⟨s, e⟩
          · cases hen
        have e4 : S1.env.getBoxScaler = .ok s := by
          unfold Env.getBoxScaler
          rw [hs]
        rw [e4]
        have hsafe := h1.scaler
        rw [hs] at hsafe
        refine ⟨_, rfl, h1.congr ⟨rfl, rfl, rfl, rfl, ?_, rfl, rfl, rfl⟩ rfl h1.usable rfl rfl (adjustScaler_safe hsafe _) rfl rfl⟩
        rw [hs]
        unfold scalerKind adjustScaler Scaler.increase Scaler.decrease
        simp only
        split
        · rfl
        · split_ifs <;> rfl
    · rw [if_neg hen]
      exact ⟨S1, rfl, h1⟩
  · rw [if_neg ha]
    exact ⟨S, rfl, h⟩

theorem Live.performCycle {T : Traits} {n : Nat} {S : Sim} (h : Live T n S) : ∃ S', S.performCycle T = .ok S' ∧ Live T n S' := by
  obtain ⟨S1, e1, h1⟩ := h.performMoves
  obtain ⟨S2, e2, h2⟩ := h1.cycleScaling
  obtain ⟨S3, e3, h3⟩ := h2.cycleAdjust
  unfold Sim.performCycle
  rw [e1, Outcome.ok_bind, e2, Outcome.ok_bind, e3]
  exact ⟨_, rfl, h3.congr ⟨rfl, rfl, rfl, rfl, rfl, rfl, rfl, rfl⟩ rfl h3.usable rfl rfl h3.scaler rfl rfl⟩

theorem thermo_total {S : Sim} (h1 : ∃ p, S.env.temperature = some p ∧ Defined p)
    (h2 : S.env.isBoxScalingEnabled = true → ∃ p, S.env.pressure = some p ∧ Defined p) :
    ∃ t p, 0 ≤ t ∧ S.updateThermo = .ok { S with temperature := t, pressure := p, log := S.log ++ [.thermo t p] } := by
  obtain ⟨p, a1, a2⟩ := h1
  obtain ⟨t, b1, b2⟩ := a2 S.total S.max
  have : ∃ pr, S.currentPressure = .ok pr := by
    unfold currentPressure
    by_cases hen : S.env.isBoxScalingEnabled = true
    · obtain ⟨q, c1, c2⟩ := h2 hen
      obtain ⟨v, d1, -⟩ := c2 S.total S.max
      rw [if_pos hen]
      unfold Env.getPressure
      rw [c1]
      exact ⟨v, d1⟩
    · rw [if_neg hen]
      exact ⟨0, rfl⟩
  obtain ⟨pr, c1⟩ := this
  refine ⟨t, pr, b2, ?_⟩
  unfold updateThermo Env.getTemperature
  rw [a1]
  simp only [Outcome.ok_bind]
  rw [b1, Outcome.ok_bind, c1]
  rfl

theorem Live.updateThermo {T : Traits} {n : Nat} {S : Sim} (h : Live T n S) : ∃ S', S.updateThermo = .ok S' ∧ Live T n S' := by
  obtain ⟨t, p, h1, e⟩ := thermo_total h.temperature h.pressure
  exact ⟨_, e, (proper_kept T n).thermo h.proper e, h.molecules, h.groups, h.usable, h.counters, h.cancel, h.fair, h.scaler,
    h.temperature, h.pressure, h.product, h.domains, h.engines, h.narrow⟩

theorem divisible_total {k : Nat} (hk : 0 < k) (n : Nat) : divisible n k = .ok (n % k == 0) := by
  unfold divisible
  rw [if_neg (by omega)]

theorem Live.fixStep {T : Traits} {n : Nat} {S : Sim} {p : RunParams} (hp : 0 < p.rotationMatrixFixEvery) (h : Live T n S) :
    ∃ S', Sim.fixStep p T.I S = .ok S' ∧ Live T n S' := by
  unfold Sim.fixStep
  rw [divisible_total hp, Outcome.ok_bind]
  split_ifs
  · obtain ⟨hP, hI⟩ := h.proper.1.inv
    have ht0 : 0 < S.P.moveThreads := lt_of_lt_of_le h.proper.1.engines h.proper.1.threads
    have : ∃ S', S.fixRotationMatrices T.I = .ok S' := by
      unfold fixRotationMatrices
      cases hc : S.overlapsCounted with
      | true =>
        obtain ⟨P', e, -⟩ := renormalizeAllow_ok hI 0 hP
        rw [e]
        exact ⟨_, rfl⟩
      | false =>
        obtain ⟨P', bs, e, -⟩ := renormalize_ok hI hP ht0
        rw [e]
        exact ⟨_, rfl⟩
    obtain ⟨S', e⟩ := this
    refine ⟨S', e, ?_⟩
    have hp' := (proper_kept T n).fix h.proper e
    obtain ⟨-, hfr, -⟩ := h.proper.1.fixRotationMatrices e
    have hng : S'.P.ng.isSome = S.P.ng.isSome := sameFrame_grid hP hp'.1.inv.1 hfr
    unfold fixRotationMatrices at e
    obtain ⟨⟨P, m⟩, -, e⟩ := Outcome.bind_eq_ok.mp e
    injection e with e
    subst e
    exact ⟨hp', h.molecules, h.groups, h.usable, h.counters, h.cancel, h.fair, h.scaler, h.temperature, h.pressure, h.product, h.domains,
      h.engines, by rw [hng]; exact h.narrow⟩
  · exact ⟨S, rfl, h⟩

theorem Live.same {T : Traits} {n : Nat} {S : Sim} (h : Live T n S) (l : List Event) : Live T n { S with log := l } :=
  h.congr ⟨rfl, rfl, rfl, rfl, rfl, rfl, rfl, rfl⟩ rfl h.usable rfl rfl h.scaler rfl rfl

theorem Live.snapshotStep {T : Traits} {n : Nat} {S : Sim} {p : RunParams} (hp : 0 < p.snapshotEvery) (h : Live T n S) :
    ∃ S', Sim.snapshotStep p S = .ok S' ∧ Live T n S' := by
  unfold Sim.snapshotStep
  rw [divisible_total hp, Outcome.ok_bind]
  split_ifs
  · exact ⟨_, rfl, h.same _⟩
  · exact ⟨S, rfl, h⟩

theorem Live.infoStep {T : Traits} {n : Nat} {S : Sim} {p : RunParams} (hp : 0 < p.inlineInfoEvery) (h : Live T n S) :
    ∃ S', Sim.infoStep p S = .ok S' ∧ Live T n S' := by
  unfold Sim.infoStep
  rw [divisible_total hp, Outcome.ok_bind]
  split_ifs
  · exact ⟨_, rfl, h.same _⟩
  · exact ⟨S, rfl, h⟩

theorem Live.averagingStep {T : Traits} {n : Nat} {S : Sim} {every : Nat} (hp : 0 < every) (h : Live T n S) :
    ∃ S', Sim.averagingStep every S = .ok S' ∧ Live T n S' := by
  unfold Sim.averagingStep
  rw [divisible_total hp, Outcome.ok_bind]
  split_ifs
  · exact ⟨_, rfl, h.same _⟩
  · exact ⟨S, rfl, h⟩

theorem Live.thermalisationCycle {T : Traits} {n : Nat} {S : Sim} {p : RunParams} (h1 : 0 < p.rotationMatrixFixEvery)
    (h2 : 0 < p.snapshotEvery) (h3 : 0 < p.inlineInfoEvery) (h : Live T n S) :
    ∃ S', Sim.thermalisationCycle p T S = .ok S' ∧ Live T n S' := by
  obtain ⟨S1, e1, a1⟩ := h.performCycle
  obtain ⟨S2, e2, a2⟩ := a1.updateThermo
  obtain ⟨S3, e3, a3⟩ := a2.fixStep h1
  obtain ⟨S4, e4, a4⟩ := a3.snapshotStep h2
  obtain ⟨S5, e5, a5⟩ := a4.infoStep h3
  refine ⟨S5, ?_, a5⟩
  unfold Sim.thermalisationCycle
  rw [e1, Outcome.ok_bind, e2, Outcome.ok_bind, e3, Outcome.ok_bind, e4, Outcome.ok_bind, e5]

theorem Live.averagingCycle {T : Traits} {n : Nat} {S : Sim} {p : RunParams} {every : Nat} (h1 : 0 < p.rotationMatrixFixEvery)
    (h2 : 0 < p.snapshotEvery) (h3 : 0 < p.inlineInfoEvery) (h4 : 0 < every) (h : Live T n S) :
    ∃ S', Sim.averagingCycle p every T S = .ok S' ∧ Live T n S' := by
  obtain ⟨S1, e1, a1⟩ := h.performCycle
  obtain ⟨S3, e3, a3⟩ := a1.fixStep h1
  obtain ⟨S4, e4, a4⟩ := a3.snapshotStep h2
  obtain ⟨S5, e5, a5⟩ := a4.averagingStep h4
  obtain ⟨S6, e6, a6⟩ := a5.infoStep h3
  refine ⟨S6, ?_, a6⟩
  unfold Sim.averagingCycle
  rw [e1, Outcome.ok_bind, e3, Outcome.ok_bind, e4, Outcome.ok_bind, e5, Outcome.ok_bind, e6]

theorem Live.flag {T : Traits} {n : Nat} {S : Sim} (h : Live T n S) (b : Bool) : Live T n { S with interrupted := b } :=
  h.congr ⟨rfl, rfl, rfl, rfl, rfl, rfl, rfl, rfl⟩ rfl h.usable rfl rfl h.scaler rfl rfl

theorem Live.phase {T : Traits} {n : Nat} {S : Sim} (h : Live T n S) (b : Bool) (l : List Event) :
    Live T n { S with shouldAdjust := b, log := l } :=
  h.congr ⟨rfl, rfl, rfl, rfl, rfl, rfl, rfl, rfl⟩ rfl h.usable rfl rfl h.scaler rfl rfl

theorem Live.cycleLoop {T : Traits} {n : Nat} {f : Sim → Outcome Sim} (stop : Nat → Bool)
    (hf : ∀ S, Live T n S → ∃ S', f S = .ok S' ∧ Live T n S') :
    ∀ (m : Nat) {S : Sim}, Live T n S → ∃ S', Sim.cycleLoop f stop m S = .ok S' ∧ Live T n S'
  | 0, S, h => ⟨S, rfl, h⟩
  | m + 1, S, h => by
    obtain ⟨S1, e1, h1⟩ := hf S h
    simp only [Sim.cycleLoop]
    rw [e1, Outcome.ok_bind]
    split_ifs
    · exact ⟨_, rfl, h1.flag true⟩
    · exact Live.cycleLoop stop hf m h1

/-- Whether overlaps are counted does not change. -/
theorem counted_kept (T : Traits) (n : Nat) (c : Bool) : Kept T n (fun S => Proper T n S ∧ S.P.overlapCounting = c) where
  size h := (proper_kept T n).size h.1
  core h hs := ⟨(proper_kept T n).core h.1 hs, by rw [hs.P]; exact h.2⟩
  tape h ht := ⟨(proper_kept T n).tape h.1 ht, h.2⟩
  move h hi hm := ⟨(proper_kept T n).move h.1 hi hm, ((h.1.1.tryMove hi hm).2.1.overlapCounting).trans h.2⟩
  scaling h hs := ⟨(proper_kept T n).scaling h.1 hs, ((h.1.1.tryScaling hs).2.2.1).trans h.2⟩
  thermo h hs := ⟨(proper_kept T n).thermo h.1 hs, by rw [(h.1.1.updateThermo hs).2.1]; exact h.2⟩
  fix h hs := ⟨(proper_kept T n).fix h.1 hs, ((h.1.1.fixRotationMatrices hs).2.1.overlapCounting).trans h.2⟩

theorem setupSamplers_total {T : Traits} {m : Nat} : ∀ {l : List Sampler}, (∀ s ∈ l, ∃ s', s.setup T = .ok s' ∧ Usable m s') →
    ∃ l', setupSamplers T l = .ok l' ∧ (∀ s ∈ l', Usable m s) ∧ l'.length = l.length
  | [], _ => ⟨[], rfl, by simp, rfl⟩
  | s :: l, h => by
    obtain ⟨s', e1, h1⟩ := h s List.mem_cons_self
    obtain ⟨l', e2, h2, h3⟩ := setupSamplers_total (l := l) fun x hx => h x (List.mem_cons_of_mem _ hx)
    refine ⟨s' :: l', ?_, ?_, by rw [List.length_cons, List.length_cons, h3]⟩
    · simp only [setupSamplers]
      rw [e1, Outcome.ok_bind, e2]
      rfl
    · intro x hx
      rcases List.mem_cons.mp hx with rfl | hx
      · exact h1
      · exact h2 x hx

theorem setup_total {P : Packing} {I₀ I : Interaction} (hr : Reachable P I₀) (ha : Op.Allowed P I₀ (.setup I)) (c : Bool) :
    ∃ P1 P2, P.setupForInteraction I = .ok P1 ∧ P1.toggleOverlapCounting c I = .ok P2 ∧ P2.ng = P1.ng := by
  have ha0 := ha
  obtain ⟨hP, -⟩ := hr.inv
  obtain ⟨hc, hsites, hor, hard⟩ := ha
  have hg' : GridsHave P (P.size * Max.max 1 I.centres.length) := by
    rcases hor with hg | ⟨h1, h2⟩
    · apply hP.gridsHave.mono
      unfold cap; rw [hP.q.core.m_eq]; exact hg
    · exact ⟨fun g h => (by rw [h1] at h; cases h), fun g h => (by rw [h2] at h; cases h)⟩
  obtain ⟨P1, e1, -⟩ := setup_ok hP hc hg' hsites (fun hh => hP.noHard (hard hh))
  have r1 : Reachable P1 I := by
    refine .step (.setup I) hr ha0 ?_
    simp only [Op.run]
    rw [e1]
    rfl
  obtain ⟨n2, e2, -⟩ := toggle_ok r1.inv.1 r1.inv.2 c
  exact ⟨P1, _, e1, e2, rfl⟩

/-- The circumstances in which a run can begin and go on: a packing which can be set up for the interaction, with proper
orientations, a complete environment, usable samplers, as many engines as domains, and, if there is more than one domain, a
neighbour grid and no scaling. -/
structure Ready (T : Traits) (S : Sim) (env : Env) (I₀ : Interaction) : Prop extends Begin T S env I₀ where
  oriented : ProperlyOriented S.P
  molecules : S.all ≠ []
  samplers : (S.env.combine env).samplers ≠ []
  usable : ∀ s ∈ (S.env.combine env).samplers, ∃ s', s.setup T = .ok s' ∧ Usable (S.P.size / S.numDomains) s'
  fair : ∀ t ∈ S.mts, Fair t
  scaler : SafeScaler (S.env.combine env).scaler
  temperature : ∃ p, (S.env.combine env).temperature = some p ∧ Defined p
  pressure : (S.env.combine env).isBoxScalingEnabled = true → ∃ p, (S.env.combine env).pressure = some p ∧ Defined p
  product : S.numDomains = S.divs.x * S.divs.y * S.divs.z
  domains : 0 < S.numDomains
  enough : S.numDomains ≤ S.mts.length
  narrow : S.numDomains = 1 ∨ ((∀ P, S.P.setupForInteraction T.I = .ok P → P.ng.isSome = true) ∧
    (S.env.combine env).isBoxScalingEnabled = false ∧ TotalRange T.I ∧ ∀ a, S.divs.get a < 2 ^ 63)

theorem Ready.start {T : Traits} {S : Sim} {env : Env} {I₀ : Interaction} (h : Ready T S env I₀) : ∃ S', S.start env T = .ok S' := by
  obtain ⟨l, e, -, hl⟩ := setupSamplers_total h.usable
  have hne : l ≠ [] := by
    intro e0
    rw [e0] at hl
    exact h.samplers (List.length_eq_zero_iff.mp hl.symm)
  have hc : (S.env.combine env).isComplete = true := by
    have hs := h.scaler
    obtain ⟨p, hp, -⟩ := h.temperature
    have h1 : (S.env.combine env).hasTemperature = true := by unfold Env.hasTemperature; rw [hp]; rfl
    have h2 : (S.env.combine env).hasMoveSamplers = true := by
      unfold Env.hasMoveSamplers
      have : (S.env.combine env).samplers.isEmpty = false := by simpa using h.samplers
      rw [this]; rfl
    have h3 : (S.env.combine env).hasBoxScaler = true := by
      unfold Env.hasBoxScaler
      cases e0 : (S.env.combine env).scaler with
      | unset => rw [e0] at hs; exact absurd hs (by simp [SafeScaler])
      | disabled => rfl
      | enabled s => rfl
    unfold Env.isComplete
    rw [h3, h1, h2]
    by_cases hen : (S.env.combine env).isBoxScalingEnabled = true
    · obtain ⟨q, hq, -⟩ := h.pressure hen
      rw [hen]
      unfold Env.hasPressure
      rw [hq]
      rfl
    · rw [Bool.not_eq_true] at hen
      rw [hen]
      rfl
  unfold Sim.start
  simp only
  rw [hc]
  show ∃ S', ((S.env.combine env).getMoveSamplers >>= _) = _
  rw [getMoveSamplers_total h.samplers, Outcome.ok_bind, e, Outcome.ok_bind]
  unfold reset
  rw [getMoveSamplers_total (e := { S.env.combine env with samplers := l }) hne]
  exact ⟨_, rfl⟩

/-- The state after `prepare`. -/
def prepared (S : Sim) (o m : Nat) (t p : ℝ) (P : Packing) (c : Bool) : Sim :=
  { S with total := o, max := m, temperature := t, pressure := p, log := S.log ++ [.thermo t p], P := P, overlapsCounted := c }

theorem Ready.live {T : Traits} {S : Sim} {env : Env} {I₀ : Interaction} (h : Ready T S env I₀) (o m : Nat) (c : Bool) :
    ∃ S₁ S₂, S.start env T = .ok S₁ ∧ S₁.prepare T o m c = .ok S₂ ∧ Live T S.P.size S₂ ∧ mols S₂.P = mols S.P ∧
      S₂.P.overlapCounting = c := by
  obtain ⟨S₁, e1⟩ := h.start
  obtain ⟨l, el, hl⟩ := setupSamplers_total h.usable
  obtain ⟨ss₀, e2, -, e3⟩ := start_ok e1
  rw [el] at e2
  injection e2 with e2
  subst e2
  obtain ⟨P1, P2, f1, f2, f3⟩ := setup_total h.reach h.setup c
  have a1 : S₁.P = S.P := by rw [e3]
  have a2 : S₁.env = { S.env.combine env with samplers := l } := by rw [e3]
  obtain ⟨t, p, ht, e4⟩ := thermo_total (S := { S₁ with total := o, max := m }) (by
    show ∃ p, S₁.env.temperature = some p ∧ Defined p
    rw [a2]; exact h.temperature) (by
    show S₁.env.isBoxScalingEnabled = true → ∃ p, S₁.env.pressure = some p ∧ Defined p
    rw [a2]; exact h.pressure)
  have e5 : S₁.prepare T o m c = .ok (S₁.prepared o m t p P2 c) := by
    unfold Sim.prepare
    rw [e4, Outcome.ok_bind]
    show (S₁.P.setupForInteraction T.I >>= _) = _
    rw [a1, f1, Outcome.ok_bind, f2]
    rfl
  obtain ⟨g1, g2, g3, g4, g5, g6⟩ := h.toBegin.sound e1 e5
  refine ⟨S₁, _, e1, e5, ?_, g3, g1.counted⟩
  have hor : ProperlyOriented P2 := by
    unfold ProperlyOriented
    have g3' : mols P2 = mols S.P := g3
    rw [g3']
    exact h.oriented
  have hne : l ≠ [] := by
    intro e0
    rw [e0] at hl
    exact h.samplers (List.length_eq_zero_iff.mp hl.2.symm)
  have b1 : S₁.all = S.all := by rw [e3]
  have b2 : S₁.env.samplers = l := by rw [e3]
  have b3 : S₁.numDomains = S.numDomains := by rw [e3]
  have b4 : S₁.divs = S.divs := by rw [e3]
  have b5 : S₁.mts = S.mts := by rw [e3]
  have b6 : S₁.counters = List.replicate l.length .zero := by rw [e3]
  have b7 : S₁.cancelReported = List.replicate l.length false := by rw [e3]
  have b8 : S₁.env.scaler = (S.env.combine env).scaler := by rw [e3]
  have b9 : S₁.env.isBoxScalingEnabled = (S.env.combine env).isBoxScalingEnabled := by rw [e3]; rfl
  refine ⟨⟨g1, hor⟩, ?_, ?_, ?_, ?_, ?_, ?_, ?_, ?_, ?_, ?_, ?_, ?_, ?_⟩
  · show S₁.all ≠ []
    rw [b1]; exact h.molecules
  · show S₁.env.samplers ≠ []
    rw [b2]; exact hne
  · show ∀ s ∈ S₁.env.samplers, Usable (S.P.size / S₁.numDomains) s
    rw [b2, b3]; exact hl.1
  · show S₁.counters.length = S₁.env.samplers.length
    rw [b6, b2, List.length_replicate]
  · show S₁.cancelReported.length = S₁.env.samplers.length
    rw [b7, b2, List.length_replicate]
  · show ∀ t ∈ S₁.mts, Fair t
    rw [b5]; exact h.fair
  · show SafeScaler S₁.env.scaler
    rw [b8]; exact h.scaler
  · show ∃ p, S₁.env.temperature = some p ∧ Defined p
    rw [a2]; exact h.temperature
  · show S₁.env.isBoxScalingEnabled = true → ∃ p, S₁.env.pressure = some p ∧ Defined p
    rw [a2]; exact h.pressure
  · show S₁.numDomains = S₁.divs.x * S₁.divs.y * S₁.divs.z
    rw [b3, b4]; exact h.product
  · show 0 < S₁.numDomains
    rw [b3]; exact h.domains
  · show S₁.numDomains ≤ S₁.mts.length
    rw [b3, b5]; exact h.enough
  · show S₁.numDomains = 1 ∨ (P2.ng.isSome = true ∧ S₁.env.isBoxScalingEnabled = false ∧ TotalRange T.I ∧ ∀ a, S₁.divs.get a < 2 ^ 63)
    rw [b3, b4, b9, f3]
    rcases h.narrow with h1 | ⟨h1, h2, h3, h4⟩
    · exact Or.inl h1
    · exact Or.inr ⟨h1 P1 f1, h2, h3, h4⟩

theorem checkParams_total {p : IntegrationParams} (h1 : 0 < p.thermalisationCycles ∨ 0 < p.averagingCycles)
    (h2 : 0 < p.inlineInfoEvery) (h3 : 0 < p.rotationMatrixFixEvery)
    (h4 : 0 < p.averagingCycles → 0 < p.averagingEvery ∧ p.averagingEvery ≤ p.averagingCycles)
    (h5 : p.snapshotEvery ≤ p.thermalisationCycles + p.averagingCycles) : checkParams p = .ok () := by
  unfold checkParams
  have e1 : (decide (p.thermalisationCycles > 0) || decide (p.averagingCycles > 0)) = true := by simpa using h1
  have e2 : decide (p.inlineInfoEvery > 0) = true := by simpa using h2
  have e3 : decide (p.rotationMatrixFixEvery > 0) = true := by simpa using h3
  have e4 : (!decide (p.averagingCycles > 0) ||
    (decide (p.averagingEvery > 0) && decide (p.averagingEvery ≤ p.averagingCycles))) = true := by
    rcases Nat.eq_zero_or_pos p.averagingCycles with h | h
    · simp [h]
    · have := h4 h
      simp [this.1, this.2]
  have e5 : decide (p.snapshotEvery ≤ p.thermalisationCycles + p.averagingCycles) = true := by simpa using h5
  rw [e1, e2, e3, e4, e5]
  rfl

/-- Numbers of cycles and periods with which a run can be done. -/
structure Legal (p : IntegrationParams) : Prop where
  some_cycles : 0 < p.thermalisationCycles ∨ 0 < p.averagingCycles
  info : 0 < p.inlineInfoEvery
  fix : 0 < p.rotationMatrixFixEvery
  average : 0 < p.averagingCycles → 0 < p.averagingEvery ∧ p.averagingEvery ≤ p.averagingCycles
  snapshot : 0 < p.snapshotEvery
  snapshots : p.snapshotEvery ≤ p.thermalisationCycles + p.averagingCycles

/-- A run either completes or is refused because of overlaps. -/
theorem Ready.integrate {T : Traits} {S : Sim} {env : Env} {I₀ : Interaction} (h : Ready T S env I₀) {p : IntegrationParams}
    (hp : Legal p) (stop : Nat → Bool) : ∃ P1, S.P.setupForInteraction T.I = .ok P1 ∧
      ((∃ k, P1.countTotalOverlaps T.I true = .ok k ∧ 0 < k ∧
        S.integrate env p T stop = .throw "Overlaps are present at the start of integration. Perform overlap reduction beforehand.") ∨
      (P1.countTotalOverlaps T.I true = .ok 0 ∧ ∃ S', S.integrate env p T stop = .ok S' ∧ Live T S.P.size S')) := by
  obtain ⟨S₁, S₂, e1, e2, hl, hm, -⟩ := h.live p.cycleOffset (p.cycleOffset + p.thermalisationCycles + p.averagingCycles) false
  obtain ⟨t, pr, P2, P1, f1, f2, f3⟩ := prepare_ok e2
  obtain ⟨ss₀, -, -, e3⟩ := start_ok e1
  have a1 : S₁.P = S.P := by rw [e3]
  rw [a1] at f1
  have a2 : S₂.P = P2 := by rw [f3]
  obtain ⟨n2, g1⟩ : ∃ n2, P2 = { P1 with overlapCounting := false, numOverlaps := n2 } := by
    obtain ⟨hP, -⟩ := h.reach.inv
    have r1 : Reachable P1 T.I := by
      refine .step (.setup T.I) h.reach h.setup ?_
      simp only [Op.run]
      rw [f1]
      rfl
    obtain ⟨n2, g1, -⟩ := toggle_ok r1.inv.1 r1.inv.2 false
    rw [f2] at g1
    injection g1 with g1
    exact ⟨n2, g1⟩
  have hcount : S₂.P.countTotalOverlaps T.I true = P1.countTotalOverlaps T.I true := by rw [a2, g1]; rfl
  obtain ⟨hP, hI⟩ := hl.proper.1.inv
  obtain ⟨K, -, hk⟩ := count_numTotal hP.q hI
  obtain ⟨k, ek, -⟩ := hk true
  refine ⟨P1, f1, ?_⟩
  rw [← hcount, ek]
  have e0 := checkParams_total hp.some_cycles hp.info hp.fix hp.average hp.snapshots
  rcases Nat.eq_zero_or_pos k with h0 | h0
  · right
    subst h0
    refine ⟨rfl, ?_⟩
    obtain ⟨S₃, e4, h3⟩ := Live.cycleLoop stop (fun S hS => hS.thermalisationCycle (p := p.toRunParams) hp.fix hp.snapshot hp.info)
      p.thermalisationCycles (hl.phase true (S₂.log ++ [.thermalisation]))
    unfold Sim.integrate
    rw [e0, Outcome.ok_bind, e1, Outcome.ok_bind, e2, Outcome.ok_bind, ek, Outcome.ok_bind]
    show ∃ S', (thermalisationPhase p T stop S₂ >>= _) = _ ∧ _
    unfold thermalisationPhase
    rw [e4, Outcome.ok_bind]
    split_ifs
    · exact ⟨_, rfl, h3⟩
    · unfold averagingPhase
      rcases Nat.eq_zero_or_pos p.averagingCycles with h0 | h0
      · rw [h0]
        exact ⟨_, rfl, h3.phase false (S₃.log ++ [.averaging])⟩
      · obtain ⟨S₄, e5, h5⟩ := Live.cycleLoop stop
          (fun S hS => hS.averagingCycle (p := p.toRunParams) hp.fix hp.snapshot hp.info (hp.average h0).1)
          p.averagingCycles (h3.phase false (S₃.log ++ [.averaging]))
        exact ⟨S₄, e5, h5⟩
  · left
    refine ⟨k, rfl, h0, ?_⟩
    unfold Sim.integrate
    rw [e0, Outcome.ok_bind, e1, Outcome.ok_bind, e2, Outcome.ok_bind, ek, Outcome.ok_bind, decide_eq_false (by omega : ¬ k = 0)]
    rfl

/-- A relaxation goes on until overlaps are gone or it is interrupted. -/
theorem Live.relaxLoop {T : Traits} {n : Nat} {p : RunParams} {stop : Nat → Bool} (h1 : 0 < p.rotationMatrixFixEvery)
    (h2 : 0 < p.snapshotEvery) (h3 : 0 < p.inlineInfoEvery) : ∀ (fuel : Nat) {S : Sim}, Live T n S → S.P.overlapCounting = true →
    (∃ S', Sim.relaxLoop p T stop fuel S = .ok S' ∧ Live T n S') ∨ Sim.relaxLoop p T stop fuel S = .diverge
  | 0, S, _, _ => Or.inr rfl
  | fuel + 1, S, h, hc => by
    simp only [Sim.relaxLoop]
    have : ∃ k, S.P.getCachedNumberOfOverlaps = .ok k := by
      unfold Packing.getCachedNumberOfOverlaps
      rw [hc]
      exact ⟨_, rfl⟩
    obtain ⟨k, e⟩ := this
    rw [e, Outcome.ok_bind]
    split_ifs
    · obtain ⟨S1, e1, h4⟩ := h.thermalisationCycle h1 h2 h3
      rw [e1, Outcome.ok_bind]
      split_ifs
      · exact Or.inl ⟨_, rfl, h4.flag true⟩
      · refine Live.relaxLoop h1 h2 h3 fuel h4 ?_
        have hk := (counted_kept T n true).thermalisationCycle (Q := fun _ => True) (base := S.log) (p := p) (fun _ _ => trivial)
          ⟨⟨h.proper, hc⟩, [], by simp, by simp⟩ e1
        exact hk.1.2
    · exact Or.inl ⟨S, rfl, h⟩

end Sim

end Rampack
