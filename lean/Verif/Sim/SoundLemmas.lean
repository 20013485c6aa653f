import Verif.Sim.KeepLemmas
import Verif.Packing.LookLemmas
/-
What moves, scalings and renormalisations in a run do to the packing: it stays one which the public operations give.
-/
namespace Rampack

open Spec Packing

/-- A new box comes from the constructor of boxes, and the engine goes on. -/
theorem Scaler.updateBox_ok {s : Scaler} {b b' : Box} {t t' : Tape} (h : s.updateBox b t = .ok (b', t')) :
    (∃ M, Box.make M = .ok b') ∧ ∃ k, t' = t.drop k := by
  unfold Scaler.updateBox at h
  split at h
  · next v _ =>
    obtain ⟨⟨f, t1⟩, h1, h⟩ := Outcome.bind_eq_ok.mp h
    simp only at h
    obtain ⟨b1, h2, h⟩ := Outcome.bind_eq_ok.mp h
    injection h with h
    injection h with h3 h4
    subst h3 h4
    refine ⟨⟨_, h2⟩, ?_⟩
    have one : ∀ {sm : FactorSampler} {d : Vec3 Bool} {hh : Vec3 ℝ} {st : ℝ} {t t' : Tape} {f : Vec3 ℝ},
        sm.sample d hh st t = .ok (f, t') → t' = t.drop 1 := by
      intro sm d hh st t t' f h
      cases sm with
      | linear =>
        simp only [FactorSampler.sample] at h
        obtain ⟨x, -, h⟩ := Outcome.bind_eq_ok.mp h
        obtain ⟨y, -, h⟩ := Outcome.bind_eq_ok.mp h
        obtain ⟨z, -, h⟩ := Outcome.bind_eq_ok.mp h
        injection h with h
        injection h with h5 h6
        exact h6.symm
      | log =>
        simp only [FactorSampler.sample] at h
        injection h with h
        injection h with h5 h6
        exact h6.symm
    have all : ∀ {sm : FactorSampler} {hh : Vec3 ℝ} {st : ℝ} (ds : Directions) {f : Vec3 ℝ} {t t' : Tape} {f' : Vec3 ℝ},
        sampleAllFactors sm hh st ds f t = .ok (f', t') → ∃ k, t' = t.drop k := by
      intro sm hh st ds
      induction ds with
      | nil =>
        intro f t t' f' h
        simp only [sampleAllFactors] at h
        injection h with h
        injection h with h5 h6
        exact ⟨0, by rw [← h6]; funext n; unfold Tape.drop; rw [Nat.zero_add]⟩
      | cons d ds ih =>
        intro f t t' f' h
        simp only [sampleAllFactors] at h
        obtain ⟨⟨g, t1⟩, h1, h⟩ := Outcome.bind_eq_ok.mp h
        obtain ⟨k, hk⟩ := ih h
        rw [one h1] at hk
        exact ⟨1 + k, by rw [hk, Tape.drop_drop]⟩
    cases v with
    | delta =>
      simp only [VolumeScaler.sample] at h1
      injection h1 with h1
      injection h1 with h5 h6
      exact ⟨1, h6.symm⟩
    | anisotropic sm dirs ind =>
      simp only [VolumeScaler.sample] at h1
      rcases Outcome.ite_eq_ok.mp h1 with ⟨-, h1⟩ | ⟨-, h1⟩
      · obtain ⟨⟨k, t2⟩, h5, h1⟩ := Outcome.bind_eq_ok.mp h1
        simp only at h1
        obtain ⟨d, h6, h1⟩ := Outcome.bind_eq_ok.mp h1
        obtain ⟨-, -, h7⟩ := Sampler.uniformInt_ok h5
        rw [h7] at h1
        exact ⟨1 + 1, by rw [one h1, Tape.drop_drop]⟩
      · exact all _ h1
  · obtain ⟨b1, h2, h⟩ := Outcome.bind_eq_ok.mp h
    injection h with h
    injection h with h3 h4
    subst h3 h4
    exact ⟨⟨_, h2⟩, 9, rfl⟩
  · obtain ⟨⟨k, t2⟩, h5, h⟩ := Outcome.bind_eq_ok.mp h
    simp only at h
    obtain ⟨M, h6, h⟩ := Outcome.bind_eq_ok.mp h
    obtain ⟨b1, h2, h⟩ := Outcome.bind_eq_ok.mp h
    injection h with h
    injection h with h3 h4
    obtain ⟨-, -, h7⟩ := Sampler.uniformInt_ok h5
    subst h3 h4 h7
    exact ⟨⟨_, h2⟩, 1 + 3, Tape.drop_drop _ _ _⟩

namespace Sim

/-- An infinite growth of the energy is not accepted. -/
theorem boltzmann_posInf {temp u : ℝ} (ht : 0 ≤ temp) (hu : 0 < u) : (boltzmann .posInf temp).geNum u = false := by
  unfold boltzmann
  simp only [EnergyChange.toExt, Ext.neg, Ext.div, ge_iff_le, ht, if_true, Ext.exp, Ext.geNum]
  rw [decide_eq_false_iff_not, not_le]
  exact hu

theorem scaling_posInf {x : ℝ} {y : Ext} {temp u : ℝ} (ht : 0 ≤ temp) (hu : 0 < u) :
    ((((Ext.fin x).sub (EnergyChange.posInf.toExt.div temp)).sub y).exp).geNum u = false := by
  simp only [EnergyChange.toExt, Ext.div, ge_iff_le, ht, if_true, Ext.sub, Ext.neg, Ext.add]
  cases y <;> simp only [Ext.neg, Ext.add, Ext.exp, Ext.geNum, decide_eq_false_iff_not, not_le] <;> exact hu

theorem scalingAccepted_posInf {S : Sim} {I : Interaction} {b : Box} {u : ℝ} (ht : 0 ≤ S.temperature) (hu : 0 < u) :
    S.scalingAccepted I b .posInf u = false := by
  unfold scalingAccepted
  split_ifs
  · exact scaling_posInf ht hu
  · rfl

/-- A state in which runs of `n` molecules are. -/
structure Sound (T : Traits) (n : Nat) (S : Sim) : Prop where
  reach : Reachable S.P T.I
  size : S.P.size = n
  all : ∀ i ∈ S.all, i < n
  threads : S.mts.length ≤ S.P.moveThreads
  tapes : ∀ t ∈ S.mts, t.Positive
  engines : 0 < S.mts.length
  temp : 0 ≤ S.temperature
  temps : ∀ p, S.env.temperature = some p → ∀ a b t, p.value a b = .ok t → 0 ≤ t
  counted : S.P.overlapCounting = S.overlapsCounted

theorem Sound.inv {T : Traits} {n : Nat} {S : Sim} (h : Sound T n S) : PInv S.P T.I ∧ Contract T.I := h.reach.inv

theorem mem_set_tape {l : List Tape} {i : Nat} {t : Tape} (hl : ∀ t ∈ l, t.Positive) (ht : t.Positive) :
    ∀ s ∈ l.set i t, s.Positive := by
  intro s hs
  rcases List.mem_or_eq_of_mem_set hs with h | rfl
  · exact hl s h
  · exact ht

theorem lengthSet {l : List Tape} {i : Nat} {t : Tape} (h : 0 < l.length) : 0 < (l.set i t).length := by
  rw [List.length_set]; exact h

/-- The effect of a move on the packing. -/
theorem Sound.tryMove {T : Traits} {n : Nat} {S S' : Sim} (h : Sound T n S) {tid : Nat} {idxs accs : List Nat}
    {domain : Option (Vec3 ℝ → Bool)} {cs cs' : List Counter} (hi : ∀ i ∈ idxs, i < n)
    (hm : Sim.tryMove T idxs accs tid domain (S, cs) = .ok (S', cs')) :
    Sound T n S' ∧ SameFrame S.P S'.P ∧
      ((mols S'.P = mols S.P ∧ numTotal S'.P T.I = numTotal S.P T.I) ∨
        ∃ (s : Sampler) (mv : MoveData) (s' : Sampler) (t t' : Tape) (sh : Shape), s.sampleMove S.P idxs t = .ok (mv, s', t') ∧
          mv.idx < n ∧ (mols S.P)[mv.idx]? = some sh ∧ mols S'.P = (mols S.P).set mv.idx (mv.kind.apply S.P.box sh) ∧
          numTotal S'.P T.I ≤ numTotal S.P T.I) := by
  obtain ⟨hP, hI⟩ := h.inv
  obtain ⟨g, s, s', mv, t, k, P, dE, c, -, h2, -, -, h5, h6, h7⟩ := tryMove_ok hm
  have ht : t.Positive := h.tapes t (List.mem_of_getElem? h2)
  have htid : tid < S.P.moveThreads := lt_of_lt_of_le (List.getElem?_eq_some_iff.mp h2).1 h.threads
  have hidx : mv.idx < n := hi _ (Sampler.sampleMove_ok h5).1
  have hidx' : mv.idx < S.P.size := by rw [h.size]; exact hidx
  have hu : 0 < t k := (ht k).1
  by_cases hd : InDomain mv.kind domain (mv.kind.apply S.P.box (S.P.shapeFn mv.idx)).pos
  · obtain ⟨P1, P2, K0, K1, e1, e2, -, hP2, sm, rep, hng, hn, -, q0, q1⟩ := move_pinv hP hI (how := .move) htid hidx' hd
      (How.For.fits (k := mv.kind) (how := .move) (by cases mv.kind <;> trivial) S.P.box (S.P.shapeFn mv.idx))
    rw [e1] at h6
    injection h6 with h6
    injection h6 with h6 h6'
    subst h6
    have hsh : (mols S.P)[mv.idx]? = some (S.P.shapeFn mv.idx) := by rw [mols_getElem? hidx', shape_some hidx']
    rcases h7 with ⟨P', h7, h8, rfl, -⟩ | ⟨-, rfl, -⟩
    · have e2' : P1.acceptMove tid = .ok P2 := e2
      rw [e2'] at h8
      injection h8 with h8
      subst h8
      have hfr : SameFrame S.P P2 := sm.frame.trans rep.frame
      have hr : Reachable P2 T.I := by
        refine .step (.move tid mv.idx mv.kind domain .move) h.reach ⟨htid, by cases mv.kind <;> trivial, _, hsh, hd⟩ ?_
        simp only [Op.run]
        rw [e1]
        show (P1.acceptHow tid .move >>= fun P => Outcome.ok (P, T.I)) = _
        rw [e2]
        rfl
      refine ⟨⟨hr, hfr.size.trans h.size, h.all, ?_, mem_set_tape h.tapes (ht.drop _), lengthSet h.engines, h.temp, h.temps, ?_⟩, hfr, Or.inr
        ⟨s, mv, s', _, _, _, h5, hidx, hsh, ?_, ?_⟩⟩
      · show (S.mts.set tid (t.drop (k + 1))).length ≤ P2.moveThreads
        rw [List.length_set, hfr.moveThreads]
        exact h.threads
      · exact hfr.overlapCounting.trans h.counted
      · show mols P2 = _
        have h9 : mols P1 = mols S.P := sm.mols
        rw [← h9]
        unfold mols
        rw [rep.size, rep.shapes, List.take_set]
      · show numTotal P2 T.I ≤ _
        rw [hn]
        have hle : (K1 : ℝ) ≤ K0 := by
          cases hhard : T.I.hasHard with
          | false =>
            have a0 := numTotal_noHard hP.q hI hhard
            have a1 := numTotal_noHard hP2.q hI hhard
            rw [a0, a1] at hn
            linarith
          | true =>
            by_contra hlt
            push Not at hlt
            have hlt' : K0 < K1 := by exact_mod_cast hlt
            have : dE = .posInf := by
              rw [← h6', hhard]
              unfold moveChange
              rw [if_pos rfl]
              split_ifs <;> first | rfl | omega
            rw [this, boltzmann_posInf h.temp hu] at h7
            exact absurd h7 (by simp)
        linarith
    · have hr : Reachable P1 T.I := by
        refine .step (.trial tid mv.idx mv.kind domain) h.reach ⟨htid, hidx'⟩ ?_
        simp only [Op.run]
        rw [e1]
        rfl
      refine ⟨⟨hr, sm.size.trans h.size, h.all, ?_, mem_set_tape h.tapes (ht.drop _), lengthSet h.engines, h.temp, h.temps, ?_⟩, sm.frame, Or.inl
        ⟨sm.mols, sm.numTotal _⟩⟩
      · show (S.mts.set tid (t.drop (k + 1))).length ≤ P1.moveThreads
        rw [List.length_set, sm.moveThreads]
        exact h.threads
      · exact sm.overlapCounting.trans h.counted
  · obtain ⟨P1, e1, sm, -⟩ := trial_out hP htid hidx' hd
    rw [e1] at h6
    injection h6 with h6
    injection h6 with h6 h6'
    subst h6 h6'
    rw [boltzmann_posInf h.temp hu] at h7
    rcases h7 with ⟨_, h7, -⟩ | ⟨-, rfl, -⟩
    · cases h7
    · have hr : Reachable P1 T.I := by
        refine .step (.trial tid mv.idx mv.kind domain) h.reach ⟨htid, hidx'⟩ ?_
        simp only [Op.run]
        rw [e1]
        rfl
      refine ⟨⟨hr, sm.size.trans h.size, h.all, ?_, mem_set_tape h.tapes (ht.drop _), lengthSet h.engines, h.temp, h.temps, ?_⟩, sm.frame, Or.inl
        ⟨sm.mols, sm.numTotal _⟩⟩
      · show (S.mts.set tid (t.drop (k + 1))).length ≤ P1.moveThreads
        rw [List.length_set, sm.moveThreads]
        exact h.threads
      · exact sm.overlapCounting.trans h.counted

/-- The effect of a scaling on the packing. -/
theorem Sound.tryScaling {T : Traits} {n : Nat} {S S' : Sim} {acc : Bool} (h : Sound T n S)
    (hs : S.tryScaling T.I = .ok (S', acc)) :
    Sound T n S' ∧ S'.P.hasWall = S.P.hasWall ∧ S'.P.overlapCounting = S.P.overlapCounting ∧
      ((mols S'.P = mols S.P ∧ S'.P.box = S.P.box ∧ numTotal S'.P T.I = numTotal S.P T.I) ∨
        ∃ (s : Scaler) (b : Box) (t t' : Tape) (M : Mat3) (dE : EnergyChange), S.env.scaler = .enabled s ∧
          s.updateBox S.P.box t = .ok (b, t') ∧
          Box.make M = .ok b ∧ S.P.tryScaling T.I b = .ok (S'.P, dE) ∧ S'.P.box = b ∧
          mols S'.P = (mols S.P).map (Shape.rescale S.P.box b) ∧
          ((S.P.overlapCounting = true ∨ (T.I.isConvex && isBoxUpscaled S.P.box b) = false) →
            numTotal S.P T.I = 0 → numTotal S'.P T.I = 0)) := by
  obtain ⟨hP, hI⟩ := h.inv
  obtain ⟨t, s, b, t', P', h1, h2, h3, -, rfl, h5⟩ := tryScaling_ok hs
  obtain ⟨⟨M, hM⟩, kk, rfl⟩ := Scaler.updateBox_ok h3
  have ht : t.Positive := h.tapes t (List.mem_of_getElem? h1)
  obtain ⟨as, og, num, K1, e1, hP1, hK1⟩ := Packing.tryScaling_ok hP hI (Box.make_wf hM).1
  rcases h5 with ⟨rfl, rfl⟩ | ⟨P1, dE, h5, h6⟩
  · refine ⟨⟨h.reach, h.size, h.all, ?_, mem_set_tape h.tapes ((ht.drop _).drop _), lengthSet h.engines, h.temp, h.temps, h.counted⟩, rfl, rfl,
      Or.inl ⟨rfl, rfl, rfl⟩⟩
    show (S.mts.set 0 _).length ≤ _
    rw [List.length_set]
    exact h.threads
  · rw [e1] at h5
    injection h5 with h5
    injection h5 with h5 h5'
    subst h5
    rcases h6 with ⟨rfl, rfl, h6⟩ | ⟨rfl, h6⟩
    · have hr : Reachable (S.P.scaledState b as og num) T.I := by
        refine .step (.scale b true) h.reach ⟨M, hM⟩ ?_
        simp only [Op.run]
        rw [e1]
        rfl
      refine ⟨⟨hr, (scaledState_size _ _ _ _ _).trans h.size, h.all, ?_, mem_set_tape h.tapes ((ht.drop _).drop _), lengthSet h.engines, h.temp, h.temps,
        h.counted⟩, rfl, rfl, Or.inr ⟨s, b, t, _, M, dE, h2, h3, hM, ?_, rfl, mols_scaledState _ _ _ _ _, ?_⟩⟩
      · show (S.mts.set 0 _).length ≤ _
        rw [List.length_set]
        exact h.threads
      · rw [e1, h5']
        rfl
      · intro hcv h0
        show numTotal (S.P.scaledState b as og num) T.I = 0
        cases hhard : T.I.hasHard with
        | false => exact numTotal_noHard hP1.q hI hhard
        | true =>
          rw [← hK1]
          by_contra hne
          have hpos : 0 < K1 := Nat.pos_of_ne_zero (fun e => hne (by rw [e]; simp))
          have : dE = .posInf := by
            rw [← h5', hhard]
            unfold scaleChange
            rw [if_pos rfl]
            cases hc : S.P.overlapCounting with
            | true =>
              have := hP.cached hc
              rw [h0] at this
              have hz : S.P.numOverlaps = 0 := by exact_mod_cast this
              rw [if_pos rfl, hz]
              rw [if_neg (by omega), if_pos (by omega)]
            | false =>
              rw [hc] at hcv
              rw [if_neg (by simp), if_neg (by simpa using hcv), if_pos hpos]
          rw [this, scalingAccepted_posInf h.temp ((ht.drop kk) 0).1] at h6
          cases h6
    · obtain ⟨as', e2, sm, hP2⟩ := revert_ok hP hP1
      rw [e2] at h6
      injection h6 with h6
      have hr : Reachable P' T.I := by
        refine .step (.scale b false) h.reach ⟨M, hM⟩ ?_
        simp only [Op.run]
        rw [e1]
        show ((S.P.scaledState b as og num).revertScaling >>= fun P => Outcome.ok (P, T.I)) = _
        rw [e2]
        exact congrArg (fun P => Outcome.ok (P, T.I)) h6
      have hm : mols P' = mols S.P := by rw [← h6]; rfl
      have hnum : numTotal P' T.I = numTotal S.P T.I := by
        rw [← h6]
        exact (sm.numTotal T.I).trans rfl
      have hsz : P'.size = S.P.size := by rw [← h6]; rfl
      have hmt : P'.moveThreads = S.P.moveThreads := by rw [← h6]
      have hoc : P'.overlapCounting = S.P.overlapCounting := by rw [← h6]
      refine ⟨⟨hr, hsz.trans h.size, h.all, ?_, mem_set_tape h.tapes ((ht.drop _).drop _), lengthSet h.engines, h.temp, h.temps,
        hoc.trans h.counted⟩, by rw [← h6]; rfl, hoc, Or.inl ⟨hm, by rw [← h6]; rfl, hnum⟩⟩
      show (S.mts.set 0 _).length ≤ P'.moveThreads
      rw [List.length_set, hmt]
      exact h.threads

/-- The effect of renormalisation on the packing. -/
theorem Sound.fixRotationMatrices {T : Traits} {n : Nat} {S S' : Sim} (h : Sound T n S)
    (hs : S.fixRotationMatrices T.I = .ok S') :
    Sound T n S' ∧ SameFrame S.P S'.P ∧ (∃ bs : List Bool, bs.length = S.P.size ∧ mols S'.P = fixSome bs (mols S.P)) ∧
      numTotal S'.P T.I ≤ numTotal S.P T.I := by
  obtain ⟨hP, hI⟩ := h.inv
  have ht0 : 0 < S.P.moveThreads := lt_of_lt_of_le h.engines h.threads
  unfold Sim.fixRotationMatrices at hs
  obtain ⟨⟨P, m⟩, h1, hs⟩ := Outcome.bind_eq_ok.mp hs
  injection hs with hs
  subst hs
  have hr : Reachable P T.I := by
    refine .step (.renormalize 0 S.overlapsCounted) h.reach ht0 ?_
    simp only [Op.run]
    rw [h1]
    rfl
  have key : SameFrame S.P P ∧ (∃ bs : List Bool, bs.length = S.P.size ∧ mols P = fixSome bs (mols S.P)) ∧
      numTotal P T.I ≤ numTotal S.P T.I := by
    cases hc : S.overlapsCounted with
    | true =>
      rw [hc] at h1
      obtain ⟨P', e, hP', hf, hm⟩ := renormalizeAllow_ok hI 0 hP
      rw [e] at h1
      injection h1 with h1
      injection h1 with h1 _
      subst h1
      refine ⟨hf, ⟨List.replicate S.P.size false, by simp, ?_⟩, ?_⟩
      · rw [hm]
        unfold fixSome
        have hl := mols_length (P := S.P)
        apply List.ext_getElem
        · simp [hl]
        · intro i h1 h2
          simp
      · have : SameConf S.P P' := ⟨hm, hf.box, hf.hasWall⟩
        exact (this.numTotal hP hP').le
    | false =>
      rw [hc] at h1
      obtain ⟨P', bs, e, hP', hf, hl, hm, hn, -⟩ := renormalize_ok hI hP ht0
      rw [e] at h1
      injection h1 with h1
      injection h1 with h1 _
      subst h1
      exact ⟨hf, ⟨bs, hl, hm⟩, hn⟩
  obtain ⟨hf, hb, hn⟩ := key
  refine ⟨⟨hr, hf.size.trans h.size, h.all, ?_, h.tapes, h.engines, h.temp, h.temps, hf.overlapCounting.trans h.counted⟩, hf, hb, hn⟩
  show S.mts.length ≤ P.moveThreads
  rw [hf.moveThreads]
  exact h.threads

theorem Sound.updateThermo {T : Traits} {n : Nat} {S S' : Sim} (h : Sound T n S) (hs : S.updateThermo = .ok S') :
    Sound T n S' ∧ S'.P = S.P ∧ S'.overlapsCounted = S.overlapsCounted ∧ S'.env = S.env := by
  unfold Sim.updateThermo at hs
  obtain ⟨p, h1, hs⟩ := Outcome.bind_eq_ok.mp hs
  obtain ⟨t, h2, hs⟩ := Outcome.bind_eq_ok.mp hs
  obtain ⟨pr, h3, hs⟩ := Outcome.bind_eq_ok.mp hs
  injection hs with hs
  subst hs
  have : S.env.temperature = some p := by
    unfold Env.getTemperature at h1
    split at h1
    · cases h1
    · next q hq =>
      injection h1 with h1
      rw [hq, h1]
  exact ⟨⟨h.reach, h.size, h.all, h.threads, h.tapes, h.engines, h.temps p this _ _ _ h2, h.temps, h.counted⟩, rfl, rfl, rfl⟩

theorem Sound.core {T : Traits} {n : Nat} {S S' : Sim} (h : Sound T n S) (hs : SameCore S S') : Sound T n S' where
  reach := by rw [hs.P]; exact h.reach
  size := by rw [hs.P]; exact h.size
  all := by rw [hs.all]; exact h.all
  threads := by rw [hs.P, hs.mts]; exact h.threads
  tapes := by rw [hs.mts]; exact h.tapes
  engines := by rw [hs.mts]; exact h.engines
  temp := by rw [hs.temperature]; exact h.temp
  temps := by rw [hs.envT]; exact h.temps
  counted := by rw [hs.P, hs.counted]; exact h.counted

theorem Sound.tape {T : Traits} {n : Nat} {S : Sim} {t : Tape} (h : Sound T n S) (ht : S.mts[0]? = some t) :
    Sound T n { S with mts := S.mts.set 0 (t.drop 3) } where
  reach := h.reach
  size := h.size
  all := h.all
  threads := by
    show (S.mts.set 0 _).length ≤ _
    rw [List.length_set]; exact h.threads
  tapes := mem_set_tape h.tapes ((h.tapes t (List.mem_of_getElem? ht)).drop 3)
  engines := lengthSet h.engines
  temp := h.temp
  temps := h.temps
  counted := h.counted

/-- The packing before a run and the circumstances of the run, which make it sound. -/
structure Begin (T : Traits) (S : Sim) (env : Env) (I₀ : Interaction) : Prop where
  reach : Reachable S.P I₀
  setup : Op.Allowed S.P I₀ (.setup T.I)
  all : ∀ i ∈ S.all, i < S.P.size
  threads : S.mts.length ≤ S.P.moveThreads
  tapes : ∀ t ∈ S.mts, t.Positive
  engines : 0 < S.mts.length
  temps : ∀ p, (S.env.combine env).temperature = some p → ∀ a b t, p.value a b = .ok t → 0 ≤ t

theorem setup_counting {P P1 P2 : Packing} {I₀ I : Interaction} {c : Bool} (hr : Reachable P I₀)
    (ha : Op.Allowed P I₀ (.setup I)) (h6 : P.setupForInteraction I = .ok P1) (h7 : P1.toggleOverlapCounting c I = .ok P2) :
    Reachable P2 I ∧ P2.overlapCounting = c ∧ mols P2 = mols P ∧ P2.box = P.box ∧ P2.hasWall = P.hasWall ∧
      P2.moveThreads = P.moveThreads ∧ P2.size = P.size := by
  have r1 : Reachable P1 I := by
    refine .step (.setup I) hr ha ?_
    simp only [Op.run]
    rw [h6]
    rfl
  have r2 : Reachable P2 I := by
    refine .step (.counting c) r1 trivial ?_
    simp only [Op.run]
    rw [h7]
    rfl
  obtain ⟨hP, -⟩ := hr.inv
  obtain ⟨hc, hsites, hor, hard⟩ := ha
  have hg' : GridsHave P (P.size * Max.max 1 I.centres.length) := by
    rcases hor with hg | ⟨h1, h2⟩
    · apply hP.gridsHave.mono
      unfold cap; rw [hP.q.core.m_eq]; exact hg
    · exact ⟨fun g h => (by rw [h1] at h; cases h), fun g h => (by rw [h2] at h; cases h)⟩
  obtain ⟨P1', e1, -, m1, b1, w1, -, t1, s1⟩ := setup_ok hP hc hg' hsites (fun hh => hP.noHard (hard hh))
  rw [e1] at h6
  injection h6 with h6
  subst h6
  obtain ⟨n2, e2, -⟩ := toggle_ok r1.inv.1 r1.inv.2 c
  rw [e2] at h7
  injection h7 with h7
  subst h7
  exact ⟨r2, rfl, m1, b1, w1, t1, s1⟩

theorem Begin.sound {T : Traits} {S S₁ S₂ : Sim} {env : Env} {I₀ : Interaction} {o m : Nat} {c : Bool}
    (h : Begin T S env I₀) (h1 : S.start env T = .ok S₁) (h2 : S₁.prepare T o m c = .ok S₂) :
    Sound T S.P.size S₂ ∧ S₂.overlapsCounted = c ∧ mols S₂.P = mols S.P ∧ S₂.P.box = S.P.box ∧ S₂.P.hasWall = S.P.hasWall ∧
      S₂.P.moveThreads = S.P.moveThreads := by
  obtain ⟨ss₀, -, -, e1⟩ := start_ok h1
  unfold Sim.prepare at h2
  obtain ⟨S₃, h3, h2⟩ := Outcome.bind_eq_ok.mp h2
  unfold Sim.updateThermo at h3
  obtain ⟨p, h4, h3⟩ := Outcome.bind_eq_ok.mp h3
  obtain ⟨t, h5, h3⟩ := Outcome.bind_eq_ok.mp h3
  obtain ⟨pr, -, h3⟩ := Outcome.bind_eq_ok.mp h3
  injection h3 with h3
  obtain ⟨P, h6, h2⟩ := Outcome.bind_eq_ok.mp h2
  obtain ⟨P', h7, h2⟩ := Outcome.bind_eq_ok.mp h2
  injection h2 with h2
  have a1 : S₁.P = S.P := by rw [e1]
  have a2 : S₁.mts = S.mts := by rw [e1]
  have a3 : S₁.all = S.all := by rw [e1]
  have a4 : S₁.env.temperature = (S.env.combine env).temperature := by rw [e1]
  have b1 : S₃.P = S.P := by rw [← h3]; exact a1
  rw [b1] at h6
  obtain ⟨r, c1, c2, c3, c4, c5, c6⟩ := setup_counting h.reach h.setup h6 h7
  have hT : S₁.env.temperature = some p := by
    unfold Env.getTemperature at h4
    split at h4
    · cases h4
    · next q hq =>
      injection h4 with h4
      rw [← h4]
      exact hq
  rw [a4] at hT
  have ht : 0 ≤ t := h.temps p hT _ _ _ h5
  have d1 : S₂.P = P' := by rw [← h2]
  have d2 : S₂.overlapsCounted = c := by rw [← h2]
  have d3 : S₂.mts = S.mts := by rw [← h2, ← h3, ← a2]
  have d4 : S₂.all = S.all := by rw [← h2, ← h3, ← a3]
  have d5 : S₂.temperature = t := by rw [← h2, ← h3]
  have d6 : S₂.env.temperature = (S.env.combine env).temperature := by rw [← h2, ← h3, ← a4]
  clear h2 h3 e1
  refine ⟨⟨?_, ?_, ?_, ?_, ?_, ?_, ?_, ?_, ?_⟩, d2, ?_, ?_, ?_, ?_⟩
  · rw [d1]; exact r
  · rw [d1]; exact c6
  · rw [d4]; exact h.all
  · rw [d3, d1, c5]; exact h.threads
  · rw [d3]; exact h.tapes
  · rw [d3]; exact h.engines
  · rw [d5]; exact ht
  · rw [d6]; exact h.temps
  · rw [d1, d2]; exact c1
  · rw [d1]; exact c2
  · rw [d1]; exact c3
  · rw [d1]; exact c4
  · rw [d1]; exact c5

/-- The circumstances are such throughout a run. -/
theorem sound_kept (T : Traits) (n : Nat) : Kept T n (Sound T n) where
  size h := ⟨h.size, h.all⟩
  core h hs := h.core hs
  tape h ht := h.tape ht
  move h hi hm := (h.tryMove hi hm).1
  scaling h hs := (h.tryScaling hs).1
  thermo h hs := (h.updateThermo hs).1
  fix h hs := (h.fixRotationMatrices hs).1

end Sim

end Rampack
