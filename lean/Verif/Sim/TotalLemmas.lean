import Verif.Sim.OrientLemmas
import Verif.Sim.LiveSpec
import Verif.Packing.RenormProps
/-
Runs complete.
-/
namespace Rampack

open Spec Packing

theorem Fair.drop {t : Tape} (h : Fair t) (n : Nat) : Fair (t.drop n) := by
  intro j
  rw [Tape.drop_drop]
  exact h (n + j)

theorem norm_ne_zero {v : Vec3 ℝ} (h : v ≠ 0) : v.norm ≠ 0 := by
  unfold Vec3.norm
  exact (Real.sqrt_pos.mpr (Vec3.norm2_pos_of_ne h)).ne'

namespace Sampler

theorem Usable.mono {s : Sampler} {m n : Nat} (h : Usable m s) (hmn : m ≤ n) : Usable n s := by
  cases s with
  | flip e a o z => exact ⟨h.1, lt_of_lt_of_le h.2.1 hmn, h.2.2⟩
  | rototranslation _ _ _ _ => exact h
  | rotation _ => trivial
  | translation _ _ _ => trivial

theorem requested_total {s : Sampler} {m : Nat} (h : Usable m s) : ∃ r, s.requested m = .ok r ∧ (0 < m → 0 < r) := by
  cases s with
  | flip e a o z =>
    refine ⟨m / e, ?_, fun _ => Nat.div_pos h.2.1.le h.1⟩
    have h1 : m > e := h.2.1
    simp only [requested]
    rw [decide_eq_true h1]
    rfl
  | rototranslation _ _ _ _ => exact ⟨m, rfl, id⟩
  | rotation _ => exact ⟨m, rfl, id⟩
  | translation _ _ _ => exact ⟨m, rfl, id⟩

theorem uniformInt_total {n : Nat} (hn : 0 < n) (t : Tape) (ht : t.Positive) : ∃ k, uniformInt n t = .ok (k, t.drop 1) ∧ k < n := by
  have : uniformInt n t = .ok (⌊t 0 * n⌋₊, t.drop 1) := by
    unfold uniformInt
    rw [if_neg (by omega)]
  exact ⟨_, this, uniformInt_lt ht.ok this⟩

theorem sampleParticle_total {idxs : List Nat} (hne : idxs ≠ []) (t : Tape) (ht : t.Positive) :
    ∃ i, sampleParticle idxs t = .ok (i, t.drop 1) := by
  obtain ⟨k, h1, h2⟩ := uniformInt_total (List.length_pos_iff.mpr hne) t ht
  refine ⟨idxs[k], ?_⟩
  unfold sampleParticle
  rw [h1, Outcome.ok_bind]
  show (vget idxs k >>= fun i => Outcome.ok (i, t.drop 1)) = _
  rw [vget_eq_ok.mpr (List.getElem?_eq_getElem h2)]
  rfl

theorem sampleRotation_total (x : ℝ) {t : Tape} (hf : Fair t) : ∃ R k, sampleRotation x t = .ok (R, t.drop k) := by
  obtain ⟨v, t1, h1, h2⟩ := hf 0
  have e0 : t.drop 0 = t := by funext n; unfold Tape.drop; rw [Nat.zero_add]
  rw [e0] at h1
  have : ∃ R t', sampleRotation x t = .ok (R, t') := by
    unfold sampleRotation
    rw [h1, Outcome.ok_bind]
    have h3 : normalize v = .ok ⟨v.x / v.norm, v.y / v.norm, v.z / v.norm⟩ := by
      unfold normalize
      rw [if_neg (norm_ne_zero h2)]
    simp only
    rw [h3]
    exact ⟨_, _, rfl⟩
  obtain ⟨R, t', h⟩ := this
  obtain ⟨n, v, k, -, -, h4⟩ := sampleRotation_ok h
  exact ⟨R, k + 1, h4 ▸ h⟩

/-- A usable sampler samples a move. -/
theorem sampleMove_total {s : Sampler} {P : Packing} {idxs : List Nat} {t : Tape} {m : Nat} (hs : Usable m s) (hne : idxs ≠ [])
    (hi : ∀ i ∈ idxs, i < P.size) (hP : ProperlyOriented P) (hsz : P.size ≤ P.shapes.length) (ht : t.Positive) (hf : Fair t) :
    ∃ mv s' t', s.sampleMove P idxs t = .ok (mv, s', t') := by
  rcases s with x | ⟨x, mx, i⟩ | ⟨x, _ | y, mx, i⟩ | ⟨e, a, o, z⟩
  · obtain ⟨R, k, h1⟩ := sampleRotation_total x hf
    obtain ⟨j, h2⟩ := sampleParticle_total hne (t.drop k) (ht.drop k)
    simp only [sampleMove]
    rw [h1, Outcome.ok_bind]
    simp only
    rw [h2]
    exact ⟨_, _, _, rfl⟩
  · obtain ⟨j, h2⟩ := sampleParticle_total hne (t.drop 3) (ht.drop 3)
    simp only [sampleMove, sampleTranslation]
    rw [h2]
    exact ⟨_, _, _, rfl⟩
  · cases hs
  · obtain ⟨R, k, h1⟩ := sampleRotation_total (min y Real.pi) (Fair.drop hf 3)
    obtain ⟨j, h2⟩ := sampleParticle_total hne ((t.drop 3).drop k) ((ht.drop 3).drop k)
    simp only [sampleMove, sampleTranslation]
    rw [h1, Outcome.ok_bind]
    simp only
    rw [h2]
    exact ⟨_, _, _, rfl⟩
  · obtain ⟨j, h2⟩ := sampleParticle_total hne t ht
    have hj := hi j (sampleParticle_ok h2).1
    have hj' : j < P.shapes.length := by omega
    simp only [sampleMove]
    rw [h2, Outcome.ok_bind]
    simp only
    rw [vget_eq_ok.mpr (List.getElem?_eq_getElem hj'), Outcome.ok_bind]
    have hrot : IsRotation P.shapes[j].rot := hP _ (by
      have : (mols P)[j]? = some P.shapes[j] := by rw [mols_getElem? hj]; exact List.getElem?_eq_getElem hj'
      exact List.mem_of_getElem? this)
    have hv : (P.shapes[j].rot.mulVec a) ≠ 0 := by
      intro h0
      have h1 := norm_mulVec hrot.1 a
      rw [h0] at h1
      have h2 : a.norm ≠ 0 := norm_ne_zero hs.2.2
      apply h2
      rw [← h1]
      simp [Vec3.norm, Vec3.norm2, Vec3.dot]
    have h3 : normalize (P.shapes[j].rot.mulVec a) = .ok ⟨(P.shapes[j].rot.mulVec a).x / (P.shapes[j].rot.mulVec a).norm,
        (P.shapes[j].rot.mulVec a).y / (P.shapes[j].rot.mulVec a).norm, (P.shapes[j].rot.mulVec a).z / (P.shapes[j].rot.mulVec a).norm⟩ := by
      unfold normalize
      rw [if_neg (norm_ne_zero hv)]
    unfold flipMove
    rw [h3, Outcome.ok_bind]
    split_ifs <;> exact ⟨_, _, _, rfl⟩

theorem sampleMove_usable {P : Packing} {idxs : List Nat} {t t' : Tape} {s s' : Sampler} {mv : MoveData} {m : Nat}
    (h : s.sampleMove P idxs t = .ok (mv, s', t')) (hs : Usable m s) : Usable m s' := by
  rcases s with x | ⟨x, mx, i⟩ | ⟨x, _ | y, mx, i⟩ | ⟨e, a, o, z⟩
  · unfold sampleMove at h
    obtain ⟨⟨R, t1⟩, h1, h⟩ := Outcome.bind_eq_ok.mp h
    simp only at h
    obtain ⟨⟨j, t2⟩, h2, h⟩ := Outcome.bind_eq_ok.mp h
    injection h with h
    injection h with h6 h7
    injection h7 with h7 h8
    subst h7
    trivial
  · unfold sampleMove at h
    simp only [sampleTranslation] at h
    obtain ⟨⟨j, t2⟩, h2, h⟩ := Outcome.bind_eq_ok.mp h
    injection h with h
    injection h with h6 h7
    injection h7 with h7 h8
    subst h7
    trivial
  · cases h
  · unfold sampleMove at h
    simp only [sampleTranslation] at h
    obtain ⟨⟨R, t1⟩, h1, h⟩ := Outcome.bind_eq_ok.mp h
    simp only at h
    obtain ⟨⟨j, t2⟩, h2, h⟩ := Outcome.bind_eq_ok.mp h
    injection h with h
    injection h with h6 h7
    injection h7 with h7 h8
    subst h7
    rfl
  · unfold sampleMove at h
    obtain ⟨⟨j, t2⟩, h2, h⟩ := Outcome.bind_eq_ok.mp h
    simp only at h
    obtain ⟨sh, h3, h⟩ := Outcome.bind_eq_ok.mp h
    obtain ⟨kd, h4, h⟩ := Outcome.bind_eq_ok.mp h
    injection h with h
    injection h with h7 h8
    injection h8 with h8 h9
    subst h8
    exact hs

theorem increase_total {s : Sampler} {m : Nat} (hs : Usable m s) : ∃ s' b, s.increase = .ok (s', b) ∧ ∀ k, Usable k s → Usable k s' := by
  rcases s with x | ⟨x, mx, i⟩ | ⟨x, _ | y, mx, i⟩ | ⟨e, a, o, z⟩
  · exact ⟨_, _, rfl, fun _ _ => trivial⟩
  · simp only [increase]
    cases increasedTranslation x mx
    · exact ⟨_, _, rfl, fun _ _ => trivial⟩
    · exact ⟨_, _, rfl, fun _ _ => trivial⟩
  · cases hs
  · simp only [increase]
    cases increasedTranslation x mx
    · exact ⟨_, _, rfl, fun _ _ => rfl⟩
    · exact ⟨_, _, rfl, fun _ _ => rfl⟩
  · exact ⟨_, _, rfl, fun _ h => h⟩

theorem decrease_total {s : Sampler} {m : Nat} (hs : Usable m s) : ∃ s' b, s.decrease = .ok (s', b) ∧ ∀ k, Usable k s → Usable k s' := by
  rcases s with x | ⟨x, mx, i⟩ | ⟨x, _ | y, mx, i⟩ | ⟨e, a, o, z⟩
  · exact ⟨_, _, rfl, fun _ _ => trivial⟩
  · exact ⟨_, _, rfl, fun _ _ => trivial⟩
  · cases hs
  · exact ⟨_, _, rfl, fun _ _ => rfl⟩
  · exact ⟨_, _, rfl, fun _ h => h⟩

theorem stepSizes_total {s : Sampler} {m : Nat} (hs : Usable m s) : ∃ l, s.stepSizes = .ok l := by
  rcases s with x | ⟨x, mx, i⟩ | ⟨x, _ | y, mx, i⟩ | ⟨e, a, o, z⟩
  · exact ⟨_, rfl⟩
  · exact ⟨_, rfl⟩
  · cases hs
  · exact ⟨_, rfl⟩
  · exact ⟨_, rfl⟩

end Sampler

open Sampler

/-- Accumulated numbers of moves. -/
theorem accumulations_total {m : Nat} : ∀ (l : List Sampler) (acc : Nat), (∀ s ∈ l, Usable m s) →
    ∃ accs, moveTypeAccumulations m l acc = .ok accs ∧ accs.length = l.length ∧
      (l ≠ [] → ∃ last, accs.getLast? = some last ∧ acc ≤ last ∧ (0 < m → acc < last) ∧ ∀ x < last, moveTypeFor accs x < l.length)
  | [], acc, _ => ⟨[], rfl, rfl, fun h => absurd rfl h⟩
  | s :: l, acc, h => by
    obtain ⟨r, h1, h2⟩ := requested_total (h s List.mem_cons_self)
    obtain ⟨accs, h3, h4, h5⟩ := accumulations_total l (acc + r) fun x hx => h x (List.mem_cons_of_mem _ hx)
    refine ⟨(acc + r) :: accs, ?_, by rw [List.length_cons, List.length_cons, h4], fun _ => ?_⟩
    · simp only [moveTypeAccumulations]
      rw [h1, Outcome.ok_bind, h3]
      rfl
    · by_cases hl : l = []
      · subst hl
        have : accs = [] := List.length_eq_zero_iff.mp h4
        subst this
        refine ⟨acc + r, rfl, by omega, fun hm => by have := h2 hm; omega, fun x hx => ?_⟩
        simp only [moveTypeFor]
        rw [if_pos hx]
        simp
      · obtain ⟨last, a1, a2, a3, a4⟩ := h5 hl
        refine ⟨last, ?_, by omega, fun hm => by have := a3 hm; omega, fun x hx => ?_⟩
        · rw [List.getLast?_cons, a1]
          rfl
        · simp only [moveTypeFor]
          split_ifs
          · simp
          · rw [List.length_cons]
            have := a4 x hx
            omega

namespace Sim

/-- A state from which runs of `n` molecules go on. -/
structure Live (T : Traits) (n : Nat) (S : Sim) : Prop where
  proper : Proper T n S
  molecules : S.all ≠ []
  groups : S.env.samplers ≠ []
  usable : ∀ s ∈ S.env.samplers, Usable (n / S.numDomains) s
  counters : S.counters.length = S.env.samplers.length
  cancel : S.cancelReported.length = S.env.samplers.length
  fair : ∀ t ∈ S.mts, Fair t
  scaler : SafeScaler S.env.scaler
  temperature : ∃ p, S.env.temperature = some p ∧ Defined p
  pressure : S.env.isBoxScalingEnabled = true → ∃ p, S.env.pressure = some p ∧ Defined p
  product : S.numDomains = S.divs.x * S.divs.y * S.divs.z
  domains : 0 < S.numDomains
  engines : S.numDomains ≤ S.mts.length
  narrow : S.numDomains = 1 ∨ (S.P.ng.isSome = true ∧ S.env.isBoxScalingEnabled = false ∧ TotalRange T.I ∧
    ∀ a, S.divs.get a < 2 ^ 63)

theorem mem_set_fair {l : List Tape} {i : Nat} {t : Tape} (hl : ∀ t ∈ l, Fair t) (ht : Fair t) : ∀ s ∈ l.set i t, Fair s := by
  intro s hs
  rcases List.mem_or_eq_of_mem_set hs with h | rfl
  · exact hl s h
  · exact ht

theorem mem_set_usable {l : List Sampler} {i m : Nat} {s : Sampler} (hl : ∀ t ∈ l, Usable m t) (ht : Usable m s) :
    ∀ t ∈ l.set i s, Usable m t := by
  intro t h
  rcases List.mem_or_eq_of_mem_set h with h | rfl
  · exact hl t h
  · exact ht

theorem ne_nil_set {α : Type} {l : List α} (h : l ≠ []) (i : Nat) (a : α) : l.set i a ≠ [] := by
  intro e
  apply h
  have := congrArg List.length e
  rw [List.length_set] at this
  exact List.length_eq_zero_iff.mp this

theorem getMoveSamplers_total {e : Env} (h : e.samplers ≠ []) : e.getMoveSamplers = .ok e.samplers := by
  unfold Env.getMoveSamplers Env.hasMoveSamplers
  have : e.samplers.isEmpty = false := by simpa using h
  rw [this]
  rfl

theorem vback_total {α : Type} {l : List α} {a : α} (h : l.getLast? = some a) : vback l = .ok a := by
  unfold vback
  rw [h]

/-- What is needed for a move. -/
structure CanMove (n : Nat) (idxs accs : List Nat) (tid : Nat) (S : Sim) (cs : List Counter) : Prop where
  some_idx : idxs ≠ []
  small : ∀ i ∈ idxs, i < n
  last : ∃ last, accs.getLast? = some last ∧ 0 < last ∧ ∀ x < last, moveTypeFor accs x < S.env.samplers.length
  len : accs.length = S.env.samplers.length
  counters : cs.length = S.env.samplers.length
  engine : tid < S.mts.length

/-- A move completes. -/
theorem Live.tryMove {T : Traits} {n : Nat} {S : Sim} {idxs accs : List Nat} {tid : Nat} {cs : List Counter}
    (h : Live T n S) (hc : CanMove n idxs accs tid S cs) (domain : Option (Vec3 ℝ → Bool)) :
    ∃ S' cs', Sim.tryMove T idxs accs tid domain (S, cs) = .ok (S', cs') := by
  obtain ⟨last, a1, a2, a3⟩ := hc.last
  obtain ⟨hP, hI⟩ := h.proper.1.inv
  have heng := hc.engine
  have ht := List.getElem?_eq_getElem hc.engine
  have hmem := List.getElem_mem hc.engine
  have hpos := h.proper.1.tapes _ hmem
  have hfair := h.fair _ hmem
  obtain ⟨k, b1, b2⟩ := uniformInt_total a2 S.mts[tid] hpos
  have hg := a3 k b2
  have hsz := h.proper.1.size
  obtain ⟨mv, s', t', c1⟩ := sampleMove_total (h.usable _ (List.getElem_mem hg)) hc.some_idx (by rw [hsz]; exact hc.small) h.proper.2
    (by unfold Packing.size; omega) (hpos.drop 1) (Fair.drop hfair 1)
  obtain ⟨hidx, -, -, kk, hk⟩ := sampleMove_ok c1
  have htid : tid < S.P.moveThreads := lt_of_lt_of_le hc.engine h.proper.1.threads
  have hidx' : mv.idx < S.P.size := by rw [hsz]; exact hc.small _ hidx
  have hcg : moveTypeFor accs k < cs.length := by rw [hc.counters]; exact hg
  -- trial
  have step : ∃ P1 dE, S.P.tryKind T.I tid mv.idx mv.kind domain = .ok (P1, dE) ∧
      ((boltzmann dE S.temperature).geNum (t' 0) = true → ∃ P2, P1.acceptMove tid = .ok P2) := by
    by_cases hd : InDomain mv.kind domain (mv.kind.apply S.P.box (S.P.shapeFn mv.idx)).pos
    · obtain ⟨P1, P2, K0, K1, e1, e2, -⟩ := move_pinv hP hI (how := .move) htid hidx' hd
        (How.For.fits (k := mv.kind) (how := .move) (by cases mv.kind <;> trivial) S.P.box (S.P.shapeFn mv.idx))
      exact ⟨P1, _, e1, fun _ => ⟨P2, e2⟩⟩
    · obtain ⟨P1, e1, -⟩ := trial_out hP htid hidx' hd
      refine ⟨P1, _, e1, fun hb => ?_⟩
      rw [hk, boltzmann_posInf h.proper.1.temp (((hpos.drop 1).drop kk) 0).1] at hb
      cases hb
  obtain ⟨P1, dE, d1, d2⟩ := step
  unfold Sim.tryMove
  simp only
  rw [getMoveSamplers_total h.groups, Outcome.ok_bind, decide_eq_true hc.counters, decide_eq_true hc.len]
  show ∃ S' cs', (vback accs >>= _) = _
  rw [vback_total a1, Outcome.ok_bind, vget_eq_ok.mpr ht, Outcome.ok_bind, b1, Outcome.ok_bind]
  simp only
  rw [vget_eq_ok.mpr (List.getElem?_eq_getElem hg), Outcome.ok_bind, c1, Outcome.ok_bind]
  simp only
  rw [d1, Outcome.ok_bind]
  simp only
  unfold decideMove
  rw [vget_eq_ok.mpr (List.getElem?_eq_getElem hcg), Outcome.ok_bind]
  by_cases hb : (boltzmann dE S.temperature).geNum (t' 0) = true
  · obtain ⟨P2, d3⟩ := d2 hb
    rw [if_pos hb]
    show ∃ S' cs', (P1.acceptMove tid >>= _) = _
    rw [d3]
    exact ⟨_, _, rfl⟩
  · rw [if_neg hb]
    exact ⟨_, _, rfl⟩

/-- A move keeps what is needed for the next one. -/
theorem Live.moved {T : Traits} {n : Nat} {S S' : Sim} {idxs accs : List Nat} {tid : Nat} {cs cs' : List Counter}
    {domain : Option (Vec3 ℝ → Bool)} (h : Live T n S) (hc : CanMove n idxs accs tid S cs)
    (hm : Sim.tryMove T idxs accs tid domain (S, cs) = .ok (S', cs')) :
    Live T n S' ∧ CanMove n idxs accs tid S' cs' ∧ S'.counters = S.counters ∧ S'.divs = S.divs ∧ S'.numDomains = S.numDomains ∧
      S'.env.samplers.length = S.env.samplers.length ∧ S'.mts.length = S.mts.length ∧ S'.P.box = S.P.box := by
  have hp := (proper_kept T n).move h.proper hc.small hm
  obtain ⟨-, hfr, -⟩ := h.proper.1.tryMove hc.small hm
  have hng : S'.P.ng.isSome = S.P.ng.isSome := sameFrame_grid h.proper.1.inv.1 hp.1.inv.1 hfr
  obtain ⟨g, s, s', mv, t, k, P, dE, c, h1, h2, h3, -, h5, -, h7⟩ := tryMove_ok hm
  have hfair := h.fair t (List.mem_of_getElem? h2)
  have hus := sampleMove_usable h5 (h.usable s (List.mem_of_getElem? h1))
  rcases h7 with ⟨P', -, -, rfl, rfl⟩ | ⟨-, rfl, rfl⟩
  · refine ⟨⟨hp, h.molecules, ne_nil_set h.groups _ _, mem_set_usable h.usable hus, ?_, ?_, mem_set_fair h.fair (Fair.drop hfair _),
      h.scaler, h.temperature, h.pressure, h.product, h.domains, ?_, ?_⟩, ⟨hc.some_idx, hc.small, ?_, ?_, ?_, ?_⟩, rfl, rfl, rfl, ?_, ?_, hfr.box⟩
    · exact h.counters.trans (by simp [acceptedState, triedState])
    · exact h.cancel.trans (by simp [acceptedState, triedState])
    · show S.numDomains ≤ (S.mts.set _ _).length
      rw [List.length_set]; exact h.engines
    · rw [hng]; exact h.narrow
    · simpa [acceptedState, triedState] using hc.last
    · simpa [acceptedState, triedState] using hc.len
    · simpa [acceptedState, triedState] using hc.counters
    · simpa [acceptedState, triedState] using hc.engine
    · simp [acceptedState, triedState]
    · simp [acceptedState, triedState]
  · refine ⟨⟨hp, h.molecules, ne_nil_set h.groups _ _, mem_set_usable h.usable hus, ?_, ?_, mem_set_fair h.fair (Fair.drop hfair _),
      h.scaler, h.temperature, h.pressure, h.product, h.domains, ?_, ?_⟩, ⟨hc.some_idx, hc.small, ?_, ?_, ?_, ?_⟩, rfl, rfl, rfl, ?_, ?_, hfr.box⟩
    · exact h.counters.trans (by simp [triedState])
    · exact h.cancel.trans (by simp [triedState])
    · show S.numDomains ≤ (S.mts.set _ _).length
      rw [List.length_set]; exact h.engines
    · rw [hng]; exact h.narrow
    · simpa [triedState] using hc.last
    · simpa [triedState] using hc.len
    · simpa [triedState] using hc.counters
    · simpa [triedState] using hc.engine
    · simp [triedState]
    · simp [triedState]

/-- Any number of moves completes. -/
theorem Live.iterate {T : Traits} {n : Nat} {idxs accs : List Nat} {tid : Nat} (domain : Option (Vec3 ℝ → Bool)) :
    ∀ (k : Nat) {S : Sim} {cs : List Counter}, Live T n S → CanMove n idxs accs tid S cs →
    ∃ S' cs', Rampack.iterate (Sim.tryMove T idxs accs tid domain) k (S, cs) = .ok (S', cs') ∧
    Live T n S' ∧ CanMove n idxs accs tid S' cs' ∧ S'.counters = S.counters ∧ S'.divs = S.divs ∧ S'.numDomains = S.numDomains ∧
      S'.env.samplers.length = S.env.samplers.length ∧ S'.mts.length = S.mts.length ∧ S'.P.box = S.P.box
  | 0, S, cs, h, hc => ⟨S, cs, rfl, h, hc, rfl, rfl, rfl, rfl, rfl, rfl⟩
  | k + 1, S, cs, h, hc => by
    obtain ⟨S1, cs1, e1⟩ := h.tryMove hc domain
    obtain ⟨a1, a2, a3, a4, a5, a6, a7, a8⟩ := h.moved hc e1
    obtain ⟨S2, cs2, e2, b1, b2, b3, b4, b5, b6, b7, b8⟩ := Live.iterate domain k a1 a2
    refine ⟨S2, cs2, ?_, b1, b2, b3.trans a3, b4.trans a4, b5.trans a5, b6.trans a6, b7.trans a7, b8.trans a8⟩
    simp only [Rampack.iterate]
    rw [e1, Outcome.ok_bind, e2]

end Sim

end Rampack
