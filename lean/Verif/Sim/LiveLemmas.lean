import Verif.Sim.TotalLemmas
/-
Runs complete: sweeps and cycles.
-/
namespace Rampack

open Spec Packing Sampler

theorem loopCells_length (N : Vec3 Nat) : (loopCells N).length = N.x * N.y * N.z := by
  simp [loopCells, List.length_flatMap, Nat.mul_assoc]

theorem mem_loopCells {N c : Vec3 Nat} : c ∈ loopCells N ↔ c.x < N.x ∧ c.y < N.y ∧ c.z < N.z := by
  simp only [loopCells, List.mem_flatMap, List.mem_range, List.mem_map]
  constructor
  · rintro ⟨i, hi, j, hj, k, hk, rfl⟩
    exact ⟨hi, hj, hk⟩
  · rintro ⟨h1, h2, h3⟩
    exact ⟨c.x, h1, c.y, h2, c.z, h3, rfl⟩

/-- A fold of steps all of which succeed and keep an invariant. -/
theorem foldlM_total {α β : Type} {f : β → α → Outcome β} {Inv : β → Prop} : ∀ (l : List α),
    (∀ b, ∀ a ∈ l, Inv b → ∃ b', f b a = .ok b' ∧ Inv b') → ∀ b, Inv b → ∃ b', l.foldlM f b = .ok b' ∧ Inv b'
  | [], _, b, hb => ⟨b, rfl, hb⟩
  | a :: l, h, b, hb => by
    obtain ⟨b1, e1, h1⟩ := h b a List.mem_cons_self hb
    obtain ⟨b2, e2, h2⟩ := foldlM_total l (fun b a ha => h b a (List.mem_cons_of_mem _ ha)) b1 h1
    exact ⟨b2, by rw [List.foldlM_cons, e1, Outcome.ok_bind, e2], h2⟩

namespace Sim

/-- Molecules, samplers and engines which do not change in number. -/
structure SameShape (S S' : Sim) : Prop where
  counters : S'.counters = S.counters
  divs : S'.divs = S.divs
  numDomains : S'.numDomains = S.numDomains
  samplers : S'.env.samplers.length = S.env.samplers.length
  mts : S'.mts.length = S.mts.length
  box : S'.P.box = S.P.box

theorem SameShape.refl (S : Sim) : SameShape S S := ⟨rfl, rfl, rfl, rfl, rfl, rfl⟩

theorem SameShape.trans {S S' S'' : Sim} (h : SameShape S S') (h' : SameShape S' S'') : SameShape S S'' :=
  ⟨h'.1.trans h.1, h'.2.trans h.2, h'.3.trans h.3, h'.4.trans h.4, h'.5.trans h.5, h'.6.trans h.6⟩

/-- The invariant depends on some parts of the state only. -/
theorem Live.congr {T : Traits} {n : Nat} {S S' : Sim} (h : Live T n S) (hc : SameCore S S')
    (h1 : S'.env.samplers.length = S.env.samplers.length) (h2 : ∀ s ∈ S'.env.samplers, Usable (n / S.numDomains) s)
    (h3 : S'.counters.length = S.counters.length) (h4 : S'.cancelReported.length = S.cancelReported.length)
    (h5 : SafeScaler S'.env.scaler) (h6 : S'.divs = S.divs) (h7 : S'.numDomains = S.numDomains) : Live T n S' := by
  have hen : S'.env.isBoxScalingEnabled = S.env.isBoxScalingEnabled := by
    have := hc.scaler
    unfold scalerKind at this
    unfold Env.isBoxScalingEnabled
    cases e1 : S'.env.scaler <;> cases e2 : S.env.scaler <;> rw [e1, e2] at this <;> first | rfl | cases this
  refine ⟨(proper_kept T n).core h.proper hc, by rw [hc.all]; exact h.molecules, ?_, by rw [h7]; exact h2, by rw [h3, h1]; exact h.counters,
    by rw [h4, h1]; exact h.cancel, by rw [hc.mts]; exact h.fair, h5, by rw [hc.envT]; exact h.temperature, by rw [hen, hc.envP]; exact h.pressure,
    by rw [h7, h6]; exact h.product, by rw [h7]; exact h.domains, by rw [h7, hc.mts]; exact h.engines, ?_⟩
  · intro e
    apply h.groups
    rw [e] at h1
    exact List.length_eq_zero_iff.mp h1.symm
  · rw [h7, hc.P, hen, h6]; exact h.narrow

theorem Live.counters_only {T : Traits} {n : Nat} {S : Sim} (h : Live T n S) {cs : List Counter}
    (hl : cs.length = S.counters.length) : Live T n { S with counters := cs } :=
  h.congr ⟨rfl, rfl, rfl, rfl, rfl, rfl, rfl, rfl⟩ rfl h.usable hl rfl h.scaler rfl rfl

theorem Live.size_pos {T : Traits} {n : Nat} {S : Sim} (h : Live T n S) : 0 < n := by
  obtain ⟨i, hi⟩ := List.exists_mem_of_ne_nil _ h.molecules
  have := h.proper.1.all i hi
  omega

/-- A sweep without domains completes. -/
theorem Live.sweep {T : Traits} {n : Nat} {S : Sim} (h : Live T n S) : ∃ S', S.sweep T = .ok S' ∧ Live T n S' := by
  have hsz := h.proper.1.size
  obtain ⟨accs, a1, a2, a3⟩ := accumulations_total (m := n) S.env.samplers 0
    (fun s hs => Usable.mono (h.usable s hs) (Nat.div_le_self _ _))
  obtain ⟨last, b1, -, b3, b4⟩ := a3 h.groups
  have hpos : 0 < S.mts.length := lt_of_lt_of_le h.domains h.engines
  obtain ⟨S', cs', e, h1, h2, h3, h4, h5, h6, h7, h8⟩ := Live.iterate none last h
    (idxs := S.all) (accs := accs) (tid := 0) (cs := S.counters)
    ⟨h.molecules, h.proper.1.all, ⟨last, b1, b3 h.size_pos, b4⟩, a2, h.counters, hpos⟩
  refine ⟨{ S' with counters := cs' }, ?_, h1.counters_only ?_⟩
  · unfold Sim.sweep
    rw [getMoveSamplers_total h.groups, Outcome.ok_bind, hsz, a1, Outcome.ok_bind, vback_total b1, Outcome.ok_bind, e]
    rfl
  · rw [h2.counters, h3, h6]
    exact h.counters.symm

/-- The loop over domains completes. -/
theorem Live.domainLoop {T : Traits} {n : Nat} {S : Sim} (h : Live T n S) {D : Domain.Decomposition}
    (hD : ∀ c, c.x < S.divs.x → c.y < S.divs.y → c.z < S.divs.z → ∃ L A, D.getParticlesInRegion c = .ok L ∧
      D.getActiveDomainBounds c = .ok A ∧ ∀ i ∈ L, i < n) : ∃ S', Sim.domainLoop T D S = .ok S' ∧ Live T n S' := by
  let zeros := List.replicate S.counters.length Counter.zero
  obtain ⟨⟨S', temp⟩, e, hl, hs, ht⟩ := foldlM_total (f := domainStep T D zeros)
    (Inv := fun st : Sim × List Counter => Live T n st.1 ∧ SameShape S st.1 ∧ st.2.length = S.counters.length)
    (loopCells S.divs).zipIdx (by
      rintro ⟨S1, temp⟩ ⟨c, tid⟩ hc ⟨h1, h2, h3⟩
      simp only at h1 h2 h3
      obtain ⟨htid, hcm⟩ : tid < (loopCells S.divs).length ∧ c ∈ loopCells S.divs := by
        have := List.mem_zipIdx_iff_getElem?.mp hc
        simp only at this
        obtain ⟨h4, h5⟩ := List.getElem?_eq_some_iff.mp this
        exact ⟨h4, List.mem_of_getElem? this⟩
      obtain ⟨d1, d2, d3⟩ := mem_loopCells.mp hcm
      obtain ⟨L, A, e1, e2, e3⟩ := hD c d1 d2 d3
      unfold domainStep
      rw [e1, Outcome.ok_bind, e2, Outcome.ok_bind]
      by_cases hL : L = []
      · subst hL
        exact ⟨(S1, temp), rfl, h1, h2, h3⟩
      · rw [if_neg (by simpa using hL)]
        obtain ⟨accs, a1, a2, a3⟩ := accumulations_total (m := n / S1.numDomains) S1.env.samplers 0 h1.usable
        obtain ⟨last, b1, -, -, b4⟩ := a3 h1.groups
        have htid' : tid < S1.mts.length := by
          rw [h2.mts]
          rw [loopCells_length, ← h.product] at htid
          exact lt_of_lt_of_le htid h.engines
        have hz : zeros.length = S1.env.samplers.length := by
          rw [← h1.counters, h2.counters]
          exact List.length_replicate ..
        have key : ∃ S2 cs2, Rampack.iterate (Sim.tryMove T L accs tid (some A.isInside)) last (S1, zeros) = .ok (S2, cs2) ∧
            Live T n S2 ∧ cs2.length = zeros.length ∧ SameShape S1 S2 := by
          rcases Nat.eq_zero_or_pos last with h0 | h0
          · subst h0
            exact ⟨S1, zeros, rfl, h1, rfl, .refl S1⟩
          · obtain ⟨S2, cs2, e4, f1, f2, f3, f4, f5, f6, f7, f8⟩ := Live.iterate (some A.isInside) last h1
              (idxs := L) (accs := accs) (tid := tid) (cs := zeros) ⟨hL, e3, ⟨last, b1, h0, b4⟩, a2, hz, htid'⟩
            exact ⟨S2, cs2, e4, f1, by rw [f2.counters, f6, hz], f3, f4, f5, f6, f7, f8⟩
        obtain ⟨S2, cs2, e4, f1, f2, f3⟩ := key
        have hcs : cs2.length = S.counters.length := by rw [f2]; exact List.length_replicate ..
        refine ⟨(S2, List.zipWith Counter.add temp cs2), ?_, f1, h2.trans f3, ?_⟩
        · unfold domainMoves
          simp only
          rw [getMoveSamplers_total h1.groups, Outcome.ok_bind, h1.proper.1.size, a1, Outcome.ok_bind, vback_total b1, Outcome.ok_bind, e4,
            Outcome.ok_bind]
          simp only
          unfold accumulateCounters
          rw [if_pos (by omega)]
          rfl
        · simp only
          rw [List.length_zipWith, h3, hcs, Nat.min_self])
    (S, zeros) ⟨h, .refl S, List.length_replicate ..⟩
  refine ⟨{ S' with counters := List.zipWith Counter.add S'.counters temp }, ?_, hl.counters_only ?_⟩
  · unfold Sim.domainLoop
    simp only
    rw [e, Outcome.ok_bind]
    simp only
    unfold accumulateCounters
    rw [if_pos (by rw [hs.counters]; exact ht.symm.le)]
    rfl
  · rw [List.length_zipWith]
    simp only at ht hs
    rw [ht, hs.counters, Nat.min_self]

/-- An engine is moved on. -/
theorem Live.tape {T : Traits} {n : Nat} {S : Sim} {t : Tape} (h : Live T n S) (ht : S.mts[0]? = some t) :
    Live T n { S with mts := S.mts.set 0 (t.drop 3) } where
  proper := (proper_kept T n).tape h.proper ht
  molecules := h.molecules
  groups := h.groups
  usable := h.usable
  counters := h.counters
  cancel := h.cancel
  fair := mem_set_fair h.fair (Fair.drop (h.fair t (List.mem_of_getElem? ht)) 3)
  scaler := h.scaler
  temperature := h.temperature
  pressure := h.pressure
  product := h.product
  domains := h.domains
  engines := by
    show S.numDomains ≤ (S.mts.set 0 _).length
    rw [List.length_set]
    exact h.engines
  narrow := h.narrow

/-- The number of domains is reduced. -/
theorem Live.reduce {T : Traits} {n : Nat} {S : Sim} {d : Vec3 Nat} (h : Live T n S) (hle : ∀ a, d.get a ≤ S.divs.get a)
    (hpos : ∀ a, 0 < d.get a) : Live T n { S with divs := d, numDomains := d.x * d.y * d.z } := by
  have e : d.x * d.y * d.z ≤ S.numDomains := by
    rw [h.product]
    exact Nat.mul_le_mul (Nat.mul_le_mul (hle 0) (hle 1)) (hle 2)
  have p : 0 < d.x * d.y * d.z := Nat.mul_pos (Nat.mul_pos (hpos 0) (hpos 1)) (hpos 2)
  refine ⟨(proper_kept T n).core h.proper ⟨rfl, rfl, rfl, rfl, rfl, rfl, rfl, rfl⟩, h.molecules, h.groups, fun s hs => ?_, h.counters, h.cancel,
    h.fair, h.scaler, h.temperature, h.pressure, rfl, p, e.trans h.engines, ?_⟩
  · exact Usable.mono (h.usable s hs) (Nat.div_le_div_left e p)
  · rcases h.narrow with h1 | ⟨h1, h2, h3, h4⟩
    · left
      show d.x * d.y * d.z = 1
      omega
    · exact Or.inr ⟨h1, h2, h3, fun a => lt_of_le_of_lt (hle a) (h4 a)⟩

theorem lowerDivs_total {d : Vec3 Nat} {a : Fin 3} (h : 2 ≤ d.get a) : ∃ d', lowerDivs d a = .ok d' ∧ (∀ c, d'.get c ≤ d.get c) ∧
    (∀ c, 0 < d.get c → 0 < d'.get c) ∧ d'.x + d'.y + d'.z + 1 = d.x + d.y + d.z := by
  fin_cases a
  · have h' : 2 ≤ d.x := h
    refine ⟨{ d with x := d.x - 1 }, ?_, ?_, ?_, ?_⟩
    · show lowerDivs d 0 = _
      simp only [lowerDivs]
      rw [if_neg (by omega)]
    · rw [Domain.forall_axis]; exact ⟨Nat.sub_le _ _, le_rfl, le_rfl⟩
    · rw [Domain.forall_axis]; exact ⟨fun _ => by show 0 < d.x - 1; omega, id, id⟩
    · simp only; omega
  · have h' : 2 ≤ d.y := h
    refine ⟨{ d with y := d.y - 1 }, ?_, ?_, ?_, ?_⟩
    · show lowerDivs d 1 = _
      simp only [lowerDivs]
      rw [if_neg (by omega)]
    · rw [Domain.forall_axis]; exact ⟨le_rfl, Nat.sub_le _ _, le_rfl⟩
    · rw [Domain.forall_axis]; exact ⟨id, fun _ => by show 0 < d.y - 1; omega, id⟩
    · simp only; omega
  · have h' : 2 ≤ d.z := h
    refine ⟨{ d with z := d.z - 1 }, ?_, ?_, ?_, ?_⟩
    · show lowerDivs d 2 = _
      simp only [lowerDivs]
      rw [if_neg (by omega)]
    · rw [Domain.forall_axis]; exact ⟨le_rfl, le_rfl, Nat.sub_le _ _⟩
    · rw [Domain.forall_axis]; exact ⟨id, id, fun _ => by show 0 < d.z - 1; omega⟩
    · simp only; omega

theorem Live.divs_pos {T : Traits} {n : Nat} {S : Sim} (h : Live T n S) : ∀ a, 0 < S.divs.get a := by
  have h1 := h.domains
  rw [h.product] at h1
  rw [Domain.forall_axis]
  refine ⟨?_, ?_, ?_⟩ <;> refine Nat.pos_of_ne_zero fun e => ?_
  · simp [Vec3.get] at e; rw [e] at h1; simp at h1
  · simp [Vec3.get] at e; rw [e] at h1; simp at h1
  · simp [Vec3.get] at e; rw [e] at h1; simp at h1

/-- An attempt of a sweep completes or meets a too narrow domain. -/
theorem Live.attempt {T : Traits} {n : Nat} {S : Sim} (h : Live T n S) :
    (∃ S', S.attempt T = .ok (.done S') ∧ Live T n S') ∨
      ∃ (a : Fin 3) (S' : Sim), S.attempt T = .ok (.tooNarrow a S') ∧ Live T n S' ∧ S'.divs = S.divs ∧ 2 ≤ S.divs.get a := by
  unfold Sim.attempt
  by_cases h1 : S.numDomains = 1
  · obtain ⟨S', e, h2⟩ := h.sweep
    rw [if_pos h1, e]
    exact Or.inl ⟨S', rfl, h2⟩
  · rw [if_neg h1]
    obtain ⟨hng, hen, hT, h63⟩ := h.narrow.resolve_left h1
    have hpos : 0 < S.mts.length := lt_of_lt_of_le h.domains h.engines
    have ht := List.getElem?_eq_getElem hpos
    have htm := List.getElem_mem hpos
    obtain ⟨hb, hin, hsz⟩ := Domain.reachable_box h.proper.1.reach
    obtain ⟨g, hg⟩ := Option.isSome_iff_exists.mp hng
    obtain ⟨g1, g2, -⟩ := Domain.own_grid h.proper.1.reach hg
    have hl := h.tape ht
    have htp := h.proper.1.tapes _ htm
    generalize S.mts[0] = t at ht hl htp htm
    have ho : Inside S.P.box (S.P.box.relToAbs ⟨t 0, t 1, t 2⟩) := by
      rw [Box.inside_iff hb, Box.absToRel_relToAbs hb]
      have h0 := htp 0
      have h1 := htp 1
      have h2 := htp 2
      exact ⟨⟨h0.1.le, h0.2⟩, ⟨h1.1.le, h1.2⟩, h2.1.le, h2.2⟩
    unfold sweepDomains
    rw [vget_eq_ok.mpr ht, Outcome.ok_bind]
    simp only
    unfold Packing.gridDivisions
    rw [hg]
    simp only [Outcome.ok_bind]
    rcases Domain.decompose_total hb hT.1 ho h.divs_pos g1 g2 h63 hin hsz with ⟨a, e, ⟨h2, -⟩, -⟩ | ⟨D, e, -⟩
    · rw [e]
      exact Or.inr ⟨a, _, rfl, hl, rfl, h2⟩
    · rw [e, Outcome.ok_bind]
      unfold afterDecompose
      obtain ⟨hmol, -⟩ := C21_molecules h.proper.1.reach hT ⟨h63 0, h63 1, h63 2⟩ e
      obtain ⟨S', e2, h3⟩ := hl.domainLoop (D := D) (by
        intro c c1 c2 c3
        obtain ⟨L, A, d1, d2, -, d4⟩ := hmol c c1 c2 c3
        refine ⟨L, A, d1, d2, fun i hi => ?_⟩
        have := Domain.region_lt e d1 i hi
        rwa [h.proper.1.size] at this)
      simp only
      rw [e2]
      exact Or.inl ⟨S', rfl, h3⟩

theorem Live.movesLoop {T : Traits} {n : Nat} : ∀ (fuel : Nat) {S : Sim}, Live T n S → S.divs.x + S.divs.y + S.divs.z < fuel →
    ∃ S', Sim.movesLoop T fuel S = .ok S' ∧ Live T n S'
  | 0, S, _, hf => by omega
  | fuel + 1, S, h, hf => by
    simp only [Sim.movesLoop]
    rcases h.attempt with ⟨S', e, h1⟩ | ⟨a, S', e, h1, h2, h3⟩
    · rw [e]
      exact ⟨S', rfl, h1⟩
    · rw [e]
      simp only [Outcome.ok_bind]
      obtain ⟨d, f1, f2, f3, f4⟩ := lowerDivs_total h3
      obtain ⟨S2, e2, h4⟩ := Live.movesLoop fuel (S := { S' with divs := d, numDomains := d.x * d.y * d.z })
        (h1.reduce (by rw [h2]; exact f2) (fun a => f3 a (h.divs_pos a))) (by simp only; omega)
      refine ⟨S2, ?_, h4⟩
      unfold reduceDomains
      rw [h2, f1]
      exact e2

/-- The moves of a cycle complete. -/
theorem Live.performMoves {T : Traits} {n : Nat} {S : Sim} (h : Live T n S) : ∃ S', S.performMoves T = .ok S' ∧ Live T n S' :=
  Live.movesLoop _ h (Nat.lt_succ_self _)

end Sim

end Rampack
