import Verif.Observables.BuilderLemmas
/-
C44: histograms are built the same way for all splits of work between threads.
-/
namespace Rampack

open Spec Histogram HistogramBuilder

/-- C44: after any legal calls, the value of a bin is the sum over snapshots of what fell into it in the snapshot (times the factor for the bin, if bins were renormalised in that snapshot), divided by the number of
snapshots, or by the number of values (and is not a number if there were none). The count is the number of values. -/
theorem C44_build {spec : List (ℝ × ℝ × Nat)} (hs : ∀ a ∈ spec, a.2.2 < 2 ^ 64) {threads : Nat} {B : HistogramBuilder} (h : HistogramBuilder.create spec threads 0 = .ok B) {hist : List HistSnapshot}
    (hl : LegalHist spec threads B.histogram.bins.length hist) :
    ∃ B' sums averages, runHist B hist = .ok B' ∧ B'.dumpHistogram .sum = .ok sums ∧ B'.dumpHistogram .average = .ok averages ∧
      sums.length = B.histogram.bins.length ∧ averages.length = B.histogram.bins.length ∧
      (hist = [] → (∀ b ∈ sums, b = (.num 0, 0)) ∧ ∀ b ∈ averages, b = (.num 0, 0)) ∧
      (hist ≠ [] → ∀ idx k, ProperIndex spec idx → B.histogram.atIndex idx = .ok k →
        sums[k]? = some (.num ((hist.map fun s => snapshotSum spec idx s * factorOf s k).sum / hist.length), (hist.map (snapshotCount spec idx)).sum) ∧
        averages[k]? = some (if (hist.map (snapshotCount spec idx)).sum = 0 then .undefined
          else .num ((hist.map fun s => snapshotSum spec idx s * factorOf s k).sum / (hist.map (snapshotCount spec idx)).sum), (hist.map (snapshotCount spec idx)).sum)) := by
  obtain ⟨H, hH, h0, st⟩ := create_st h
  rw [st.alike.len] at hl
  obtain ⟨B', e, st'⟩ := run_ok hs hH h0 st hl
  have hat : ∀ idx, B.histogram.atIndex idx = H.atIndex idx := fun idx => by unfold atIndex flattenIndex; rw [st.alike.axes]
  have hcr : Histogram.create B'.spec B'.init = .ok H := by rw [st'.spec, st'.init]; exact hH
  have hsnap : B'.numSnapshots = hist.length := by rw [st'.snaps, Nat.zero_add]
  by_cases hn : hist = []
  · subst hn
    have hz : ∀ b ∈ H.bins.map fun b => (BinQuotient.num b.1, b.2), b = (.num 0, 0) := by
      intro b hb
      obtain ⟨c, hc, rfl⟩ := List.mem_map.mp hb
      obtain ⟨-, rfl⟩ := create_ok hH
      rw [List.eq_of_mem_replicate hc]
    refine ⟨B', H.bins.map fun b => (.num b.1, b.2), H.bins.map fun b => (.num b.1, b.2), e, ?_, ?_, by rw [List.length_map, st.alike.len], by rw [List.length_map, st.alike.len],
      fun _ => ⟨hz, hz⟩, fun h => absurd rfl h⟩
    all_goals
      unfold dumpHistogram
      rw [hcr, Outcome.ok_bind, if_pos (by rw [hsnap]; rfl)]
      rfl
  · have hpos : hist.length ≠ 0 := fun hz => hn (List.length_eq_zero_iff.mp hz)
    refine ⟨B', B'.histogram.bins.map fun b => (divide b.1 B'.numSnapshots, b.2), B'.histogram.bins.map fun b => (divide b.1 b.2, b.2), e, ?_, ?_,
      by rw [List.length_map, st.alike.len, st'.alike.len], by rw [List.length_map, st.alike.len, st'.alike.len], fun h => absurd h hn, fun _ idx k hi hk => ?_⟩
    · unfold dumpHistogram
      rw [hcr, Outcome.ok_bind, if_neg (by rw [hsnap]; exact hpos)]
      rfl
    · unfold dumpHistogram
      rw [hcr, Outcome.ok_bind, if_neg (by rw [hsnap]; exact hpos)]
      rfl
    · rw [hat] at hk
      obtain ⟨k', e1, hk1, -⟩ := (C43_index hH).1 idx hi
      rw [hk] at e1
      obtain rfl := Outcome.ok_inj.mp e1
      obtain ⟨i0, -, -, u⟩ := (C43_index hH).2.1 k hk1
      obtain ⟨i1, i2⟩ := idxOf_ok hH hk1
      have hidx : idxOf H k = idx := by rw [u _ i1 i2, u _ hi hk]
      have hb := st'.tot k hk1
      simp only [zero_add] at hb
      rw [hidx] at hb
      have hk2 : k < B'.histogram.bins.length := by rw [st'.alike.len]; exact hk1
      have hb' : B'.histogram.bins[k]? = some (totals spec idx k hist) := by
        rw [← hb, List.getElem?_eq_getElem hk2]
        unfold binAt
        rw [List.getD_eq_getElem?_getD, List.getElem?_eq_getElem hk2]
        rfl
      rw [List.getElem?_map, List.getElem?_map, hb', hsnap]
      constructor
      · unfold divide totals
        rw [Option.map_some, if_neg hpos]
      · unfold divide totals
        rfl

/-- C44: how values are split between threads, the number of threads and the order of values within a snapshot do not matter. -/
theorem C44_threads {spec : List (ℝ × ℝ × Nat)} (hs : ∀ a ∈ spec, a.2.2 < 2 ^ 64) {threads threads' : Nat} {B B' : HistogramBuilder} (h : HistogramBuilder.create spec threads 0 = .ok B)
    (h' : HistogramBuilder.create spec threads' 0 = .ok B') {hist hist' : List HistSnapshot} (hl : LegalHist spec threads B.histogram.bins.length hist)
    (hl' : LegalHist spec threads' B'.histogram.bins.length hist')
    (same : List.Forall₂ (fun s s' : HistSnapshot => s.factors = s'.factors ∧ (s.samples.map fun x => (x.pos, x.value)).Perm (s'.samples.map fun x => (x.pos, x.value))) hist hist') (method : Reduction) :
    ∃ C C' out, runHist B hist = .ok C ∧ runHist B' hist' = .ok C' ∧ C.dumpHistogram method = .ok out ∧ C'.dumpHistogram method = .ok out := by
  obtain ⟨H, hH, h0, st⟩ := create_st h
  obtain ⟨H', hH', -, st'⟩ := create_st h'
  obtain rfl : H = H' := Outcome.ok_inj.mp (hH.symm.trans hH')
  rw [st.alike.len] at hl
  rw [st'.alike.len] at hl'
  obtain ⟨C, e, sC⟩ := run_ok hs hH h0 st hl
  obtain ⟨C', e', sC'⟩ := run_ok hs hH h0 st' hl'
  have hc : Histogram.create C.spec C.init = .ok H := by rw [sC.spec, sC.init]; exact hH
  have hc' : Histogram.create C'.spec C'.init = .ok H := by rw [sC'.spec, sC'.init]; exact hH
  have hlen := same.length_eq
  have hn : C'.numSnapshots = C.numSnapshots := by rw [sC'.snaps, sC.snaps, hlen]
  have htot : ∀ idx k, totals spec idx k hist = totals spec idx k hist' := by
    intro idx k
    clear hl hl' sC sC' e e' hlen
    unfold totals
    induction same with
    | nil => rfl
    | @cons s s' l l' h1 h2 ih =>
      have hsum : (snapshotSum spec idx s, snapshotCount spec idx s) = (snapshotSum spec idx s', snapshotCount spec idx s') := by
        rw [← contrib_sum, ← contrib_sum]
        have e : ∀ l : List Sample, l.map (contrib spec idx) = (l.map fun x => (x.pos, x.value)).map fun y => contrib spec idx ⟨0, y.1, y.2⟩ := by
          intro l
          rw [List.map_map]
          rfl
        rw [e, e]
        exact (h1.2.map _).sum_eq
      have hf : factorOf s k = factorOf s' k := by unfold factorOf; rw [h1.1]
      obtain ⟨a, b⟩ := Prod.mk.inj hsum
      obtain ⟨c, d⟩ := Prod.mk.inj ih
      simp only [List.map_cons, List.sum_cons]
      rw [a, b, hf, c, d]
  have hbins : C'.histogram.bins = C.histogram.bins := by
    apply List.ext_getElem
    · rw [sC'.alike.len, sC.alike.len]
    · intro k hk hk'
      have e1 := sC.tot k (by rw [← sC.alike.len]; exact hk')
      have e2 := sC'.tot k (by rw [← sC.alike.len]; exact hk')
      unfold binAt at e1 e2
      rw [List.getD_eq_getElem?_getD, List.getElem?_eq_getElem hk', Option.getD_some] at e1
      rw [List.getD_eq_getElem?_getD, List.getElem?_eq_getElem hk, Option.getD_some] at e2
      rw [e1, e2, htot]
  have hout : C'.dumpHistogram method = C.dumpHistogram method := by
    unfold dumpHistogram
    rw [hc, hc', hn, hbins]
  have : ∃ out, C.dumpHistogram method = .ok out := by
    unfold dumpHistogram
    rw [hc, Outcome.ok_bind]
    by_cases hz : C.numSnapshots = 0
    · rw [if_pos hz]; exact ⟨_, rfl⟩
    · rw [if_neg hz]
      cases method <;> exact ⟨_, rfl⟩
  obtain ⟨out, ho⟩ := this
  exact ⟨C, C', out, e, e', ho, by rw [hout, ho]⟩

/-- C44: clearing gives a new builder. -/
theorem C44_clear {spec : List (ℝ × ℝ × Nat)} (hs : ∀ a ∈ spec, a.2.2 < 2 ^ 64) {threads : Nat} {B : HistogramBuilder} (h : HistogramBuilder.create spec threads 0 = .ok B) {hist : List HistSnapshot}
    (hl : LegalHist spec threads B.histogram.bins.length hist) : ∃ B', runHist B hist = .ok B' ∧ B'.clear = B := by
  obtain ⟨H, hH, h0, st⟩ := create_st h
  rw [st.alike.len] at hl
  obtain ⟨B', e, s⟩ := run_ok hs hH h0 st hl
  refine ⟨B', e, ?_⟩
  unfold HistogramBuilder.create at h
  rw [hH, Outcome.ok_bind] at h
  obtain rfl := Outcome.ok_inj.mp h
  have hclear : ∀ C, Alike H C → C.clear = H := by
    intro C hC
    obtain ⟨-, rfl⟩ := create_ok hH
    obtain ⟨ax, bins, init⟩ := C
    obtain ⟨h1, h2, h3⟩ := hC
    simp only at h1 h2 h3
    subst h1 h3
    unfold Histogram.clear
    simp only
    rw [List.map_const', h2, List.length_replicate]
  obtain ⟨a1, a2, a3, a4, a5⟩ := B'
  unfold HistogramBuilder.clear
  simp only
  have hb1 := s.spec
  have hb2 := s.init
  have hb3 := hclear _ s.alike
  have hb4 := s.len
  have hb5 := s.alikes
  simp only at hb1 hb2 hb3 hb4 hb5
  have hb6 : a3.map Histogram.clear = List.replicate threads H := by
    apply List.eq_replicate_iff.mpr
    refine ⟨by rw [List.length_map, hb4], fun C hC => ?_⟩
    obtain ⟨D, hD, rfl⟩ := List.mem_map.mp hC
    exact hclear D (hb5 D hD)
  subst hb1 hb2
  rw [hb3, hb6]

/-- C44: a wrong thread or position is refused. -/
theorem C44_refused {spec : List (ℝ × ℝ × Nat)} (hs : ∀ a ∈ spec, a.2.2 < 2 ^ 64) {threads : Nat} {B : HistogramBuilder} (h : HistogramBuilder.create spec threads 0 = .ok B) {hist : List HistSnapshot}
    (hl : LegalHist spec threads B.histogram.bins.length hist) {B' : HistogramBuilder} (hr : runHist B hist = .ok B') (t : Nat) (pos : List ℝ) (hp : pos.length = spec.length) (v : ℝ) :
    (threads ≤ t ∨ ¬ WithinRanges spec pos) ↔ ∃ msg, B'.add t pos v = .throw msg := by
  obtain ⟨H, hH, h0, st⟩ := create_st h
  rw [st.alike.len] at hl
  obtain ⟨B1, e, s⟩ := run_ok hs hH h0 st hl
  rw [hr] at e
  obtain rfl := Outcome.ok_inj.mp e
  constructor
  · intro hbad
    unfold HistogramBuilder.add
    by_cases ht : t < threads
    · have ht' : t < B'.current.length := by rw [s.len]; exact ht
      rw [decide_eq_true ht', Outcome.require_true, Outcome.ok_bind, vget_ok ht', Outcome.ok_bind, atPos_congr (s.alikes _ (List.getElem_mem ht'))]
      obtain ⟨⟨msg, hm⟩, -⟩ := (C43_position hs hH hp).2 (by
        rcases hbad with hb | hb
        · omega
        · exact hb)
      exact ⟨msg, by rw [hm]; rfl⟩
    · rw [decide_eq_false (by rw [s.len]; exact ht)]
      exact ⟨_, rfl⟩
  · rintro ⟨msg, hm⟩
    by_contra hc
    push Not at hc
    obtain ⟨idx, b, c1, c2, c3, c4, c5⟩ := (C43_position hs hH hp).1 hc.2
    obtain ⟨B1, e1, -⟩ := add_ok s hc.1 c4 c5 v
    rw [e1] at hm
    cases hm

/-- C44 fails for an initial value different from zero: it is added in each snapshot by each thread, so the result depends on the number of threads. -/
theorem C44_initial_violated : ∃ (B C : HistogramBuilder) (B' C' : HistogramBuilder),
    HistogramBuilder.create [(0, 1, 1)] 1 1 = .ok B ∧ HistogramBuilder.create [(0, 1, 1)] 2 1 = .ok C ∧
    runHist B [⟨[], none⟩] = .ok B' ∧ runHist C [⟨[], none⟩] = .ok C' ∧
    B'.dumpHistogram .sum = .ok [(.num 2, 0)] ∧ C'.dumpHistogram .sum = .ok [(.num 3, 0)] := by
  have hcr : Histogram.create [(0, 1, 1)] 1 = .ok ⟨[⟨0, 1, 1, 1⟩], [(1, 0)], 1⟩ := by
    unfold Histogram.create
    simp [Outcome.require]
  obtain ⟨H, hH⟩ : ∃ H : Histogram, H = ⟨[⟨0, 1, 1, 1⟩], [(1, 0)], 1⟩ := ⟨_, rfl⟩
  rw [← hH] at hcr
  refine ⟨⟨0, H, [H], 1, [(0, 1, 1)]⟩, ⟨0, H, [H, H], 1, [(0, 1, 1)]⟩, ⟨1, { H with bins := [(1 + 1, 0 + 0)] }, [H], 1, [(0, 1, 1)]⟩,
    ⟨1, { H with bins := [(1 + 1 + 1, 0 + 0 + 0)] }, [H, H], 1, [(0, 1, 1)]⟩, ?_, ?_, ?_, ?_, ?_, ?_⟩
  · unfold HistogramBuilder.create
    rw [hcr]
    rfl
  · unfold HistogramBuilder.create
    rw [hcr]
    rfl
  · subst hH
    rfl
  · subst hH
    rfl
  · unfold dumpHistogram
    rw [hcr, Outcome.ok_bind, if_neg (by simp)]
    simp [divide]
    norm_num
  · unfold dumpHistogram
    rw [hcr, Outcome.ok_bind, if_neg (by simp)]
    simp [divide]
    norm_num

/-- Non-vacuity: two snapshots with values given by two threads, the second of them with factors. The sums in the bin `[0, 1/2)` are 3 and 4. -/
example : ∃ B, HistogramBuilder.create [(0, 1, 2)] 2 0 = .ok B ∧ LegalHist [(0, 1, 2)] 2 B.histogram.bins.length
    [⟨[⟨0, [1 / 4], 1⟩, ⟨1, [1 / 3], 2⟩, ⟨1, [3 / 4], 5⟩], none⟩, ⟨[⟨1, [0], 4⟩], some [2, 3]⟩] := by
  have hcr : Histogram.create [(0, 1, 2)] 0 = .ok ⟨[⟨0, 1, 1 / 2, 2⟩], [(0, 0), (0, 0)], 0⟩ := by
    unfold Histogram.create
    simp [Outcome.require, List.replicate]
  obtain ⟨H, hH⟩ : ∃ H : Histogram, H = ⟨[⟨0, 1, 1 / 2, 2⟩], [(0, 0), (0, 0)], 0⟩ := ⟨_, rfl⟩
  rw [← hH] at hcr
  refine ⟨⟨0, H, [H, H], 0, [(0, 1, 2)]⟩, ?_, ?_⟩
  · unfold HistogramBuilder.create
    rw [hcr]
    rfl
  · have w : ∀ x : ℝ, 0 ≤ x → x ≤ 1 → WithinRanges [(0, 1, 2)] [x] := by
      intro x h1 h2
      rw [withinRanges_cons]
      refine ⟨⟨h1, h2⟩, ?_⟩
      intro i a y ha
      simp at ha
    intro s hs
    simp only [List.mem_cons, List.not_mem_nil, or_false] at hs
    rcases hs with rfl | rfl
    · refine ⟨?_, by simp⟩
      intro x hx
      simp only [List.mem_cons, List.not_mem_nil, or_false] at hx
      rcases hx with rfl | rfl | rfl
      all_goals exact ⟨by simp, rfl, w _ (by norm_num) (by norm_num)⟩
    · refine ⟨?_, by simp [hH]⟩
      intro x hx
      simp only [List.mem_cons, List.not_mem_nil, or_false] at hx
      subst hx
      exact ⟨by simp, rfl, w _ (by norm_num) (by norm_num)⟩

end Rampack
