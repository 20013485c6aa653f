import Verif.Observables.CorrelationSpec
import Verif.Observables.BuilderProps
import Verif.Observables.BondValue
/-
Theorems on correlations of pairs (C94, C95).
-/
namespace Rampack

open Spec

/-! ### From pairs to histograms -/

/-- Values added in the given calls. -/
def samplesOf (so : PairItem → Option (List ℝ × ℝ)) (calls : List (Nat × PairItem)) : List Sample :=
  calls.filterMap fun c => (so c.2).map fun q => ⟨c.1, q.1, q.2⟩

theorem consume_fold {O : PairObservable} {V : View} {G : Geometry} {so : PairItem → Option (List ℝ × ℝ)} : ∀ {calls : List (Nat × PairItem)} {B : HistogramBuilder},
    (∀ c ∈ calls, O.sample V G c.2 = .ok (so c.2)) →
    calls.foldlM (O.consume V G) B = (samplesOf so calls).foldlM (fun (B : HistogramBuilder) x => B.add x.thread x.pos x.value) B
  | [], B, _ => rfl
  | c :: calls, B, h => by
    have ih := fun B => consume_fold (B := B) fun c' h' => h c' (List.mem_cons_of_mem _ h')
    rw [List.foldlM_cons]
    unfold samplesOf PairObservable.consume
    rw [h c List.mem_cons_self, Outcome.ok_bind, List.filterMap_cons]
    cases hs : so c.2 with
    | none =>
      simp only [PairObservable.addSample, Option.map_none]
      rw [Outcome.ok_bind]
      exact ih B
    | some q =>
      simp only [PairObservable.addSample, Option.map_some, List.foldlM_cons]
      congr 1
      funext B
      exact ih B

theorem builder_add_histogram {B B' : HistogramBuilder} {t : Nat} {pos : List ℝ} {v : ℝ} (h : B.add t pos v = .ok B') : B'.histogram = B.histogram := by
  unfold HistogramBuilder.add at h
  obtain ⟨_, -, h⟩ := Outcome.bind_eq_ok.mp h
  obtain ⟨_, -, h⟩ := Outcome.bind_eq_ok.mp h
  obtain ⟨_, -, h⟩ := Outcome.bind_eq_ok.mp h
  obtain ⟨_, -, h⟩ := Outcome.bind_eq_ok.mp h
  obtain ⟨_, -, h⟩ := Outcome.bind_eq_ok.mp h
  obtain ⟨_, -, h⟩ := Outcome.bind_eq_ok.mp h
  injection h with h
  rw [← h]

theorem builder_adds_histogram : ∀ {l : List Sample} {B B' : HistogramBuilder}, l.foldlM (fun (B : HistogramBuilder) x => B.add x.thread x.pos x.value) B = .ok B' →
    B'.histogram = B.histogram
  | [], B, B', h => by injection h with h; rw [h]
  | x :: l, B, B', h => by
    rw [List.foldlM_cons] at h
    obtain ⟨B1, h1, h2⟩ := Outcome.bind_eq_ok.mp h
    rw [builder_adds_histogram h2, builder_add_histogram h1]

theorem sumCurrent_axes : ∀ {l : List Histogram} {H H' : Histogram}, HistogramBuilder.sumCurrent H l = .ok H' → H'.axes = H.axes
  | [], H, H', h => by injection h with h; rw [h]
  | C :: l, H, H', h => by
    rw [HistogramBuilder.sumCurrent] at h
    obtain ⟨H1, h1, h2⟩ := Outcome.bind_eq_ok.mp h
    unfold Histogram.add at h1
    obtain ⟨_, -, h1⟩ := Outcome.bind_eq_ok.mp h1
    injection h1 with h1
    rw [sumCurrent_axes h2, ← h1]

theorem nextSnapshot_axes {B B' : HistogramBuilder} (h : B.nextSnapshot = .ok B') : B'.histogram.axes = B.histogram.axes := by
  unfold HistogramBuilder.nextSnapshot at h
  obtain ⟨H, h1, h⟩ := Outcome.bind_eq_ok.mp h
  injection h with h
  rw [← h]
  exact sumCurrent_axes h1

theorem runSnapshot_axes {B B' : HistogramBuilder} {s : HistSnapshot} (h : runSnapshot B s = .ok B') : B'.histogram.axes = B.histogram.axes := by
  unfold runSnapshot at h
  obtain ⟨B1, h1, h⟩ := Outcome.bind_eq_ok.mp h
  have e := builder_adds_histogram h1
  cases hf : s.factors with
  | none =>
    rw [hf] at h
    rw [nextSnapshot_axes h, e]
  | some f =>
    rw [hf] at h
    simp only [] at h
    obtain ⟨B2, h2, h⟩ := Outcome.bind_eq_ok.mp h
    unfold HistogramBuilder.renormalizeBins at h2
    obtain ⟨_, -, h2⟩ := Outcome.bind_eq_ok.mp h2
    injection h2 with h2
    rw [nextSnapshot_axes h, ← h2, e]

/-- One snapshot, in terms of calls of the builder. -/
theorem snapshot_run {O : PairObservable} {E : PairEnumerator} {G : Geometry} {V : View} {so : PairItem → Option (List ℝ × ℝ)} {calls : List (Nat × PairItem)} {f : Option (List ℝ)}
    {B : HistogramBuilder} (h : ∀ c ∈ calls, O.sample V G c.2 = .ok (so c.2)) (hf : ∀ B' : HistogramBuilder, B'.histogram = B.histogram → O.factors E V B' = .ok f) :
    O.addSnapshot E V G calls B = runSnapshot B ⟨samplesOf so calls, f⟩ := by
  unfold PairObservable.addSnapshot runSnapshot
  simp only []
  rw [consume_fold h]
  cases hB : (samplesOf so calls).foldlM (fun (B : HistogramBuilder) x => B.add x.thread x.pos x.value) B with
  | ok B' =>
    rw [Outcome.ok_bind, Outcome.ok_bind, hf B' (builder_adds_histogram hB), Outcome.ok_bind]
    cases f <;> rfl
  | throw m => rfl
  | ub => rfl
  | diverge => rfl

/-- All snapshots, in terms of calls of the builder. -/
theorem snapshots_run {O : PairObservable} {E : PairEnumerator} {G : Geometry} {so : View → PairItem → Option (List ℝ × ℝ)} {f : View → Option (List ℝ)} {axes : List HAxis} :
    ∀ {runs : List PairRun} {B : HistogramBuilder}, B.histogram.axes = axes → (∀ r ∈ runs, ∀ c ∈ r.calls, O.sample r.V G c.2 = .ok (so r.V c.2)) →
    (∀ r ∈ runs, ∀ B' : HistogramBuilder, B'.histogram.axes = axes → O.factors E r.V B' = .ok (f r.V)) →
    runPairs O E G B runs = runHist B (runs.map fun r => ⟨samplesOf (so r.V) r.calls, f r.V⟩)
  | [], B, _, _, _ => rfl
  | r :: runs, B, hB, h, hf => by
    unfold runPairs runHist
    rw [List.foldlM_cons, List.map_cons, List.foldlM_cons, snapshot_run (h r List.mem_cons_self) fun B' e => hf r List.mem_cons_self B' (by rw [e]; exact hB)]
    cases hs : runSnapshot B ⟨samplesOf (so r.V) r.calls, f r.V⟩ with
    | ok B' =>
      rw [Outcome.ok_bind, Outcome.ok_bind]
      exact snapshots_run (by rw [runSnapshot_axes hs]; exact hB) (fun r' h' => h r' (List.mem_cons_of_mem _ h')) fun r' h' => hf r' (List.mem_cons_of_mem _ h')
    | throw m => rfl
    | ub => rfl
    | diverge => rfl

theorem box1 {a : ℝ × ℝ × Nat} {k : Nat} {x : ℝ} : BoxContains [a] [k] [x] ↔ BinContains a k x := by
  unfold BoxContains
  constructor
  · intro h
    exact h.2 0 a k x rfl rfl rfl
  · intro h
    refine ⟨rfl, fun i a' j x' h1 h2 h3 => ?_⟩
    cases i with
    | zero => simp at h1 h2 h3; subst h1 h2 h3; exact h
    | succ i => simp at h1

theorem within1 {a : ℝ × ℝ × Nat} {x : ℝ} (h : a.1 ≤ x ∧ x ≤ a.2.1) : WithinRanges [a] [x] := by
  intro i a' x' h1 h2
  cases i with
  | zero => simp at h1 h2; subst h1 h2; exact h
  | succ i => simp at h1

theorem index1 {a : ℝ × ℝ × Nat} {init : ℝ} {H : Histogram} (h : Histogram.create [a] init = .ok H) {k : Nat} (hk : k < a.2.2) : ProperIndex [a] [k] ∧ H.atIndex [k] = .ok k ∧
    H.bins.length = a.2.2 := by
  obtain ⟨-, rfl⟩ := Histogram.create_ok h
  refine ⟨⟨rfl, fun i a' j h1 h2 => ?_⟩, ?_, ?_⟩
  · cases i with
    | zero => simp at h1 h2; subst h1 h2; exact hk
    | succ i => simp at h1
  · unfold Histogram.atIndex Histogram.flattenIndex
    simp only [List.map_cons, List.map_nil, List.zip_cons_cons, List.zip_nil_left, List.foldl_cons, List.foldl_nil]
    rw [decide_eq_true (by intro q hq; rw [List.mem_singleton.mp hq]; exact hk), Outcome.require_true, Outcome.ok_bind]
    simp
  · simp [Histogram.binCount, Histogram.axisOf]

/-! ### Pair density -/

theorem differences_range' (g : Nat → ℝ) : ∀ (n s : Nat), PairEnumerator.differences ((List.range' s (n + 1)).map g) = (List.range' s n).map fun k => g (k + 1) - g k
  | 0, s => by simp [PairEnumerator.differences]
  | n + 1, s => by
    have ih := differences_range' g n (s + 1)
    rw [List.range'_succ, List.range'_succ, List.map_cons, List.map_cons, PairEnumerator.differences]
    rw [List.range'_succ, List.map_cons] at ih
    rw [ih, List.range'_succ, List.map_cons]

theorem differences_range (g : Nat → ℝ) (n : Nat) : PairEnumerator.differences ((List.range (n + 1)).map g) = (List.range n).map fun k => g (k + 1) - g k := by
  rw [List.range_eq_range', List.range_eq_range']
  exact differences_range' g n 0

theorem binEdge_mono {a : ℝ × ℝ × Nat} (h : a.1 < a.2.1) {i j : Nat} (hij : i ≤ j) : binEdge a i ≤ binEdge a j := by
  unfold binEdge
  have : (i : ℝ) ≤ j := by exact_mod_cast hij
  have h' : 0 ≤ a.2.1 - a.1 := by linarith
  gcongr

/-- The expected number of molecules between two distances. -/
theorem within_shell (E : PairEnumerator) (V : View) (r1 r2 : ℝ) : linearExcess E * (E.within V r2 - E.within V r1) = shellVolume E V.box r1 r2 * (V.shapes.length / V.box.volume) := by
  cases E <;> simp only [linearExcess, PairEnumerator.within, shellVolume, View.numberDensity, View.volume] <;> ring

/-- **C95** For sorted distances, the numbers used for normalisation are numbers of particles of a uniform system in shells between consecutive distances, except that linear
binning gives a half of it. -/
theorem C95_expected {E : PairEnumerator} {V : View} {g : Nat → ℝ} {n : Nat} (hn : 0 < n) (hg : ∀ i j, i ≤ j → g i ≤ g j) :
    ∃ l, E.expected V ((List.range (n + 1)).map g) = .ok l ∧ l.length = n ∧
      ∀ k, k < n → ∃ x, l[k]? = some x ∧ linearExcess E * x = shellVolume E V.box (g k) (g (k + 1)) * (V.shapes.length / V.box.volume) := by
  unfold PairEnumerator.expected
  rw [decide_eq_true (by rw [List.length_map, List.length_range]; omega), Outcome.require_true, Outcome.ok_bind, decide_eq_true, Outcome.require_true, Outcome.ok_bind,
    List.map_map, differences_range]
  · refine ⟨_, rfl, by simp, fun k hk => ⟨_, ?_, within_shell E V (g k) (g (k + 1))⟩⟩
    rw [List.getElem?_map, List.getElem?_range hk]
    rfl
  · rw [List.pairwise_map]
    exact List.pairwise_lt_range.imp fun h => hg _ _ (le_of_lt h)

open Classical in
/-- What one pair gives to the density. -/
noncomputable def densitySample (maxR : ℝ) (p : PairItem) : Option (List ℝ × ℝ) := if p.i = p.j then none else if p.d.norm > maxR then none else some ([p.d.norm], 1)

theorem density_sample {maxR : ℝ} {n : Nat} {V : View} {G : Geometry} {p : PairItem} : (PairObservable.density maxR n).sample V G p = .ok (densitySample maxR p) := by
  unfold PairObservable.sample densitySample
  simp only []
  split_ifs <;> rfl

/-- Sums over samples, for samples of the same kind for each call. -/
theorem samples_filter {so : PairItem → Option (List ℝ × ℝ)} {P : List ℝ → Prop} [DecidablePred P] {Q : PairItem → Prop} [DecidablePred Q] {v : PairItem → ℝ}
    (h : ∀ p, (Q p → ∃ q, so p = some q ∧ P q.1 ∧ q.2 = v p) ∧ (¬ Q p → ∀ q, so p = some q → ¬ P q.1)) : ∀ calls : List (Nat × PairItem),
    ((samplesOf so calls).filter fun x => P x.pos).map Sample.value = ((calls.map Prod.snd).filter fun p => Q p).map v
  | [] => rfl
  | c :: calls => by
    have ih := samples_filter h calls
    unfold samplesOf at ih ⊢
    rw [List.filterMap_cons, List.map_cons]
    by_cases hq : Q c.2
    · obtain ⟨q, e1, e2, e3⟩ := (h c.2).1 hq
      rw [e1]
      simp only [Option.map_some]
      rw [List.filter_cons, List.filter_cons, if_pos (by simpa using e2), if_pos (by simpa using hq), List.map_cons, List.map_cons, ih, e3]
    · rw [List.filter_cons (x := c.2), if_neg (by simpa using hq), ← ih]
      cases hs : so c.2 with
      | none => rfl
      | some q =>
        simp only [Option.map_some]
        rw [List.filter_cons, if_neg]
        simpa using (h c.2).2 hq q hs

theorem norm_nonneg' (v : Vec3 ℝ) : 0 ≤ v.norm := Real.sqrt_nonneg _

theorem binContains_le {a : ℝ × ℝ × Nat} (ha : a.1 < a.2.1) (hn : 0 < a.2.2) {k : Nat} {x : ℝ} (h : BinContains a k x) : x ≤ a.2.1 := by
  obtain ⟨h1, h2, h3⟩ := h
  have e : binEdge a a.2.2 = a.2.1 := by
    unfold binEdge
    have : (a.2.2 : ℝ) ≠ 0 := by exact_mod_cast hn.ne'
    field_simp
    ring
  have := binEdge_mono ha (show k + 1 ≤ a.2.2 from h1)
  rw [e] at this
  rcases h3 with h3 | h3
  · exact h3.le.trans this
  · rw [h3.2]; exact this

theorem norm_pos' {v : Vec3 ℝ} (h : v.norm2 ≠ 0) : 0 < v.norm :=
  Real.sqrt_pos.mpr (lt_of_le_of_ne (add_nonneg (add_nonneg (mul_self_nonneg _) (mul_self_nonneg _)) (mul_self_nonneg _)) (Ne.symm h))

/-- Shells have positive volumes. -/
theorem shell_pos {E : PairEnumerator} (hE : E.Accepted) {b : Box} (hb : b.WF) {r1 r2 : ℝ} (h0 : 0 ≤ r1) (h : r1 < r2) : 0 < shellVolume E b r1 r2 := by
  have hp := Real.pi_pos
  cases E with
  | radial f =>
    have : r1 ^ 3 < r2 ^ 3 := pow_lt_pow_left₀ h h0 (by norm_num)
    simp only [shellVolume]
    have h1 : 0 < r2 ^ 3 - r1 ^ 3 := by linarith
    positivity
  | layerwise hkl f =>
    have : r1 ^ 2 < r2 ^ 2 := pow_lt_pow_left₀ h h0 (by norm_num)
    simp only [shellVolume]
    have h1 : 0 < r2 ^ 2 - r1 ^ 2 := by linarith
    have h2 : 0 < (BondOrder.kVector b hkl).norm := norm_pos' (kVector_of hb hE).2
    positivity
  | linear axis f =>
    simp only [shellVolume]
    have h1 : 0 < r2 - r1 := by linarith
    have h2 : 0 < b.volume := Box.volume_pos hb
    have h3 : 0 < b.heights.get axis := by
      obtain ⟨x, y, z⟩ := Box.heights_pos hb
      fin_cases axis
      · exact x
      · exact y
      · exact z
    positivity

open Classical in
/-- **C95** After any number of snapshots, whatever the number of threads and the order of calls, the pair density printed for a bin is the average over snapshots of the density of
pairs of different particles in this bin compared to the one of a uniform system; for linear binning it is twice as much. -/
theorem C95_density {E : PairEnumerator} (hE : E.Accepted) {G : Geometry} {maxR : ℝ} {n threads : Nat} (hn : n < 2 ^ 64) {B : HistogramBuilder} (h : (PairObservable.density maxR n).create threads = .ok B)
    {runs : List PairRun} (hr : ∀ r ∈ runs, r.Legal E G threads) (hne : runs ≠ []) :
    ∃ B' values, runPairs (.density maxR n) E G B runs = .ok B' ∧ B'.dumpHistogram .sum = .ok values ∧ values.length = n ∧ ∀ k, k < n →
      values[k]? = some (.num (averageOf (fun r : PairRun => linearExcess E * pairDensity E (0, maxR, n) k r.V r.items) runs),
        (runs.map fun r => pairsInBin (0, maxR, n) k r.items).sum) := by
  unfold PairObservable.create PairObservable.spec at h
  have h0 := h
  unfold HistogramBuilder.create at h0
  obtain ⟨H, hH, h0⟩ := Outcome.bind_eq_ok.mp h0
  injection h0 with h0
  have hp := (Histogram.create_ok hH).1 (0, maxR, n) List.mem_cons_self
  simp only at hp
  have hlen : B.histogram.bins.length = n := by rw [← h0]; exact (index1 hH hp.2).2.2
  -- factors
  have hedge : ∀ k, 0 ≤ binEdge (0, maxR, n) k ∧ binEdge (0, maxR, n) k < binEdge (0, maxR, n) (k + 1) := by
    intro k
    have hn0 : (0 : ℝ) < n := by exact_mod_cast hp.2
    have hR := hp.1
    unfold binEdge
    simp only [sub_zero, zero_add]
    push_cast
    exact ⟨by positivity, by gcongr; linarith⟩
  have hfac : ∀ V : View, ∃ l : List ℝ, l.length = n ∧ (∀ k, k < n → ∃ x, l[k]? = some x ∧
      linearExcess E * x = shellVolume E V.box (binEdge (0, maxR, n) k) (binEdge (0, maxR, n) (k + 1)) * (V.shapes.length / V.box.volume)) ∧
      ∀ B' : HistogramBuilder, V.box.WF → V.shapes ≠ [] → B'.histogram.axes = B.histogram.axes → (PairObservable.density maxR n).factors E V B' = .ok (some (l.map fun x => 2 / x / V.shapes.length)) := by
    intro V
    obtain ⟨l, e1, e2, e3⟩ := C95_expected (E := E) (V := V) (g := binEdge (0, maxR, n)) hp.2 fun i j hij => binEdge_mono hp.1 hij
    refine ⟨l, e2, e3, fun B' hV hS hB' => ?_⟩
    have hd := ((C43_dividers hH 0).1 (0, maxR, n) rfl).1
    have hd' : B'.histogram.getBinDividers 0 = .ok ((List.range (n + 1)).map (binEdge (0, maxR, n))) := by
      rw [← hd]
      unfold Histogram.getBinDividers
      rw [hB', ← h0]
    unfold PairObservable.factors
    simp only []
    rw [hd', Outcome.ok_bind, e1, Outcome.ok_bind, if_neg]
    · rfl
    · have hN : 0 < V.shapes.length := List.length_pos_of_ne_nil hS
      rintro (h1 | h1)
      · omega
      · obtain ⟨k, hk, e⟩ := List.getElem_of_mem h1
        obtain ⟨x, e4, e5⟩ := e3 k (by omega)
        rw [List.getElem?_eq_getElem hk, e] at e4
        injection e4 with e4
        rw [← e4, mul_zero] at e5
        have hN' : (0 : ℝ) < V.shapes.length := by exact_mod_cast hN
        have h2 := Box.volume_pos hV
        have h3 := shell_pos hE hV (hedge k).1 (hedge k).2
        have : 0 < shellVolume E V.box (binEdge (0, maxR, n) k) (binEdge (0, maxR, n) (k + 1)) * (V.shapes.length / V.box.volume) := by positivity
        linarith
  choose fl fl1 fl2 fl3 using hfac
  have hrun := snapshots_run (O := .density maxR n) (E := E) (G := G) (so := fun _ => densitySample maxR) (f := fun V => some ((fl V).map fun x => 2 / x / V.shapes.length)) (runs := runs)
    (B := B) rfl (fun r _ c _ => density_sample) (fun r hr' B' hB' => fl3 r.V B' (hr r hr').1 (hr r hr').2.1 hB')
  have hlegal : LegalHist [(0, maxR, n)] threads B.histogram.bins.length
      (runs.map fun r => ⟨samplesOf (densitySample maxR) r.calls, some ((fl r.V).map fun x => 2 / x / r.V.shapes.length)⟩) := by
    intro s hs
    obtain ⟨r, hr', rfl⟩ := List.mem_map.mp hs
    refine ⟨fun x hx => ?_, fun f hf => ?_⟩
    · obtain ⟨c, hc, e⟩ := List.mem_filterMap.mp hx
      unfold densitySample at e
      split_ifs at e with h1 h2
      · cases e
      · cases e
      · injection e with e
        subst e
        exact ⟨(hr r hr').2.2.2.2 c hc, rfl, within1 ⟨norm_nonneg' _, not_lt.mp h2⟩⟩
    · injection hf with hf
      rw [← hf, List.length_map, fl1, hlen]
  obtain ⟨B', sums, avgs, g1, g2, -, g3, -, -, g4⟩ := C44_build (spec := [(0, maxR, n)]) (by intro a ha; rw [List.mem_singleton.mp ha]; exact hn) h hlegal
  refine ⟨B', sums, by rw [hrun]; exact g1, g2, by rw [g3, hlen], fun k hk => ?_⟩
  obtain ⟨i1, i2, -⟩ := index1 hH hk
  obtain ⟨g5, -⟩ := g4 (by simpa using hne) [k] k i1 (by rw [← h0]; exact i2)
  rw [g5]
  -- samples of a snapshot
  have hval : ∀ r : PairRun, r ∈ runs → ((samplesOf (densitySample maxR) r.calls).filter fun x => BoxContains [(0, maxR, n)] [k] x.pos).map Sample.value =
      List.replicate (pairsInBin (0, maxR, n) k r.items) 1 := by
    intro r hr'
    rw [samples_filter (Q := fun p => p.i ≠ p.j ∧ BinContains (0, maxR, n) k p.d.norm) (v := fun _ => 1) (P := fun pos => BoxContains [(0, maxR, n)] [k] pos)]
    · rw [List.map_const']
      congr 1
      exact ((hr r hr').2.2.2.1.filter _).length_eq
    · intro p
      constructor
      · rintro ⟨q1, q2⟩
        refine ⟨_, by unfold densitySample; rw [if_neg q1, if_neg (not_lt.mpr (binContains_le (a := (0, maxR, n)) hp.1 hp.2 q2))], box1.mpr q2, rfl⟩
      · intro hq q hs hb
        unfold densitySample at hs
        split_ifs at hs with q1 q2
        · injection hs with hs
          subst hs
          exact hq ⟨q1, box1.mp hb⟩
  have hsum : ∀ r ∈ runs, snapshotSum [(0, maxR, n)] [k] ⟨samplesOf (densitySample maxR) r.calls, some ((fl r.V).map fun x => 2 / x / r.V.shapes.length)⟩ = pairsInBin (0, maxR, n) k r.items := by
    intro r hr'
    unfold snapshotSum
    rw [hval r hr', List.sum_replicate, nsmul_eq_mul, mul_one]
  have hcount : ∀ r ∈ runs, snapshotCount [(0, maxR, n)] [k] ⟨samplesOf (densitySample maxR) r.calls, some ((fl r.V).map fun x => 2 / x / r.V.shapes.length)⟩ = pairsInBin (0, maxR, n) k r.items := by
    intro r hr'
    have := congrArg List.length (hval r hr')
    rw [List.length_map, List.length_replicate] at this
    exact this
  congr 2
  · congr 1
    unfold averageOf
    rw [List.map_map, List.length_map]
    congr 2
    refine List.map_congr_left fun r hr' => ?_
    simp only [Function.comp]
    rw [hsum r hr']
    unfold factorOf pairDensity
    simp only []
    obtain ⟨x, hx1, hx2⟩ := fl2 r.V k hk
    rw [← hx2, List.getD_eq_getElem?_getD, List.getElem?_map, hx1]
    simp only [Option.map_some, Option.getD_some]
    have hE : linearExcess E ≠ 0 := by cases E <;> simp [linearExcess]
    by_cases hx : x = 0
    · rw [hx]; simp
    · have hN : (r.V.shapes.length : ℝ) ≠ 0 := by
        have := List.length_pos_of_ne_nil (hr r hr').2.1
        exact_mod_cast this.ne'
      field_simp
  · rw [List.map_map]
    congr 1
    exact List.map_congr_left fun r hr' => hcount r hr'

end Rampack
