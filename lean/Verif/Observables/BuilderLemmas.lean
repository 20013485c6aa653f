import Verif.Observables.HistogramProps
/-
Lemmas about building histograms.
-/
namespace Rampack.HistogramBuilder

open Spec Histogram

/-- A bin, also out of range. -/
noncomputable def binAt (k : Nat) (C : Histogram) : ℝ × Nat := C.bins.getD k (0, 0)

/-- A histogram of the same shape. -/
structure Alike (H C : Histogram) : Prop where
  axes : C.axes = H.axes
  len : C.bins.length = H.bins.length
  init : C.init = H.init

/-- The builder has the given sums, all together and since the last snapshot. -/
structure St (H : Histogram) (spec : List (ℝ × ℝ × Nat)) (threads n : Nat) (tot cur : Nat → ℝ × Nat) (B : HistogramBuilder) : Prop where
  spec : B.spec = spec
  init : B.init = 0
  snaps : B.numSnapshots = n
  alike : Alike H B.histogram
  tot : ∀ k, k < H.bins.length → binAt k B.histogram = tot k
  len : B.current.length = threads
  alikes : ∀ C ∈ B.current, Alike H C
  cur : ∀ k, k < H.bins.length → (B.current.map (binAt k)).sum = cur k

theorem atPos_congr {H C : Histogram} (h : Alike H C) (pos : List ℝ) : C.atPos pos = H.atPos pos := by
  unfold atPos calculateBinIndex flattenIndex
  rw [h.axes, h.len]

theorem sum_set : ∀ (l : List (ℝ × Nat)) (i : Nat) (x d : ℝ × Nat), l[i]? = some x → (l.set i (x + d)).sum = l.sum + d
  | [], i, x, d, h => by simp at h
  | a :: l, 0, x, d, h => by
    simp at h
    rw [h, List.set_cons_zero, List.sum_cons, List.sum_cons]
    abel
  | a :: l, i + 1, x, d, h => by
    rw [List.set_cons_succ, List.sum_cons, List.sum_cons, sum_set l i x d (by simpa using h), add_assoc]

theorem add_ok {H : Histogram} {spec : List (ℝ × ℝ × Nat)} {threads n : Nat} {tot cur : Nat → ℝ × Nat} {B : HistogramBuilder} (h : St H spec threads n tot cur B) {t : Nat} (ht : t < threads)
    {pos : List ℝ} {b : Nat} (hb : H.atPos pos = .ok b) (hlt : b < H.bins.length) (v : ℝ) :
    ∃ B', B.add t pos v = .ok B' ∧ St H spec threads n tot (fun k => cur k + if k = b then (v, 1) else 0) B' := by
  have ht' : t < B.current.length := by rw [h.len]; exact ht
  have ha : Alike H B.current[t] := h.alikes _ (List.getElem_mem ht')
  have hb' : b < B.current[t].bins.length := by rw [ha.len]; exact hlt
  unfold HistogramBuilder.add
  rw [decide_eq_true ht', Outcome.require_true, Outcome.ok_bind, vget_ok ht', Outcome.ok_bind, atPos_congr ha, hb, Outcome.ok_bind, vget_ok hb', Outcome.ok_bind,
    vset_ok hb', Outcome.ok_bind, vset_ok ht', Outcome.ok_bind]
  refine ⟨_, rfl, ⟨h.spec, h.init, h.snaps, h.alike, h.tot, by simp only; rw [List.length_set]; exact h.len, ?_, ?_⟩⟩
  · intro C hC
    rcases List.mem_or_eq_of_mem_set hC with hC | rfl
    · exact h.alikes C hC
    · exact ⟨ha.axes, by simp only; rw [List.length_set]; exact ha.len, ha.init⟩
  · intro k hk
    simp only
    rw [List.map_set, ← h.cur k hk]
    have e : binAt k { B.current[t] with bins := B.current[t].bins.set b (B.current[t].bins[b].1 + v, B.current[t].bins[b].2 + 1) } =
        binAt k B.current[t] + if k = b then (v, 1) else 0 := by
      have hk' : k < B.current[t].bins.length := by rw [ha.len]; exact hk
      unfold binAt
      simp only
      rw [List.getD_eq_getElem?_getD, List.getD_eq_getElem?_getD, List.getElem?_set]
      by_cases hkb : k = b
      · subst hkb
        rw [if_pos rfl, if_pos hk', if_pos rfl, List.getElem?_eq_getElem hk']
        rfl
      · rw [if_neg (Ne.symm hkb), if_neg hkb, add_zero]
    rw [e]
    refine sum_set _ _ _ _ ?_
    rw [List.getElem?_map, List.getElem?_eq_getElem ht']
    rfl

theorem renorm_ok {H : Histogram} {spec : List (ℝ × ℝ × Nat)} {threads n : Nat} {tot cur : Nat → ℝ × Nat} {B : HistogramBuilder} (h : St H spec threads n tot cur B) {f : List ℝ}
    (hf : f.length = H.bins.length) :
    ∃ B', B.renormalizeBins f = .ok B' ∧ St H spec threads n tot (fun k => ((cur k).1 * f.getD k 1, (cur k).2)) B' := by
  unfold HistogramBuilder.renormalizeBins
  have key : ∀ l : List Histogram, (∀ C ∈ l, Alike H C) → ∃ l', l.mapM (fun C => C.renormalizeBins f) = .ok l' ∧ l'.length = l.length ∧ (∀ C ∈ l', Alike H C) ∧
      ∀ k, k < H.bins.length → (l'.map (binAt k)).sum = (((l.map (binAt k)).sum).1 * f.getD k 1, ((l.map (binAt k)).sum).2) := by
    intro l
    induction l with
    | nil => intro _; exact ⟨[], rfl, rfl, by simp, by simp; intro k hk; rfl⟩
    | cons C l ih =>
      intro hl
      obtain ⟨l', e, e1, e2, e3⟩ := ih fun D hD => hl D (by simp [hD])
      have hC := hl C (by simp)
      have hlen : f.length = C.bins.length := by rw [hf, hC.len]
      refine ⟨{ C with bins := List.zipWith (fun x f => (x.1 * f, x.2)) C.bins f } :: l', ?_, by rw [List.length_cons, List.length_cons, e1], ?_, ?_⟩
      · rw [List.mapM_cons]
        unfold Histogram.renormalizeBins at e ⊢
        rw [decide_eq_true hlen, Outcome.require_true, Outcome.ok_bind, Outcome.pure_eq, Outcome.ok_bind, e, Outcome.ok_bind]
        rfl
      · intro D hD
        rcases List.mem_cons.mp hD with rfl | hD
        · exact ⟨hC.axes, by simp only; rw [List.length_zipWith, hlen, Nat.min_self]; exact hC.len, hC.init⟩
        · exact e2 D hD
      · intro k hk
        have hk1 : k < C.bins.length := by rw [hC.len]; exact hk
        have hk2 : k < f.length := by rw [hf]; exact hk
        rw [List.map_cons, List.sum_cons, List.map_cons, List.sum_cons, e3 k hk]
        have : binAt k { C with bins := List.zipWith (fun x f => (x.1 * f, x.2)) C.bins f } = ((binAt k C).1 * f.getD k 1, (binAt k C).2) := by
          unfold binAt
          simp only
          rw [List.getD_eq_getElem?_getD, List.getD_eq_getElem?_getD, List.getD_eq_getElem?_getD, List.getElem?_zipWith, List.getElem?_eq_getElem hk1, List.getElem?_eq_getElem hk2]
          rfl
        rw [this, Prod.fst_add, Prod.snd_add, add_mul]
        rfl
  obtain ⟨l', e, e1, e2, e3⟩ := key B.current h.alikes
  rw [e, Outcome.ok_bind]
  exact ⟨_, rfl, ⟨h.spec, h.init, h.snaps, h.alike, h.tot, by simp only; rw [e1]; exact h.len, e2, fun k hk => by simp only; rw [e3 k hk, h.cur k hk]⟩⟩

theorem sumCurrent_ok {H : Histogram} : ∀ {l : List Histogram} {A : Histogram}, Alike H A → (∀ C ∈ l, Alike H C) →
    ∃ A', sumCurrent A l = .ok A' ∧ Alike H A' ∧ ∀ k, k < H.bins.length → binAt k A' = binAt k A + (l.map (binAt k)).sum
  | [], A, hA, _ => ⟨A, rfl, hA, fun k _ => by simp⟩
  | C :: l, A, hA, hl => by
    have hC := hl C (by simp)
    have hlen : C.bins.length = A.bins.length := by rw [hC.len, hA.len]
    obtain ⟨A', e, e1, e2⟩ := sumCurrent_ok (H := H) (l := l) (A := { A with bins := List.zipWith (fun x y => (x.1 + y.1, x.2 + y.2)) A.bins C.bins })
      ⟨hA.axes, by simp only; rw [List.length_zipWith, hlen, Nat.min_self]; exact hA.len, hA.init⟩ fun D hD => hl D (by simp [hD])
    refine ⟨A', ?_, e1, fun k hk => ?_⟩
    · unfold sumCurrent Histogram.add
      rw [decide_eq_true hlen, Outcome.require_true, Outcome.ok_bind, Outcome.pure_eq, Outcome.ok_bind]
      exact e
    · have hk1 : k < A.bins.length := by rw [hA.len]; exact hk
      have hk2 : k < C.bins.length := by rw [hC.len]; exact hk
      rw [e2 k hk, List.map_cons, List.sum_cons, ← add_assoc]
      congr 1
      unfold binAt
      simp only
      rw [List.getD_eq_getElem?_getD, List.getD_eq_getElem?_getD, List.getD_eq_getElem?_getD, List.getElem?_zipWith, List.getElem?_eq_getElem hk1, List.getElem?_eq_getElem hk2]
      rfl

theorem binAt_clear {C : Histogram} (h : C.init = 0) (k : Nat) : binAt k C.clear = 0 := by
  unfold binAt Histogram.clear
  simp only
  rw [List.getD_eq_getElem?_getD, List.getElem?_map, h]
  cases C.bins[k]? <;> rfl

theorem alike_clear {H C : Histogram} (h : Alike H C) : Alike H C.clear := ⟨h.axes, by unfold Histogram.clear; simp only; rw [List.length_map]; exact h.len, h.init⟩

theorem cleared {H : Histogram} (h0 : H.init = 0) {l : List Histogram} (hl : ∀ C ∈ l, Alike H C) :
    (∀ C ∈ l.map Histogram.clear, Alike H C) ∧ ∀ k, ((l.map Histogram.clear).map (binAt k)).sum = 0 := by
  constructor
  · intro C hC
    obtain ⟨D, hD, rfl⟩ := List.mem_map.mp hC
    exact alike_clear (hl D hD)
  · intro k
    apply List.sum_eq_zero
    intro x hx
    obtain ⟨D, hD, rfl⟩ := List.mem_map.mp hx
    obtain ⟨C, hC, rfl⟩ := List.mem_map.mp hD
    exact binAt_clear (by rw [(hl C hC).init, h0]) k

theorem next_ok {H : Histogram} (h0 : H.init = 0) {spec : List (ℝ × ℝ × Nat)} {threads n : Nat} {tot cur : Nat → ℝ × Nat} {B : HistogramBuilder} (h : St H spec threads n tot cur B) :
    ∃ B', B.nextSnapshot = .ok B' ∧ St H spec threads (n + 1) (fun k => tot k + cur k) (fun _ => 0) B' := by
  obtain ⟨A, e, e1, e2⟩ := sumCurrent_ok h.alike h.alikes
  unfold nextSnapshot
  rw [e, Outcome.ok_bind]
  obtain ⟨c1, c2⟩ := cleared h0 h.alikes
  refine ⟨_, rfl, ⟨h.spec, h.init, by simp only; rw [h.snaps], e1, fun k hk => ?_, by simp only; rw [List.length_map]; exact h.len, c1, fun k _ => c2 k⟩⟩
  rw [e2 k hk, h.tot k hk, h.cur k hk]

theorem create_st {spec : List (ℝ × ℝ × Nat)} {threads : Nat} {B : HistogramBuilder} (h : create spec threads 0 = .ok B) :
    ∃ H, Histogram.create spec 0 = .ok H ∧ H.init = 0 ∧ St H spec threads 0 (fun _ => 0) (fun _ => 0) B := by
  unfold create at h
  obtain ⟨H, e, h⟩ := Outcome.bind_eq_ok.mp h
  obtain rfl := Outcome.ok_inj.mp h
  obtain ⟨-, rfl⟩ := create_ok e
  refine ⟨_, e, rfl, ⟨rfl, rfl, rfl, ⟨rfl, rfl, rfl⟩, fun k hk => ?_, List.length_replicate, fun C hC => ?_, fun k hk => ?_⟩⟩
  · rw [List.length_replicate] at hk
    unfold binAt
    simp only
    rw [List.getD_eq_getElem?_getD, List.getElem?_replicate, if_pos hk]
    rfl
  · rw [List.eq_of_mem_replicate hC]
    exact ⟨rfl, rfl, rfl⟩
  · apply List.sum_eq_zero
    intro x hx
    obtain ⟨D, hD, rfl⟩ := List.mem_map.mp hx
    rw [List.eq_of_mem_replicate hD]
    rw [List.length_replicate] at hk
    unfold binAt
    simp only
    rw [List.getD_eq_getElem?_getD, List.getElem?_replicate, if_pos hk]
    rfl

/-- What a value adds to the bin `k`. -/
noncomputable def contrib (spec : List (ℝ × ℝ × Nat)) (idx : List Nat) (x : Sample) : ℝ × Nat :=
  open Classical in if BoxContains spec idx x.pos then (x.value, 1) else 0

/-- The index for the number of a bin. -/
theorem contains_iff {spec : List (ℝ × ℝ × Nat)} (hs : ∀ a ∈ spec, a.2.2 < 2 ^ 64) {H : Histogram} {init : ℝ} (h : Histogram.create spec init = .ok H) {idx : List Nat} (hi : ProperIndex spec idx) {k : Nat}
    (hk : H.atIndex idx = .ok k) {pos : List ℝ} (hl : pos.length = spec.length) (hw : WithinRanges spec pos) {b : Nat} (hb : H.atPos pos = .ok b) :
    k = b ↔ BoxContains spec idx pos := by
  obtain ⟨idx', k', h1, h2, h3, h4, h5⟩ := (C43_position hs h hl).1 hw
  rw [h4] at hb
  obtain rfl := Outcome.ok_inj.mp hb
  constructor
  · rintro rfl
    obtain ⟨i0, -, -, u⟩ := (C43_index h).2.1 k h5
    rw [u idx hi hk, ← u idx' (proper_of_contains hl h1) h3]
    exact h1
  · intro hc
    rw [h2 idx hc] at hk
    rw [hk] at h3
    exact Outcome.ok_inj.mp h3

/-- The index of the bin number `k`. -/
def idxOf (H : Histogram) (k : Nat) : List Nat := H.reshapeIndex k

theorem idxOf_ok {spec : List (ℝ × ℝ × Nat)} {H : Histogram} {init : ℝ} (h : Histogram.create spec init = .ok H) {k : Nat} (hk : k < H.bins.length) :
    ProperIndex spec (idxOf H k) ∧ H.atIndex (idxOf H k) = .ok k := by
  obtain ⟨hp, rfl⟩ := create_ok h
  rw [List.length_replicate] at hk
  have hpos : ∀ a ∈ spec.map axisOf, 0 < a.n := by
    intro a ha
    obtain ⟨b, hb, rfl⟩ := List.mem_map.mp ha
    exact (hp b hb).2
  have hl : (reshape (spec.map axisOf) k).length = spec.length := by rw [reshape_length, List.length_map]
  have hi : ProperIndex spec (reshape (spec.map axisOf) k) := (properIndex_iff hl).mpr (reshape_valid hpos k)
  refine ⟨hi, ?_⟩
  unfold atIndex idxOf reshapeIndex
  simp only
  rw [show reshapeLoop (spec.map axisOf).reverse k [] = reshape (spec.map axisOf) k from rfl, decide_eq_true ((properIndex_iff hl).mp hi), Outcome.require_true, Outcome.ok_bind]
  exact congrArg _ (flat_reshape hk)

theorem samples_ok {spec : List (ℝ × ℝ × Nat)} (hs : ∀ a ∈ spec, a.2.2 < 2 ^ 64) {H : Histogram} (hH : Histogram.create spec 0 = .ok H) {threads n : Nat} {tot : Nat → ℝ × Nat} :
    ∀ {l : List Sample} {cur : Nat → ℝ × Nat} {B : HistogramBuilder}, St H spec threads n tot cur B → (∀ x ∈ l, x.thread < threads ∧ x.pos.length = spec.length ∧ WithinRanges spec x.pos) →
    ∃ B', l.foldlM (fun (B : HistogramBuilder) x => B.add x.thread x.pos x.value) B = .ok B' ∧
      St H spec threads n tot (fun k => cur k + (l.map (contrib spec (idxOf H k))).sum) B'
  | [], cur, B, h, _ => ⟨B, rfl, by simpa using h⟩
  | x :: l, cur, B, h, hl => by
    obtain ⟨h1, h2, h3⟩ := hl x (by simp)
    obtain ⟨idx, b, c1, c2, c3, c4, c5⟩ := (C43_position hs hH h2).1 h3
    obtain ⟨B1, e1, s1⟩ := add_ok h h1 c4 c5 x.value
    obtain ⟨B2, e2, s2⟩ := samples_ok hs hH s1 fun y hy => hl y (List.mem_cons_of_mem _ hy)
    refine ⟨B2, ?_, ⟨s2.spec, s2.init, s2.snaps, s2.alike, s2.tot, s2.len, s2.alikes, fun k hk => ?_⟩⟩
    · rw [List.foldlM_cons, e1, Outcome.ok_bind, e2]
    · rw [s2.cur k hk, List.map_cons, List.sum_cons, ← add_assoc]
      congr 2
      obtain ⟨i1, i2⟩ := idxOf_ok hH hk
      unfold contrib
      by_cases hkb : k = b
      · rw [if_pos hkb, if_pos ((contains_iff hs hH i1 i2 h2 h3 c4).mp hkb)]
      · rw [if_neg hkb, if_neg (fun hc => hkb ((contains_iff hs hH i1 i2 h2 h3 c4).mpr hc))]

theorem contrib_sum (spec : List (ℝ × ℝ × Nat)) (idx : List Nat) (s : HistSnapshot) : (s.samples.map (contrib spec idx)).sum = (snapshotSum spec idx s, snapshotCount spec idx s) := by
  unfold snapshotSum snapshotCount
  induction s.samples with
  | nil => rfl
  | cons x l ih =>
    rw [List.map_cons, List.sum_cons, ih]
    unfold contrib
    by_cases hc : BoxContains spec idx x.pos
    · rw [if_pos hc, List.filter_cons_of_pos (by simpa using hc), List.map_cons, List.sum_cons, List.length_cons]
      ext
      · simp
      · simp [add_comm]
    · rw [if_neg hc, List.filter_cons_of_neg (by simpa using hc), zero_add]

/-- Sums after a history. -/
noncomputable def totals (spec : List (ℝ × ℝ × Nat)) (idx : List Nat) (k : Nat) (h : List HistSnapshot) : ℝ × Nat :=
  ((h.map fun s => snapshotSum spec idx s * factorOf s k).sum, (h.map (snapshotCount spec idx)).sum)

theorem run_ok {spec : List (ℝ × ℝ × Nat)} (hs : ∀ a ∈ spec, a.2.2 < 2 ^ 64) {H : Histogram} (hH : Histogram.create spec 0 = .ok H) (h0 : H.init = 0) {threads : Nat} :
    ∀ {h : List HistSnapshot} {n : Nat} {tot : Nat → ℝ × Nat} {B : HistogramBuilder}, St H spec threads n tot (fun _ => 0) B → LegalHist spec threads H.bins.length h →
    ∃ B', runHist B h = .ok B' ∧ St H spec threads (n + h.length) (fun k => tot k + totals spec (idxOf H k) k h) (fun _ => 0) B'
  | [], n, tot, B, hB, _ => ⟨B, rfl, by
      have : (fun k => tot k + totals spec (idxOf H k) k []) = tot := by funext k; unfold totals; simp
      rw [this]
      exact hB⟩
  | s :: h, n, tot, B, hB, hl => by
    obtain ⟨l1, l2⟩ := hl s (by simp)
    obtain ⟨B1, e1, s1⟩ := samples_ok hs hH hB l1
    have key : ∃ B2, runSnapshot B s = .ok B2 ∧ St H spec threads (n + 1) (fun k => tot k + (snapshotSum spec (idxOf H k) s * factorOf s k, snapshotCount spec (idxOf H k) s)) (fun _ => 0) B2 := by
      unfold runSnapshot
      rw [e1, Outcome.ok_bind]
      cases hf : s.factors with
      | none =>
        simp only
        obtain ⟨B2, e2, s2⟩ := next_ok h0 s1
        refine ⟨B2, e2, ?_⟩
        convert s2 using 2 with k
        rw [contrib_sum]
        unfold factorOf
        rw [hf]
        simp
      | some f =>
        simp only
        obtain ⟨B2, e2, s2⟩ := renorm_ok s1 (l2 f hf)
        obtain ⟨B3, e3, s3⟩ := next_ok h0 s2
        rw [e2, Outcome.ok_bind]
        refine ⟨B3, e3, ?_⟩
        convert s3 using 2 with k
        rw [contrib_sum]
        unfold factorOf
        rw [hf]
        simp
    obtain ⟨B2, e2, s2⟩ := key
    obtain ⟨B3, e3, s3⟩ := run_ok hs hH h0 s2 fun t ht => hl t (List.mem_cons_of_mem _ ht)
    refine ⟨B3, ?_, ?_⟩
    · unfold runHist
      rw [List.foldlM_cons, e2, Outcome.ok_bind]
      exact e3
    · have e : (fun k => tot k + (snapshotSum spec (idxOf H k) s * factorOf s k, snapshotCount spec (idxOf H k) s) + totals spec (idxOf H k) k h) =
          fun k => tot k + totals spec (idxOf H k) k (s :: h) := by
        funext k
        unfold totals
        rw [add_assoc]
        simp
      rw [e] at s3
      rw [List.length_cons, show n + (h.length + 1) = n + 1 + h.length by omega]
      exact s3

end Rampack.HistogramBuilder
