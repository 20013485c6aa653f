import Verif.Observables.PairsProps
import Mathlib.Analysis.SpecialFunctions.Trigonometric.Inverse
/-
Theorems on correlations averaged over pairs, and violations (C94, C95).
-/
namespace Rampack

open Spec

/-! ### Correlation functions -/

/-- **C94** Values of the correlation functions of unit axes are in the documented ranges, do not depend on the order of particles, and, but for the first one, on the senses of axes. -/
theorem C94_functions {a1 a2 : Vec3 ℝ} (h1 : a1.norm2 = 1) (h2 : a2.norm2 = 1) {d : Vec3 ℝ} (hd : d.norm2 ≠ 0) (f : CorrelationFn) :
    ∃ v, f.forAxes a1 a2 d = .ok v ∧ f.forAxes a2 a1 (-d) = .ok v ∧
      match f with
      | .s110 _ => v = a1.dot a2 ∧ -1 ≤ v ∧ v ≤ 1
      | .s220 _ => v = (3 * (a1.dot a2) ^ 2 - 1) / 2 ∧ -1 / 2 ≤ v ∧ v ≤ 1 ∧ f.forAxes (-a1) a2 d = .ok v
      | .s221 _ => v * d.norm = (a1.cross a2).dot d * a1.dot a2 ∧ -1 / 2 ≤ v ∧ v ≤ 1 / 2 ∧ f.forAxes (-a1) a2 d = .ok v
      | .angle _ => Real.cos (v * Real.pi / 180) = |a1.dot a2| ∧ 0 ≤ v ∧ v ≤ 90 ∧ f.forAxes (-a1) a2 d = .ok v := by
  have hcr := cross_norm2 a1 a2
  rw [h1, h2] at hcr
  have hsq : (a1.dot a2) ^ 2 ≤ 1 := by
    have : 0 ≤ (a1.cross a2).norm2 := add_nonneg (add_nonneg (mul_self_nonneg _) (mul_self_nonneg _)) (mul_self_nonneg _)
    nlinarith
  have habs := abs_le.mp (abs_le_one_iff_mul_self_le_one.mpr (by nlinarith : a1.dot a2 * a1.dot a2 ≤ 1))
  have hcomm : a2.dot a1 = a1.dot a2 := by simp only [Vec3.dot]; ring
  have hneg : (-a1).dot a2 = -(a1.dot a2) := by simp only [Vec3.dot, Vec3.neg_x, Vec3.neg_y, Vec3.neg_z]; ring
  cases f with
  | s110 k => exact ⟨_, rfl, by simp only [CorrelationFn.forAxes]; rw [hcomm], rfl, habs.1, habs.2⟩
  | s220 k =>
    refine ⟨_, rfl, by simp only [CorrelationFn.forAxes]; rw [hcomm], by ring, by nlinarith [sq_nonneg (a1.dot a2)], by nlinarith, ?_⟩
    simp only [CorrelationFn.forAxes]
    rw [hneg, neg_sq]
  | s221 k =>
    have hdn := norm_pos' hd
    have hd' : (-d).norm = d.norm := by
      unfold Vec3.norm
      congr 1
      simp only [Vec3.norm2, Vec3.dot, Vec3.neg_x, Vec3.neg_y, Vec3.neg_z]; ring
    have hn : normalize d = .ok (d.norm⁻¹ • d) := by
      obtain ⟨n, hn⟩ := normalize_some (v := d) (lt_of_le_of_ne (add_nonneg (add_nonneg (mul_self_nonneg _) (mul_self_nonneg _)) (mul_self_nonneg _)) (Ne.symm hd))
      rw [hn]
      congr 1
      have := normalize_eq hn
      generalize d.norm = c at *
      rw [this]
      ext <;> simp <;> field_simp
    have hn' : normalize (-d) = .ok (d.norm⁻¹ • -d) := by
      obtain ⟨n, hn⟩ := normalize_some (v := -d) (by
        have : (-d).norm2 = d.norm2 := by simp only [Vec3.norm2, Vec3.dot, Vec3.neg_x, Vec3.neg_y, Vec3.neg_z]; ring
        rw [this]
        exact lt_of_le_of_ne (add_nonneg (add_nonneg (mul_self_nonneg _) (mul_self_nonneg _)) (mul_self_nonneg _)) (Ne.symm hd))
      rw [hn]
      congr 1
      have := normalize_eq hn
      rw [hd'] at this
      generalize d.norm = c at *
      rw [this]
      ext <;> simp <;> field_simp
    have hu := normalize_ok hn
    have e1 : ∀ (x y : Vec3 ℝ) (kk : AxisKind), CorrelationFn.forAxes (.s221 kk) x y d = .ok ((x.cross y).dot (d.norm⁻¹ • d) * x.dot y) := by
      intro x y kk
      simp only [CorrelationFn.forAxes]
      rw [hn]
      rfl
    have e2 : ∀ (x y : Vec3 ℝ) (kk : AxisKind), CorrelationFn.forAxes (.s221 kk) x y (-d) = .ok ((x.cross y).dot (d.norm⁻¹ • -d) * x.dot y) := by
      intro x y kk
      simp only [CorrelationFn.forAxes]
      rw [hn']
      rfl
    have hb : ((a1.cross a2).dot (d.norm⁻¹ • d) * a1.dot a2) ^ 2 ≤ (1 / 2) ^ 2 := by
      have hc2 := cross_norm2 (a1.cross a2) (d.norm⁻¹ • d)
      rw [hu] at hc2
      have : 0 ≤ ((a1.cross a2).cross (d.norm⁻¹ • d)).norm2 := add_nonneg (add_nonneg (mul_self_nonneg _) (mul_self_nonneg _)) (mul_self_nonneg _)
      have hle : ((a1.cross a2).dot (d.norm⁻¹ • d)) ^ 2 ≤ 1 - (a1.dot a2) ^ 2 := by nlinarith
      rw [mul_pow]
      nlinarith [sq_nonneg ((a1.dot a2) ^ 2 - 1 / 2), mul_le_mul_of_nonneg_right hle (sq_nonneg (a1.dot a2))]
    have hb' := abs_le.mp (abs_le_of_sq_le_sq hb (by norm_num))
    refine ⟨_, e1 _ _ _, ?_, ?_, by linarith [hb'.1], hb'.2, ?_⟩
    · rw [e2]
      congr 1
      simp only [Vec3.dot, Vec3.cross, Vec3.smul_x, Vec3.smul_y, Vec3.smul_z, Vec3.neg_x, Vec3.neg_y, Vec3.neg_z]; ring
    · simp only [Vec3.dot, Vec3.smul_x, Vec3.smul_y, Vec3.smul_z]
      field_simp
    · rw [e1]
      congr 1
      simp only [Vec3.dot, Vec3.cross, Vec3.smul_x, Vec3.smul_y, Vec3.smul_z, Vec3.neg_x, Vec3.neg_y, Vec3.neg_z]; ring
  | angle k =>
    have hp := Real.pi_pos
    refine ⟨_, rfl, by simp only [CorrelationFn.forAxes]; rw [hcomm], ?_, ?_, ?_, ?_⟩
    · rw [show 180 * Real.arccos |a1.dot a2| / Real.pi * Real.pi / 180 = Real.arccos |a1.dot a2| by field_simp]
      exact Real.cos_arccos (by linarith [abs_nonneg (a1.dot a2)]) (abs_le.mpr habs)
    · have := Real.arccos_nonneg |a1.dot a2|
      positivity
    · have := Real.arccos_le_pi_div_two.mpr (abs_nonneg (a1.dot a2))
      rw [div_le_iff₀ hp]
      linarith
    · simp only [CorrelationFn.forAxes]
      rw [hneg, abs_neg]

/-! ### Averages -/

/-- What is added for one pair. -/
noncomputable def averagedSample (maxR : ℝ) (val : PairItem → ℝ) (p : PairItem) : Option (List ℝ × ℝ) :=
  open Classical in if p.d.norm > maxR then none else some ([p.d.norm], val p)

open Classical in
/-- **C94** After any number of snapshots, whatever the number of threads and the order of calls, what is printed for a bin is the average of the correlation function over all pairs from all
snapshots which have the distance in this bin; pairs of a particle with itself are among them. -/
theorem C94_average_partial {E : PairEnumerator} {G : Geometry} {maxR : ℝ} {n threads : Nat} (hn : n < 2 ^ 64) {f : CorrelationFn} {B : HistogramBuilder}
    (h : (PairObservable.averaged maxR n f).create threads = .ok B) {runs : List PairRun} (hr : ∀ r ∈ runs, r.Legal E G threads) (hne : runs ≠ [])
    {val : View → PairItem → ℝ} (hv : ∀ r ∈ runs, ∀ p ∈ r.items, p.d.norm ≤ maxR → ∃ s t, r.V.shapes[p.i]? = some s ∧ r.V.shapes[p.j]? = some t ∧
      f.calculate G s t p.d = .ok (val r.V p)) :
    ∃ B' values, runPairs (.averaged maxR n f) E G B runs = .ok B' ∧ B'.dumpHistogram .average = .ok values ∧ values.length = n ∧ ∀ k, k < n →
      values[k]? = some (if (runs.map fun r => (itemsInBin (0, maxR, n) k r.items).length).sum = 0 then .undefined else
          .num ((runs.map fun r => ((itemsInBin (0, maxR, n) k r.items).map (val r.V)).sum).sum / (runs.map fun r => (itemsInBin (0, maxR, n) k r.items).length).sum),
        (runs.map fun r => (itemsInBin (0, maxR, n) k r.items).length).sum) := by
  unfold PairObservable.create PairObservable.spec at h
  have h0 := h
  unfold HistogramBuilder.create at h0
  obtain ⟨H, hH, h0⟩ := Outcome.bind_eq_ok.mp h0
  injection h0 with h0
  have hp := (Histogram.create_ok hH).1 (0, maxR, n) List.mem_cons_self
  simp only at hp
  have hlen : B.histogram.bins.length = n := by rw [← h0]; exact (index1 hH hp.2).2.2
  have hsample : ∀ r ∈ runs, ∀ c ∈ r.calls, (PairObservable.averaged maxR n f).sample r.V G c.2 = .ok (averagedSample maxR (val r.V) c.2) := by
    intro r hr' c hc
    have hi : c.2 ∈ r.items := (hr r hr').2.2.2.1.mem_iff.mp (List.mem_map_of_mem hc)
    unfold PairObservable.sample averagedSample
    simp only []
    split_ifs with hd
    · rfl
    · obtain ⟨s, t, hs, ht, e⟩ := hv r hr' c.2 hi (not_lt.mp hd)
      obtain ⟨ls, es⟩ := List.getElem?_eq_some_iff.mp hs
      obtain ⟨lt, et⟩ := List.getElem?_eq_some_iff.mp ht
      rw [vget_ok ls, Outcome.ok_bind, vget_ok lt, Outcome.ok_bind, es, et, e, Outcome.ok_bind]
      rfl
  have hrun := snapshots_run (O := .averaged maxR n f) (E := E) (G := G) (so := fun V => averagedSample maxR (val V)) (f := fun _ => none) (runs := runs)
    (B := B) rfl hsample (fun r hr' B' hB' => rfl)
  have hlegal : LegalHist [(0, maxR, n)] threads B.histogram.bins.length (runs.map fun r => ⟨samplesOf (averagedSample maxR (val r.V)) r.calls, none⟩) := by
    intro s hs
    obtain ⟨r, hr', rfl⟩ := List.mem_map.mp hs
    refine ⟨fun x hx => ?_, fun f hf => by cases hf⟩
    obtain ⟨c, hc, e⟩ := List.mem_filterMap.mp hx
    unfold averagedSample at e
    split_ifs at e with h2
    · cases e
    · injection e with e
      subst e
      exact ⟨(hr r hr').2.2.2.2 c hc, rfl, within1 ⟨norm_nonneg' _, not_lt.mp h2⟩⟩
  obtain ⟨B', sums, avgs, g1, -, g2, -, g3, -, g4⟩ := C44_build (spec := [(0, maxR, n)]) (by intro a ha; rw [List.mem_singleton.mp ha]; exact hn) h hlegal
  refine ⟨B', avgs, by rw [hrun]; exact g1, g2, by rw [g3, hlen], fun k hk => ?_⟩
  obtain ⟨i1, i2, -⟩ := index1 hH hk
  obtain ⟨-, g5⟩ := g4 (by simpa using hne) [k] k i1 (by rw [← h0]; exact i2)
  rw [g5]
  have hval : ∀ r : PairRun, r ∈ runs → (((samplesOf (averagedSample maxR (val r.V)) r.calls).filter fun x => BoxContains [(0, maxR, n)] [k] x.pos).map Sample.value).Perm
      ((itemsInBin (0, maxR, n) k r.items).map (val r.V)) := by
    intro r hr'
    rw [samples_filter (Q := fun p => BinContains (0, maxR, n) k p.d.norm) (v := val r.V) (P := fun pos => BoxContains [(0, maxR, n)] [k] pos)]
    · exact ((hr r hr').2.2.2.1.filter _).map _
    · intro p
      constructor
      · intro q2
        refine ⟨_, by unfold averagedSample; rw [if_neg (not_lt.mpr (binContains_le (a := (0, maxR, n)) hp.1 hp.2 q2))], box1.mpr q2, rfl⟩
      · intro hq q hs hb
        unfold averagedSample at hs
        split_ifs at hs with q2
        · injection hs with hs
          subst hs
          exact hq (box1.mp hb)
  have hsum : ∀ r ∈ runs, snapshotSum [(0, maxR, n)] [k] ⟨samplesOf (averagedSample maxR (val r.V)) r.calls, none⟩ = ((itemsInBin (0, maxR, n) k r.items).map (val r.V)).sum := by
    intro r hr'
    unfold snapshotSum
    exact (hval r hr').sum_eq
  have hcount : ∀ r ∈ runs, snapshotCount [(0, maxR, n)] [k] ⟨samplesOf (averagedSample maxR (val r.V)) r.calls, none⟩ = (itemsInBin (0, maxR, n) k r.items).length := by
    intro r hr'
    have := (hval r hr').length_eq
    rw [List.length_map, List.length_map] at this
    exact this
  have e1 : ((runs.map fun r => (⟨samplesOf (averagedSample maxR (val r.V)) r.calls, none⟩ : HistSnapshot)).map (snapshotCount [(0, maxR, n)] [k])).sum =
      (runs.map fun r => (itemsInBin (0, maxR, n) k r.items).length).sum := by
    rw [List.map_map]
    congr 1
    exact List.map_congr_left fun r hr' => hcount r hr'
  have e2 : ((runs.map fun r => (⟨samplesOf (averagedSample maxR (val r.V)) r.calls, none⟩ : HistSnapshot)).map fun s => snapshotSum [(0, maxR, n)] [k] s * factorOf s k).sum =
      (runs.map fun r => ((itemsInBin (0, maxR, n) k r.items).map (val r.V)).sum).sum := by
    rw [List.map_map]
    congr 1
    refine List.map_congr_left fun r hr' => ?_
    simp only [Function.comp]
    rw [hsum r hr']
    unfold factorOf
    rw [mul_one]
  rw [e1, e2]

/-! ### Violations -/

theorem foldlM_each {α β : Type} {f : β → α → Outcome β} : ∀ {l : List α} {b b' : β}, l.foldlM f b = .ok b' → ∀ a ∈ l, ∃ c c', f c a = .ok c'
  | x :: l, b, b', h, a, ha => by
    rw [List.foldlM_cons] at h
    obtain ⟨b1, h1, h2⟩ := Outcome.bind_eq_ok.mp h
    rcases List.mem_cons.mp ha with rfl | ha
    · exact ⟨_, _, h1⟩
    · exact foldlM_each h2 a ha

theorem forall2_right {α β : Type} {R : α → β → Prop} {l : List α} {l' : List β} (h : List.Forall₂ R l l') : ∀ b ∈ l', ∃ a ∈ l, R a b := by
  induction h with
  | nil => simp
  | cons h1 _ ih =>
    intro b hb
    rcases List.mem_cons.mp hb with rfl | hb
    · exact ⟨_, List.mem_cons_self, h1⟩
    · obtain ⟨a, ha, h2⟩ := ih b hb
      exact ⟨a, List.mem_cons_of_mem _ ha, h2⟩

/-- **C94** The S221 correlation cannot be calculated for any packing with particles: each particle is paired with itself, too, and the zero distance vector is normalised. -/
theorem C94_s221_violated {G : Geometry} {focal : String} {p : Vec3 ℝ} (hp : G.getNamedPoint focal = .ok p) {maxR : ℝ} (hR : 0 ≤ maxR) {n threads : Nat} {k : AxisKind}
    {r : PairRun} (hr : r.Legal (.radial focal) G threads) (B B' : HistogramBuilder) :
    runPairs (.averaged maxR n (.s221 k)) (.radial focal) G B [r] ≠ .ok B' := by
  intro h
  obtain ⟨hb, hS, he, hc, -⟩ := hr
  obtain ⟨l, e1, e2, e3, e4⟩ := C94_pairs (E := .radial focal) trivial (G := G) hb rfl hp
  rw [he] at e1
  injection e1 with e1
  obtain ⟨s, hs⟩ : ∃ s, r.V.shapes[0]? = some s := ⟨_, List.getElem?_eq_getElem (List.length_pos_of_ne_nil hS)⟩
  obtain ⟨x, hx, i0, j0⟩ := (e4 0 0 s s le_rfl hs hs).mpr trivial
  rw [← e1] at hx
  -- the vector
  have hd : x.d = 0 := by
    have he' := he
    unfold PairEnumerator.enumerate at he'
    simp only [] at he'
    obtain ⟨pts, -, he'⟩ := Outcome.bind_eq_ok.mp he'
    obtain ⟨os, hos, he'⟩ := Outcome.bind_eq_ok.mp he'
    injection he' with he'
    rw [← he'] at hx
    obtain ⟨o, ho, eo⟩ := List.mem_filterMap.mp hx
    obtain ⟨q, -, hq⟩ := forall2_right (Domain.mapM_split hos) o ho
    unfold PairEnumerator.radialItem PairEnumerator.separation at hq
    obtain ⟨d, h1, hq⟩ := Outcome.bind_eq_ok.mp hq
    obtain ⟨p1, hp1, h1⟩ := Outcome.bind_eq_ok.mp h1
    obtain ⟨p2, hp2, h1⟩ := Outcome.bind_eq_ok.mp h1
    injection h1 with h1
    injection hq with hq
    simp only [id] at eo
    rw [← hq] at eo
    injection eo with eo
    have q1 : q.1 = 0 := by rw [← i0, ← eo]
    have q2 : q.2 = 0 := by rw [← j0, ← eo]
    rw [q1] at hp1
    rw [q2, hp1] at hp2
    injection hp2 with hp2
    rw [← eo]
    simp only []
    rw [← h1, ← hp2, translation_self]
    ext <;> simp
  unfold runPairs at h
  rw [List.foldlM_cons] at h
  obtain ⟨B1, h1, -⟩ := Outcome.bind_eq_ok.mp h
  unfold PairObservable.addSnapshot at h1
  obtain ⟨B2, h1, -⟩ := Outcome.bind_eq_ok.mp h1
  obtain ⟨c, hcm, hcx⟩ := List.mem_map.mp (hc.mem_iff.mpr hx)
  obtain ⟨C, C', hC⟩ := foldlM_each h1 c hcm
  unfold PairObservable.consume at hC
  obtain ⟨o, ho, -⟩ := Outcome.bind_eq_ok.mp hC
  rw [hcx] at ho
  unfold PairObservable.sample at ho
  simp only [] at ho
  have hz : x.d.norm = 0 := by rw [hd]; simp [Vec3.norm, Vec3.norm2, Vec3.dot]
  rw [hz, if_neg (not_lt.mpr hR)] at ho
  obtain ⟨s1, -, ho⟩ := Outcome.bind_eq_ok.mp ho
  obtain ⟨s2, -, ho⟩ := Outcome.bind_eq_ok.mp ho
  obtain ⟨v, hv, -⟩ := Outcome.bind_eq_ok.mp ho
  unfold CorrelationFn.calculate at hv
  obtain ⟨a1, -, hv⟩ := Outcome.bind_eq_ok.mp hv
  obtain ⟨a2, -, hv⟩ := Outcome.bind_eq_ok.mp hv
  unfold CorrelationFn.forAxes at hv
  simp only [] at hv
  rw [hd, normalize_zero (by simp [Vec3.norm2, Vec3.dot])] at hv
  change Outcome.ub = _ at hv
  cases hv

/-- Two perpendicular rods in the unit box. -/
noncomputable def crossedRods : View := ⟨⟨1, 1⟩, [⟨0, 1⟩, ⟨⟨1 / 10, 0, 0⟩, ⟨⟨1, 0, 0⟩, ⟨0, 0, -1⟩, ⟨0, 1, 0⟩⟩⟩]⟩

theorem translation_near {p q : Vec3 ℝ} (hx : |q.x - p.x| ≤ 1 / 2) (hy : |q.y - p.y| ≤ 1 / 2) (hz : |q.z - p.z| ≤ 1 / 2) : PBC.getTranslation ⟨1, 1⟩ p q = 0 := by
  unfold PBC.getTranslation
  have e : ∀ v, (⟨1, 1⟩ : Box).absToRel v = v := fun v => Mat3.one_mulVec v
  simp only [e]
  rw [trans1_near hx, trans1_near hy, trans1_near hz]
  ext <;> simp [Box.relToAbs, Mat3.mulVec, Vec3.dot]

theorem crossedRods_items : (PairEnumerator.radial "o").enumerate crossedRods (Geometry.rod []) = .ok [⟨0, 0, 0⟩, ⟨0, 1, ⟨1 / 10, 0, 0⟩⟩, ⟨1, 1, 0⟩] := by
  have hp : (Geometry.rod []).getNamedPoint "o" = .ok 0 := by
    unfold Geometry.getNamedPoint
    rw [if_pos rfl]
    congr 1
    ext <;> simp [Geometry.getGeometricOrigin, Geometry.rod, Shape.default, Mat3.mulVec, Vec3.dot]
  have hpts : crossedRods.namedPoints (Geometry.rod []) "o" = .ok [0, ⟨1 / 10, 0, 0⟩] := by
    unfold View.namedPoints
    rw [hp, Outcome.ok_bind]
    show Outcome.ok _ = _
    congr 1
    simp only [crossedRods, List.map_cons, List.map_nil]
    congr 1
    · ext <;> simp [Mat3.mulVec, Vec3.dot]
    · congr 1
      ext <;> simp [Mat3.mulVec, Vec3.dot]
  unfold PairEnumerator.enumerate
  simp only []
  rw [hpts, Outcome.ok_bind, Grid.mapM_ok (g := fun ij => some ⟨ij.1, ij.2, joining crossedRods.box [0, ⟨1 / 10, 0, 0⟩] ij.1 ij.2⟩), Outcome.ok_bind, filterMap_id_map]
  · show Outcome.ok [(⟨0, 0, joining ⟨1, 1⟩ [0, ⟨1 / 10, 0, 0⟩] 0 0⟩ : PairItem), ⟨0, 1, joining ⟨1, 1⟩ [0, ⟨1 / 10, 0, 0⟩] 0 1⟩, ⟨1, 1, joining ⟨1, 1⟩ [0, ⟨1 / 10, 0, 0⟩] 1 1⟩] = _
    congr 1
    have j0 : joining ⟨1, 1⟩ [0, ⟨1 / 10, 0, 0⟩] 0 0 = 0 := by
      show (0 : Vec3 ℝ) + PBC.getTranslation ⟨1, 1⟩ 0 0 - 0 = 0
      rw [translation_self]; ext <;> simp
    have j1 : joining ⟨1, 1⟩ [0, ⟨1 / 10, 0, 0⟩] 1 1 = 0 := by
      show (⟨1 / 10, 0, 0⟩ : Vec3 ℝ) + PBC.getTranslation ⟨1, 1⟩ ⟨1 / 10, 0, 0⟩ ⟨1 / 10, 0, 0⟩ - ⟨1 / 10, 0, 0⟩ = 0
      rw [translation_self]; ext <;> simp
    have j2 : joining ⟨1, 1⟩ [0, ⟨1 / 10, 0, 0⟩] 0 1 = ⟨1 / 10, 0, 0⟩ := by
      show (⟨1 / 10, 0, 0⟩ : Vec3 ℝ) + PBC.getTranslation ⟨1, 1⟩ 0 ⟨1 / 10, 0, 0⟩ - 0 = _
      rw [translation_near (by norm_num [abs_of_pos]) (by norm_num) (by norm_num)]; ext <;> simp
    rw [j0, j1, j2]
  · intro ij hij
    obtain ⟨h1, h2⟩ := mem_enumPairs.mp hij
    have h2' : ij.2 < 2 := h2
    unfold PairEnumerator.radialItem
    rw [separation_ok (by simp; omega) (by simp; omega), Outcome.ok_bind]
    rfl

/-- A run for the two rods, in which two threads make calls. -/
noncomputable def crossedRun : PairRun := ⟨crossedRods, [⟨0, 0, 0⟩, ⟨0, 1, ⟨1 / 10, 0, 0⟩⟩, ⟨1, 1, 0⟩], [(1, ⟨1, 1, 0⟩), (0, ⟨0, 0, 0⟩), (0, ⟨0, 1, ⟨1 / 10, 0, 0⟩⟩)]⟩

theorem crossedRun_legal : crossedRun.Legal (.radial "o") (Geometry.rod []) 2 := by
  refine ⟨unitBox_wf, by simp [crossedRun, crossedRods], crossedRods_items, ?_, by simp [crossedRun]⟩
  show List.Perm [(⟨1, 1, 0⟩ : PairItem), ⟨0, 0, 0⟩, ⟨0, 1, ⟨1 / 10, 0, 0⟩⟩] [⟨0, 0, 0⟩, ⟨0, 1, ⟨1 / 10, 0, 0⟩⟩, ⟨1, 1, 0⟩]
  exact (List.perm_append_comm (l₁ := [_]) (l₂ := [_, _]))

theorem norm_x (x : ℝ) (hx : 0 ≤ x) : (⟨x, 0, 0⟩ : Vec3 ℝ).norm = x := by
  rw [Vec3.norm, show (⟨x, 0, 0⟩ : Vec3 ℝ).norm2 = x ^ 2 by simp only [Vec3.norm2, Vec3.dot]; ring, Real.sqrt_sq hx]

/-- **C94** Pairs of particles with themselves spoil the first bin: the only pair of different particles is perpendicular, so that its S110 correlation is 0, and 2/3 is printed. -/
theorem C94_self_violated : ∃ B B' s t, (PairObservable.averaged (1 / 2) 1 (.s110 .primary)).create 2 = .ok B ∧
    runPairs (.averaged (1 / 2) 1 (.s110 .primary)) (.radial "o") (Geometry.rod []) B [crossedRun] = .ok B' ∧
    B'.dumpHistogram .average = .ok [(.num (2 / 3), 3)] ∧ crossedRods.shapes = [s, t] ∧
    (CorrelationFn.s110 .primary).calculate (Geometry.rod []) s t ⟨1 / 10, 0, 0⟩ = .ok 0 := by
  obtain ⟨B, hB⟩ : ∃ B, (PairObservable.averaged (1 / 2) 1 (.s110 .primary)).create 2 = .ok B := by
    unfold PairObservable.create HistogramBuilder.create
    obtain ⟨H, hH⟩ := ((C43_create (PairObservable.averaged (1 / 2) 1 (.s110 .primary)).spec 0).1).mpr (by simp [PairObservable.spec])
    rw [hH]
    exact ⟨_, rfl⟩
  have hz : (0 : Vec3 ℝ).norm = 0 := by simp [Vec3.norm, Vec3.norm2, Vec3.dot]
  have hnx := norm_x (1 / 10) (by norm_num)
  have ax : ∀ s, (Geometry.rod []).getAxis .primary s = .ok (s.rot.mulVec ⟨0, 0, 1⟩) := fun s => rfl
  have hcalc : ∀ s t d, (CorrelationFn.s110 .primary).calculate (Geometry.rod []) s t d = .ok ((s.rot.mulVec ⟨0, 0, 1⟩).dot (t.rot.mulVec ⟨0, 0, 1⟩)) := by
    intro s t d
    unfold CorrelationFn.calculate
    rw [show (CorrelationFn.s110 .primary).axis = .primary from rfl, ax, ax, Outcome.ok_bind, Outcome.ok_bind]
    rfl
  obtain ⟨B', values, h1, h2, h3, h4⟩ := C94_average_partial (E := .radial "o") (G := Geometry.rod []) (n := 1) (by norm_num) hB (runs := [crossedRun])
    (by intro r hr; rw [List.mem_singleton.mp hr]; exact crossedRun_legal) (by simp) (val := fun _ p => if p.i = p.j then 1 else 0) (by
      intro r hr p hp _
      rw [List.mem_singleton.mp hr] at hp ⊢
      simp only [crossedRun, List.mem_cons, List.not_mem_nil, or_false] at hp
      rcases hp with rfl | rfl | rfl
      all_goals
        refine ⟨_, _, rfl, rfl, ?_⟩
        rw [hcalc]
        congr 1
        norm_num [Mat3.mulVec, Vec3.dot, one_row0, one_row1, one_row2])
  have h5 := h4 0 (by norm_num)
  have hin : itemsInBin (0, 1 / 2, 1) 0 crossedRun.items = crossedRun.items := by
    unfold itemsInBin
    rw [List.filter_eq_self]
    intro p hp
    simp only [crossedRun, List.mem_cons, List.not_mem_nil, or_false] at hp
    rcases hp with rfl | rfl | rfl <;> norm_num [BinContains, binEdge] <;> norm_num [hz, hnx]
  simp only [List.map_cons, List.map_nil, hin] at h5
  have hB2 : values = [(.num (2 / 3), 3)] := by
    refine List.ext_getElem? fun i => ?_
    rcases i with _ | i
    · rw [h5]
      norm_num [crossedRun]
    · rw [List.getElem?_eq_none (by omega)]
      rfl
  refine ⟨B, B', _, _, hB, h1, by rw [h2, hB2], rfl, ?_⟩
  rw [hcalc]
  congr 1
  norm_num [Mat3.mulVec, Vec3.dot, one_row0, one_row1, one_row2]

/-- **C95** For linear binning half of the particles are missing in the expected number: in the unit box the distance of each particle to any other is at most 1/2, and the number of
particles expected at distances up to 1/2 is half of the number of particles. -/
theorem C95_linear_violated (shapes : List Shape) (f : String) :
    (∀ p q u d, NearestVector ⟨1, 1⟩ p q u → DistanceVector (.linear 0 f) ⟨1, 1⟩ u d → d.norm ≤ 1 / 2) ∧
    (PairEnumerator.linear 0 f).expected ⟨⟨1, 1⟩, shapes⟩ [0, 1 / 2] = .ok [(shapes.length : ℝ) / 2] := by
  have hs : (⟨1, 1⟩ : Box).sides = ⟨⟨1, 0, 0⟩, ⟨0, 1, 0⟩, ⟨0, 0, 1⟩⟩ := by
    ext <;> norm_num [Box.sides, Box.relToAbs, Mat3.mulVec, Vec3.dot, one_row0, one_row1, one_row2]
  constructor
  · rintro p q u d ⟨-, s, hu, hx, -, -⟩ ⟨e, he, h0, rfl⟩
    have h1 := h0 1 (by decide)
    have h2 := h0 2 (by decide)
    rw [hs] at h1 h2
    have hy : e.y = 0 := by simpa [Vec3.dot, Vec3.get] using h1
    have hz : e.z = 0 := by simpa [Vec3.dot, Vec3.get] using h2
    have hux : u.x = s.x := by
      rw [hu]
      norm_num [combo, Mat3.c0, Mat3.c1, Mat3.c2, one_row0, one_row1, one_row2]
    have hex : e.x ^ 2 = 1 := by
      simp only [Vec3.norm2, Vec3.dot, hy, hz] at he
      linarith
    rw [Vec3.norm, show (u.dot e • e).norm2 = s.x ^ 2 by
      simp only [Vec3.norm2, Vec3.dot, Vec3.smul_x, Vec3.smul_y, Vec3.smul_z, hy, hz, hux]
      linear_combination s.x ^ 2 * (e.x ^ 2 + 1) * hex, Real.sqrt_sq_eq_abs]
    exact hx
  · have hv : (⟨1, 1⟩ : Box).volume = 1 := by
      rw [Box.volume, hs]
      norm_num [Vec3.cross, Vec3.dot]
    have hh : (⟨1, 1⟩ : Box).heights.get 0 = 1 := by
      show (⟨1, 1⟩ : Box).heights.x = 1
      unfold Box.heights
      simp only [hs, hv]
      rw [show Vec3.cross (⟨0, 1, 0⟩ : Vec3 ℝ) ⟨0, 0, 1⟩ = ⟨1, 0, 0⟩ by ext <;> norm_num [Vec3.cross], norm_x 1 (by norm_num)]
      norm_num
    unfold PairEnumerator.expected
    rw [decide_eq_true (by simp), Outcome.require_true, Outcome.ok_bind, decide_eq_true (by norm_num), Outcome.require_true, Outcome.ok_bind]
    simp only [List.map_cons, List.map_nil, PairEnumerator.differences, PairEnumerator.within, View.volume, View.numberDensity, hv, hh]
    show Outcome.ok _ = _
    congr 2
    norm_num
    ring

/-! ### Examples -/

/-- The two rods: the run is legal, the pair density can be calculated. -/
example : ∃ B B' values, (PairObservable.density (1 / 2) 5).create 2 = .ok B ∧ runPairs (.density (1 / 2) 5) (.radial "o") (Geometry.rod []) B [crossedRun, crossedRun] = .ok B' ∧
    B'.dumpHistogram .sum = .ok values ∧ values.length = 5 := by
  obtain ⟨B, hB⟩ : ∃ B, (PairObservable.density (1 / 2) 5).create 2 = .ok B := by
    unfold PairObservable.create HistogramBuilder.create
    obtain ⟨H, hH⟩ := ((C43_create (PairObservable.density (1 / 2) 5).spec 0).1).mpr (by simp [PairObservable.spec])
    rw [hH]
    exact ⟨_, rfl⟩
  obtain ⟨B', values, h1, h2, h3, -⟩ := C95_density (E := .radial "o") trivial (G := Geometry.rod []) (n := 5) (by norm_num) hB (runs := [crossedRun, crossedRun])
    (by intro r hr; simp only [List.mem_cons, List.not_mem_nil, or_false, or_self] at hr; rw [hr]; exact crossedRun_legal) (by simp)
  exact ⟨B, B', values, hB, h1, h2, h3⟩

/-- Axes at an angle for which the value of the S221 correlation is not zero. -/
example : ∃ v, (CorrelationFn.s221 .primary).forAxes ⟨1, 0, 0⟩ ⟨3 / 5, 4 / 5, 0⟩ ⟨0, 0, 2⟩ = .ok v ∧ v = 12 / 25 := by
  obtain ⟨v, h1, -, h2, -⟩ := C94_functions (a1 := ⟨1, 0, 0⟩) (a2 := ⟨3 / 5, 4 / 5, 0⟩) (d := ⟨0, 0, 2⟩) (by norm_num [Vec3.norm2, Vec3.dot]) (by norm_num [Vec3.norm2, Vec3.dot])
    (by norm_num [Vec3.norm2, Vec3.dot]) (.s221 .primary)
  refine ⟨v, h1, ?_⟩
  rw [Vec3.norm, show (⟨0, 0, 2⟩ : Vec3 ℝ).norm2 = 2 ^ 2 by norm_num [Vec3.norm2, Vec3.dot], Real.sqrt_sq (by norm_num)] at h2
  norm_num [Vec3.cross, Vec3.dot] at h2
  linarith

end Rampack
