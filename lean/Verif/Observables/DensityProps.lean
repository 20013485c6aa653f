import Verif.Observables.DensitySpec
import Verif.Observables.EvolutionProps
import Verif.Sim.MirrorLemmas
/-
Theorems on density histograms and on functions averaged in bins (C97, C98).
-/
namespace Rampack

open Spec

namespace Binned

/-! ### Bins -/

theorem bin01 {n k : Nat} {x : ℝ} (hx : x < 1) : BinContains (0, 1, n) k x ↔ k < n ∧ (k : ℝ) / n ≤ x ∧ x < (k + 1 : ℝ) / n := by
  unfold BinContains binEdge
  simp only [zero_add, sub_zero, one_mul, Nat.cast_add, Nat.cast_one]
  constructor
  · rintro ⟨h1, h2, h3⟩
    refine ⟨h1, h2, ?_⟩
    rcases h3 with h3 | ⟨h3, h4⟩
    · exact h3
    · exfalso
      have : (0 : ℝ) < n := by exact_mod_cast (by omega : 0 < n)
      have e : ((k : ℝ) + 1) / n = 1 := by
        rw [div_eq_one_iff_eq this.ne']
        exact_mod_cast h3
      rw [e] at h4
      linarith
  · rintro ⟨h1, h2, h3⟩
    exact ⟨h1, h2, Or.inl h3⟩

theorem box3 {a b c : ℝ × ℝ × Nat} {i j k : Nat} {x y z : ℝ} :
    BoxContains [a, b, c] [i, j, k] [x, y, z] ↔ BinContains a i x ∧ BinContains b j y ∧ BinContains c k z := by
  unfold BoxContains
  constructor
  · intro h
    exact ⟨h.2 0 a i x rfl rfl rfl, h.2 1 b j y rfl rfl rfl, h.2 2 c k z rfl rfl rfl⟩
  · intro h
    refine ⟨rfl, fun m a' j x' h1 h2 h3 => ?_⟩
    match m with
    | 0 => simp at h1 h2 h3; subst h1 h2 h3; exact h.1
    | 1 => simp at h1 h2 h3; subst h1 h2 h3; exact h.2.1
    | 2 => simp at h1 h2 h3; subst h1 h2 h3; exact h.2.2
    | m + 3 => simp at h1

theorem within3 {a b c : ℝ × ℝ × Nat} {x y z : ℝ} (h1 : a.1 ≤ x ∧ x ≤ a.2.1) (h2 : b.1 ≤ y ∧ y ≤ b.2.1) (h3 : c.1 ≤ z ∧ z ≤ c.2.1) : WithinRanges [a, b, c] [x, y, z] := by
  intro i a' x' e1 e2
  match i with
  | 0 => simp at e1 e2; subst e1 e2; exact h1
  | 1 => simp at e1 e2; subst e1 e2; exact h2
  | 2 => simp at e1 e2; subst e1 e2; exact h3
  | i + 3 => simp at e1

theorem proper3 {n k : Vec3 Nat} (h : k.x < n.x ∧ k.y < n.y ∧ k.z < n.z) : ProperIndex (spec n) [k.x, k.y, k.z] := by
  refine ⟨rfl, fun i a j e1 e2 => ?_⟩
  match i with
  | 0 => simp [spec] at e1 e2; subst e1 e2; exact h.1
  | 1 => simp [spec] at e1 e2; subst e1 e2; exact h.2.1
  | 2 => simp [spec] at e1 e2; subst e1 e2; exact h.2.2
  | i + 3 => simp [spec] at e1

/-- The corrected position is in the box and is an image of the position. -/
theorem corrected {b : Box} (hb : b.WF) (p : Vec3 ℝ) : ∃ s : Vec3 ℝ, b.absToRel (p + PBC.getCorrection b p) = s ∧ (0 ≤ s.x ∧ s.x < 1) ∧ (0 ≤ s.y ∧ s.y < 1) ∧ (0 ≤ s.z ∧ s.z < 1) ∧
    ∃ m, p = combo b s + lattice b m := by
  obtain ⟨⟨s, h1, h2, h3, e⟩, ⟨m, hm⟩, -⟩ := C05_correction (make_of_wf hb) p
  refine ⟨s, ?_, h1, h2, h3, ⟨-m.x, -m.y, -m.z⟩, ?_⟩
  · rw [e, ← Box.relToAbs_eq_combo, Box.absToRel_relToAbs hb]
  · rw [← e, hm]
    have : lattice b ⟨-m.x, -m.y, -m.z⟩ = - lattice b m := by
      simp only [lattice, combo, Vec3.map]
      push_cast
      ext <;> simp <;> ring
    rw [this]
    abel

theorem inBin_iff {b : Box} (hb : b.WF) (n k : Vec3 Nat) (p d : Vec3 ℝ) : BoxContains (spec n) [k.x, k.y, k.z] (relative b p d) ↔ InBin n k b (p - d) := by
  obtain ⟨s, e, h1, h2, h3, m, hm⟩ := corrected hb (p - d)
  have er : relative b p d = [s.x, s.y, s.z] := by
    unfold relative
    simp only [e]
  rw [er, spec, box3, bin01 h1.2, bin01 h2.2, bin01 h3.2]
  constructor
  · intro h
    exact ⟨s, m, hm, h⟩
  · rintro ⟨t, m', hm', h⟩
    have lt1 : ∀ {k n : Nat} {x : ℝ}, k < n ∧ (k : ℝ) / n ≤ x ∧ x < (k + 1 : ℝ) / n → 0 ≤ x ∧ x < 1 := by
      rintro k n x ⟨q1, q2, q3⟩
      have hn : (0 : ℝ) < n := by exact_mod_cast (by omega : 0 < n)
      refine ⟨le_trans (by positivity) q2, lt_of_lt_of_le q3 ?_⟩
      rw [div_le_one hn]
      exact_mod_cast q1
    have hin : Inside b (combo b t) := ⟨t, lt1 h.1, lt1 h.2.1, lt1 h.2.2, rfl⟩
    have hc := (C05_correction (make_of_wf hb) (combo b t)).2.2.2 (p - d) ⟨m', by rw [hm']; abel⟩
    rw [(C05_correction (make_of_wf hb) (combo b t)).2.2.1 hin, add_zero] at hc
    have : s = t := by rw [← e, hc, ← Box.relToAbs_eq_combo, Box.absToRel_relToAbs hb]
    rw [this]
    exact h

theorem relative_within {b : Box} (hb : b.WF) (n : Vec3 Nat) (p d : Vec3 ℝ) : (relative b p d).length = (spec n).length ∧ WithinRanges (spec n) (relative b p d) := by
  obtain ⟨s, e, h1, h2, h3, -⟩ := corrected hb (p - d)
  have er : relative b p d = [s.x, s.y, s.z] := by
    unfold relative
    simp only [e]
  rw [er]
  exact ⟨rfl, within3 ⟨h1.1, h1.2.le⟩ ⟨h2.1, h2.2.le⟩ ⟨h3.1, h3.2.le⟩⟩

/-- Positions in snapshots with values of particles. -/
noncomputable def samples (r : DensityRun) (d : Vec3 ℝ) (v : Shape → ℝ) : List Sample :=
  r.calls.map fun c => let s := r.V.shapes.getD c.2 ⟨0, 1⟩; ⟨c.1, relative r.V.box s.pos d, v s⟩

theorem samples_perm {r : DensityRun} {threads : Nat} (h : r.Legal threads) (d : Vec3 ℝ) (v : Shape → ℝ) (P : List ℝ → Prop) [DecidablePred P] :
    (((samples r d v).filter fun x => P x.pos).map Sample.value).Perm ((r.V.shapes.filter fun s => P (relative r.V.box s.pos d)).map v) := by
  have h1 : (r.calls.map fun c => r.V.shapes.getD c.2 ⟨0, 1⟩).Perm r.V.shapes := by
    have e : (r.calls.map fun c => r.V.shapes.getD c.2 ⟨0, 1⟩) = (r.calls.map Prod.snd).map fun i => r.V.shapes.getD i ⟨0, 1⟩ := by rw [List.map_map]; rfl
    rw [e]
    refine (h.2.1.map _).trans ?_
    have : ((List.range r.V.shapes.length).map fun i => r.V.shapes.getD i ⟨0, 1⟩) = r.V.shapes := by
      refine List.ext_getElem (by simp) fun i h1 h2 => ?_
      rw [List.getElem_map, List.getElem_range, List.getD_eq_getElem?_getD, List.getElem?_eq_getElem h2]
      rfl
    rw [this]
  have e : (samples r d v) = r.calls.map fun c => ⟨c.1, relative r.V.box (r.V.shapes.getD c.2 ⟨0, 1⟩).pos d, v (r.V.shapes.getD c.2 ⟨0, 1⟩)⟩ := rfl
  have e2 : ((samples r d v).filter fun x => P x.pos).map Sample.value =
      ((r.calls.map fun c => r.V.shapes.getD c.2 ⟨0, 1⟩).filter fun s => P (relative r.V.box s.pos d)).map v := by
    rw [e, List.filter_map, List.filter_map, List.map_map, List.map_map]
    rfl
  rw [e2]
  exact (h1.filter _).map _

/-! ### Snapshots -/

theorem atIndex3 {a b c : HAxis} {bins : List (ℝ × Nat)} {init : ℝ} {i j k : Nat} (hi : i < a.n) (hj : j < b.n) (hk : k < c.n) :
    Histogram.atIndex ⟨[a, b, c], bins, init⟩ [i, j, k] = .ok (c.n * (b.n * i + j) + k) := by
  have h : ∀ q ∈ [a, b, c].zip [i, j, k], q.2 < q.1.n := by
    intro q hq
    simp only [List.zip_cons_cons, List.zip_nil_left, List.mem_cons, List.not_mem_nil, or_false] at hq
    rcases hq with rfl | rfl | rfl
    · exact hi
    · exact hj
    · exact hk
  unfold Histogram.atIndex
  rw [decide_eq_true h, Outcome.require_true, Outcome.ok_bind]
  simp [Histogram.flattenIndex]

/-- What histograms contain after all snapshots. -/
theorem core {n : Vec3 Nat} (hn : n.x < 2 ^ 64 ∧ n.y < 2 ^ 64 ∧ n.z < 2 ^ 64) {threads : Nat} {B : HistogramBuilder} (h : HistogramBuilder.create (spec n) threads 0 = .ok B)
    {runs : List DensityRun} (hr : ∀ r ∈ runs, r.Legal threads) (hne : runs ≠ []) (o : Vec3 ℝ) (v : DensityRun → Shape → ℝ) :
    ∃ B' sums averages, runHist B (runs.map fun r => ⟨samples r (r.origin - o) (v r), none⟩) = .ok B' ∧ B'.dumpHistogram .sum = .ok sums ∧ B'.dumpHistogram .average = .ok averages ∧
      sums.length = n.x * n.y * n.z ∧ averages.length = n.x * n.y * n.z ∧ ∀ k : Vec3 Nat, k.x < n.x ∧ k.y < n.y ∧ k.z < n.z →
      sums[flatBin n k]? = some (.num ((runs.map fun r => binSum n k (v r) r.V (r.origin - o)).sum / runs.length), (runs.map fun r => population n k r.V (r.origin - o)).sum) ∧
      averages[flatBin n k]? = some (if (runs.map fun r => population n k r.V (r.origin - o)).sum = 0 then .undefined
        else .num ((runs.map fun r => binSum n k (v r) r.V (r.origin - o)).sum / (runs.map fun r => population n k r.V (r.origin - o)).sum),
        (runs.map fun r => population n k r.V (r.origin - o)).sum) := by
  classical
  have h0 := h
  unfold HistogramBuilder.create at h0
  obtain ⟨H, hH, h0⟩ := Outcome.bind_eq_ok.mp h0
  injection h0 with h0
  obtain ⟨hist, hhist⟩ : ∃ hist, hist = runs.map fun r => (⟨samples r (r.origin - o) (v r), none⟩ : HistSnapshot) := ⟨_, rfl⟩
  have hlegal : LegalHist (spec n) threads B.histogram.bins.length hist := by
    intro s hs
    rw [hhist] at hs
    obtain ⟨r, hr', rfl⟩ := List.mem_map.mp hs
    refine ⟨fun x hx => ?_, fun f hf => by cases hf⟩
    obtain ⟨c, hc, rfl⟩ := List.mem_map.mp hx
    exact ⟨(hr r hr').2.2 c hc, relative_within (hr r hr').1 n _ _⟩
  obtain ⟨B', sums, avgs, g1, g2, g3, g4, g5, -, g6⟩ := C44_build (spec := spec n) (by
    intro a ha
    simp only [spec, List.mem_cons, List.not_mem_nil, or_false] at ha
    rcases ha with rfl | rfl | rfl
    · exact hn.1
    · exact hn.2.1
    · exact hn.2.2) h hlegal
  have hlen : B.histogram.bins.length = n.x * n.y * n.z := by
    rw [← h0]
    show H.bins.length = _
    rw [(C43_create _ _).2.2 H hH]
    simp [spec]
    ring
  rw [← hhist]
  refine ⟨B', sums, avgs, g1, g2, g3, g4.trans hlen, g5.trans hlen, fun k hk => ?_⟩
  have hat : B.histogram.atIndex [k.x, k.y, k.z] = .ok (flatBin n k) := by
    rw [← h0]
    obtain ⟨-, rfl⟩ := Histogram.create_ok hH
    exact atIndex3 hk.1 hk.2.1 hk.2.2
  obtain ⟨g7, g8⟩ := g6 (by rw [hhist]; simpa using hne) [k.x, k.y, k.z] (flatBin n k) (proper3 hk) hat
  have hp : ∀ r ∈ runs, (((samples r (r.origin - o) (v r)).filter fun x => BoxContains (spec n) [k.x, k.y, k.z] x.pos).map Sample.value).Perm
      ((r.V.shapes.filter fun s => InBin n k r.V.box (s.pos - (r.origin - o))).map (v r)) := by
    intro r hr'
    have := samples_perm (hr r hr') (r.origin - o) (v r) (fun pos => BoxContains (spec n) [k.x, k.y, k.z] pos)
    simp only [inBin_iff (hr r hr').1] at this
    exact this
  have hsum : (hist.map fun s => snapshotSum (spec n) [k.x, k.y, k.z] s * factorOf s (flatBin n k)) = runs.map fun r => binSum n k (v r) r.V (r.origin - o) := by
    rw [hhist, List.map_map]
    refine List.map_congr_left fun r hr' => ?_
    simp only [Function.comp, factorOf, mul_one, snapshotSum, binSum]
    exact (hp r hr').sum_eq
  have hcnt : (hist.map (snapshotCount (spec n) [k.x, k.y, k.z])) = runs.map fun r => population n k r.V (r.origin - o) := by
    rw [hhist, List.map_map]
    refine List.map_congr_left fun r hr' => ?_
    simp only [Function.comp, snapshotCount, population]
    have := (hp r hr').length_eq
    rw [List.length_map, List.length_map] at this
    exact this
  have hl : hist.length = runs.length := by rw [hhist, List.length_map]
  rw [hsum, hcnt, hl] at g7
  rw [hsum, hcnt] at g8
  exact ⟨g7, g8⟩

theorem create_eq {m : Vec3 Nat} {threads : Nat} {S : BinnedState} (h : create m threads = .ok S) :
    HistogramBuilder.create (spec (normalizeNumBins m)) threads 0 = .ok S.builder ∧ S.numBins = normalizeNumBins m ∧ S.firstOrigin = none := by
  unfold create at h
  obtain ⟨B, h1, h⟩ := Outcome.bind_eq_ok.mp h
  obtain ⟨_, -, h⟩ := Outcome.bind_eq_ok.mp h
  injection h with h
  subst h
  exact ⟨h1, rfl, rfl⟩

theorem call_shape {r : DensityRun} {threads : Nat} (h : r.Legal threads) {c : Nat × Nat} (hc : c ∈ r.calls) :
    vget r.V.shapes c.2 = .ok (r.V.shapes.getD c.2 ⟨0, 1⟩) ∧ r.V.shapes.getD c.2 ⟨0, 1⟩ ∈ r.V.shapes := by
  have : c.2 ∈ List.range r.V.shapes.length := h.2.1.mem_iff.mp (List.mem_map_of_mem hc)
  have hl := List.mem_range.mp this
  rw [vget_ok hl, List.getD_eq_getElem?_getD, List.getElem?_eq_getElem hl]
  exact ⟨rfl, List.getElem_mem hl⟩

end Binned

namespace DensityHistogram

open Binned

theorem fold_calls {V : View} {d : Vec3 ℝ} {w : ℝ} : ∀ {calls : List (Nat × Nat)} {B : HistogramBuilder}, (∀ c ∈ calls, vget V.shapes c.2 = .ok (V.shapes.getD c.2 ⟨0, 1⟩)) →
    calls.foldlM (addParticle V d w) B = (samples ⟨V, 0, calls⟩ d fun _ => w).foldlM (fun (B : HistogramBuilder) x => B.add x.thread x.pos x.value) B
  | [], B, _ => rfl
  | c :: calls, B, h => by
    have e : samples ⟨V, 0, c :: calls⟩ d (fun _ => w) = ⟨c.1, relative V.box (V.shapes.getD c.2 ⟨0, 1⟩).pos d, w⟩ :: samples ⟨V, 0, calls⟩ d fun _ => w := rfl
    rw [e, List.foldlM_cons, List.foldlM_cons]
    unfold addParticle
    rw [h c List.mem_cons_self, Outcome.ok_bind]
    congr 1
    funext B'
    exact fold_calls fun c' h' => h c' (List.mem_cons_of_mem _ h')

theorem snapshot_eq {norm : DensityNorm} {S : BinnedState} {r : DensityRun} {threads : Nat} (h : r.Legal threads) :
    addSnapshot norm S r.V r.origin r.calls =
      (runSnapshot S.builder ⟨samples r (r.origin - firstOr S.firstOrigin r.origin) (fun _ => weight norm S.numBins r.V), none⟩ >>= fun B =>
        .ok ⟨S.numBins, B, some (firstOr S.firstOrigin r.origin)⟩) := by
  unfold addSnapshot runSnapshot
  simp only []
  rw [fold_calls fun c hc => (call_shape h hc).1]
  have : samples ⟨r.V, 0, r.calls⟩ (r.origin - firstOr S.firstOrigin r.origin) (fun _ => weight norm S.numBins r.V) =
    samples r (r.origin - firstOr S.firstOrigin r.origin) (fun _ => weight norm S.numBins r.V) := rfl
  rw [this, bind_assoc]
  rfl

theorem runs_eq {norm : DensityNorm} {threads : Nat} {o : Vec3 ℝ} : ∀ {runs : List DensityRun} {S : BinnedState}, S.firstOrigin = some o → (∀ r ∈ runs, r.Legal threads) →
    runDensity norm S runs = (runHist S.builder (runs.map fun r => ⟨samples r (r.origin - o) (fun _ => weight norm S.numBins r.V), none⟩) >>= fun B => .ok ⟨S.numBins, B, some o⟩)
  | [], S, h, _ => by
    obtain ⟨n, B, f⟩ := S
    subst h
    rfl
  | r :: runs, S, h, hr => by
    unfold runDensity runHist
    rw [List.foldlM_cons, List.map_cons, List.foldlM_cons, snapshot_eq (hr r List.mem_cons_self), bind_assoc, bind_assoc, h]
    congr 1
    funext B
    rw [Outcome.ok_bind]
    exact runs_eq (S := ⟨S.numBins, B, some o⟩) rfl fun r' h' => hr r' (List.mem_cons_of_mem _ h')

theorem first_eq {norm : DensityNorm} {S : BinnedState} (h : S.firstOrigin = none) (r : DensityRun) (runs : List DensityRun) :
    runDensity norm S (r :: runs) = runDensity norm ⟨S.numBins, S.builder, some r.origin⟩ (r :: runs) := by
  unfold runDensity
  rw [List.foldlM_cons, List.foldlM_cons]
  congr 1
  unfold addSnapshot firstOr
  simp only [h, Option.getD_none, Option.getD_some]

theorem binSum_const (n k : Vec3 Nat) (w : ℝ) (V : View) (d : Vec3 ℝ) : binSum n k (fun _ => w) V d = population n k V d * w := by
  unfold binSum population
  rw [List.map_const', List.sum_replicate, nsmul_eq_mul]

theorem weight_eq (norm : DensityNorm) (n k : Vec3 Nat) (V : View) (d : Vec3 ℝ) : population n k V d * weight norm n V = densityValue norm n k V d := by
  cases norm with
  | avgCount => simp [weight, densityValue]
  | unit =>
    simp only [weight, densityValue]
    push_cast
    rw [div_div_eq_mul_div]
    ring

theorem normalize_pos (m : Vec3 Nat) : 0 < (normalizeNumBins m).x ∧ 0 < (normalizeNumBins m).y ∧ 0 < (normalizeNumBins m).z := by
  unfold normalizeNumBins
  simp only
  split_ifs <;> omega

theorem normalize_lt {m : Vec3 Nat} (h : m.x < 2 ^ 64 ∧ m.y < 2 ^ 64 ∧ m.z < 2 ^ 64) :
    (normalizeNumBins m).x < 2 ^ 64 ∧ (normalizeNumBins m).y < 2 ^ 64 ∧ (normalizeNumBins m).z < 2 ^ 64 := by
  unfold normalizeNumBins
  simp only
  split_ifs <;> omega

/-- **C97** A histogram is created exactly if it has more than one bin in some direction; directions without bins have one. -/
theorem C97_create (m : Vec3 Nat) (threads : Nat) :
    ((∃ S, Binned.create m threads = .ok S) ↔ 1 < m.x ∨ 1 < m.y ∨ 1 < m.z) ∧
    ((∃ S, Binned.create m threads = .ok S) ∨ ∃ e, Binned.create m threads = .throw e) ∧
    ∀ S, Binned.create m threads = .ok S → S.numBins = ⟨max 1 m.x, max 1 m.y, max 1 m.z⟩ := by
  obtain ⟨B, hB⟩ : ∃ B, HistogramBuilder.create (spec (normalizeNumBins m)) threads 0 = .ok B := by
    obtain ⟨H, hH⟩ := ((C43_create (spec (normalizeNumBins m)) 0).1).mpr (by
      obtain ⟨h1, h2, h3⟩ := normalize_pos m
      intro a ha
      simp only [spec, List.mem_cons, List.not_mem_nil, or_false] at ha
      rcases ha with rfl | rfl | rfl
      · exact ⟨one_pos, h1⟩
      · exact ⟨one_pos, h2⟩
      · exact ⟨one_pos, h3⟩)
    unfold HistogramBuilder.create
    rw [hH, Outcome.ok_bind]
    exact ⟨_, rfl⟩
  have key : Binned.create m threads = if 1 < m.x ∨ 1 < m.y ∨ 1 < m.z then .ok ⟨normalizeNumBins m, B, none⟩ else
      .throw "Expects(std::any_of(numBins.begin(), numBins.end(), [](std::size_t n) { return n > 1; }))" := by
    unfold Binned.create
    rw [hB, Outcome.ok_bind]
    by_cases h : m.x > 1 ∨ m.y > 1 ∨ m.z > 1
    · rw [decide_eq_true h, Outcome.require_true, Outcome.ok_bind, if_pos h]
      rfl
    · rw [decide_eq_false h, if_neg h]
      rfl
  rw [key]
  refine ⟨?_, ?_, fun S hS => ?_⟩
  · by_cases h : 1 < m.x ∨ 1 < m.y ∨ 1 < m.z
    · simp only [if_pos h, h, iff_true]
      exact ⟨_, rfl⟩
    · simp only [if_neg h, h, iff_false]
      rintro ⟨S, hS⟩
      cases hS
  · by_cases h : 1 < m.x ∨ 1 < m.y ∨ 1 < m.z
    · exact Or.inl ⟨_, if_pos h⟩
    · exact Or.inr ⟨_, if_neg h⟩
  · split_ifs at hS with h
    · injection hS with hS
      rw [← hS]
      unfold normalizeNumBins
      ext <;> simp only <;> split_ifs <;> omega

/-- **C97** After any number of snapshots, whatever the number of threads and the order of processing, the value printed for each bin is the average over snapshots of the number of
particles in it (or of this number divided by the one in the average bin), where each snapshot is moved back by the displacement of the tracked origin since the first snapshot. -/
theorem C97_values {m : Vec3 Nat} (hm : m.x < 2 ^ 64 ∧ m.y < 2 ^ 64 ∧ m.z < 2 ^ 64) {threads : Nat} {S : BinnedState} (h : Binned.create m threads = .ok S) (norm : DensityNorm)
    {r₀ : DensityRun} {runs : List DensityRun} (hr : ∀ r ∈ r₀ :: runs, r.Legal threads) :
    ∃ S' sums, runDensity norm S (r₀ :: runs) = .ok S' ∧ S'.builder.dumpHistogram .sum = .ok sums ∧ sums.length = S.numBins.x * S.numBins.y * S.numBins.z ∧
      ∀ k : Vec3 Nat, k.x < S.numBins.x ∧ k.y < S.numBins.y ∧ k.z < S.numBins.z → sums[flatBin S.numBins k]? =
        some (.num (((r₀ :: runs).map fun r => densityValue norm S.numBins k r.V (r.origin - r₀.origin)).sum / (r₀ :: runs).length),
          ((r₀ :: runs).map fun r => population S.numBins k r.V (r.origin - r₀.origin)).sum) := by
  obtain ⟨h1, h2, h3⟩ := create_eq h
  rw [← h2] at h1
  obtain ⟨B', sums, _, g1, g2, -, g3, -, g4⟩ := core (by rw [h2]; exact normalize_lt hm) h1 hr (by simp) r₀.origin (fun r _ => weight norm S.numBins r.V)
  rw [first_eq h3, runs_eq (o := r₀.origin) rfl hr, g1, Outcome.ok_bind]
  refine ⟨_, sums, rfl, g2, g3, fun k hk => ?_⟩
  obtain ⟨g5, -⟩ := g4 k hk
  simp only [binSum_const, weight_eq] at g5
  exact g5

/-- Bins of one coordinate. -/
theorem unit_bin {n : Nat} (hn : 0 < n) {x : ℝ} (h : 0 ≤ x ∧ x < 1) : ∃ k : Nat, (k < n ∧ (k : ℝ) / n ≤ x ∧ x < (k + 1 : ℝ) / n) ∧
    ∀ k' : Nat, k' < n ∧ (k' : ℝ) / n ≤ x ∧ x < (k' + 1 : ℝ) / n → k' = k := by
  have hn' : (0 : ℝ) < n := by exact_mod_cast hn
  have hx : 0 ≤ x * n := mul_nonneg h.1 hn'.le
  refine ⟨⌊x * n⌋₊, ⟨?_, ?_, ?_⟩, ?_⟩
  · rw [Nat.floor_lt hx]
    nlinarith [h.2]
  · rw [div_le_iff₀ hn']
    exact Nat.floor_le hx
  · rw [lt_div_iff₀ hn']
    exact_mod_cast Nat.lt_floor_add_one (x * n)
  · rintro k' ⟨-, h2, h3⟩
    rw [div_le_iff₀ hn'] at h2
    rw [lt_div_iff₀ hn'] at h3
    exact ((Nat.floor_eq_iff hx).mpr ⟨h2, h3⟩).symm

/-- **C97** Each particle is in exactly one bin. -/
theorem C97_bin {b : Box} (hb : b.WF) {n : Vec3 Nat} (hn : 0 < n.x ∧ 0 < n.y ∧ 0 < n.z) (p : Vec3 ℝ) : ∃ k, InBin n k b p ∧ ∀ k', InBin n k' b p → k' = k := by
  obtain ⟨s, e, h1, h2, h3, m, hm⟩ := corrected hb p
  obtain ⟨i, hi, ui⟩ := unit_bin hn.1 h1
  obtain ⟨j, hj, uj⟩ := unit_bin hn.2.1 h2
  obtain ⟨l, hl, ul⟩ := unit_bin hn.2.2 h3
  refine ⟨⟨i, j, l⟩, ⟨s, m, hm, hi, hj, hl⟩, fun k' hk' => ?_⟩
  have := (inBin_iff hb n k' p 0).mpr (by rw [sub_zero]; exact hk')
  have er : relative b p 0 = [s.x, s.y, s.z] := by
    unfold relative
    simp only [sub_zero, e]
  rw [er, spec, box3, bin01 h1.2, bin01 h2.2, bin01 h3.2] at this
  ext
  · exact ui _ this.1
  · exact uj _ this.2.1
  · exact ul _ this.2.2

/-- **C97** Numbers of particles in all bins add up to the number of particles in the system. -/
theorem C97_total {V : View} (hb : V.box.WF) {n : Vec3 Nat} (hn : 0 < n.x ∧ 0 < n.y ∧ 0 < n.z) (d : Vec3 ℝ) :
    ((List.range n.x).map fun i => ((List.range n.y).map fun j => ((List.range n.z).map fun l => population n ⟨i, j, l⟩ V d).sum).sum).sum = V.shapes.length := by
  classical
  have h1 : ∀ i j, ((List.range n.z).map fun l => population n ⟨i, j, l⟩ V d).sum = (V.shapes.filter fun s => ∃ l, InBin n ⟨i, j, l⟩ V.box (s.pos - d)).length := by
    intro i j
    have := ProbabilityEvolution.count_kinds (fun s : Shape => ∃ l, InBin n ⟨i, j, l⟩ V.box (s.pos - d)) (fun l s => InBin n ⟨i, j, l⟩ V.box (s.pos - d)) n.z (by
      rintro s ⟨l, hl⟩
      refine ⟨l, ?_, hl, fun l' hl' => ?_⟩
      · obtain ⟨_, _, -, -, -, q, -⟩ := hl; exact q
      · obtain ⟨k, -, hu⟩ := C97_bin hb hn (s.pos - d)
        exact congrArg Vec3.z ((hu _ hl').trans (hu _ hl).symm)) (fun l s hl => ⟨l, hl⟩) V.shapes
    unfold population
    convert this
  have h2 : ∀ i, ((List.range n.y).map fun j => (V.shapes.filter fun s => ∃ l, InBin n ⟨i, j, l⟩ V.box (s.pos - d)).length).sum =
      (V.shapes.filter fun s => ∃ j l, InBin n ⟨i, j, l⟩ V.box (s.pos - d)).length := by
    intro i
    have := ProbabilityEvolution.count_kinds (fun s : Shape => ∃ j l, InBin n ⟨i, j, l⟩ V.box (s.pos - d)) (fun j s => ∃ l, InBin n ⟨i, j, l⟩ V.box (s.pos - d)) n.y (by
      rintro s ⟨j, l, hl⟩
      refine ⟨j, ?_, ⟨l, hl⟩, fun j' hl' => ?_⟩
      · obtain ⟨_, _, -, -, q, -⟩ := hl; exact q.1
      · obtain ⟨l', hl'⟩ := hl'
        obtain ⟨k, -, hu⟩ := C97_bin hb hn (s.pos - d)
        exact congrArg Vec3.y ((hu _ hl').trans (hu _ hl).symm)) (fun j s hl => ⟨j, hl⟩) V.shapes
    convert this
  have h3 : ((List.range n.x).map fun i => (V.shapes.filter fun s => ∃ j l, InBin n ⟨i, j, l⟩ V.box (s.pos - d)).length).sum =
      (V.shapes.filter fun s => ∃ i j l, InBin n ⟨i, j, l⟩ V.box (s.pos - d)).length := by
    have := ProbabilityEvolution.count_kinds (fun s : Shape => ∃ i j l, InBin n ⟨i, j, l⟩ V.box (s.pos - d)) (fun i s => ∃ j l, InBin n ⟨i, j, l⟩ V.box (s.pos - d)) n.x (by
      rintro s ⟨i, j, l, hl⟩
      refine ⟨i, ?_, ⟨j, l, hl⟩, fun i' hl' => ?_⟩
      · obtain ⟨_, _, -, q, -⟩ := hl; exact q.1
      · obtain ⟨j', l', hl'⟩ := hl'
        obtain ⟨k, -, hu⟩ := C97_bin hb hn (s.pos - d)
        exact congrArg Vec3.x ((hu _ hl').trans (hu _ hl).symm)) (fun i s hl => ⟨i, hl⟩) V.shapes
    convert this
  simp only [h1, h2, h3]
  congr 1
  rw [List.filter_eq_self]
  intro s _
  obtain ⟨k, hk, -⟩ := C97_bin hb hn (s.pos - d)
  exact decide_eq_true ⟨k.x, k.y, k.z, hk⟩

/-- **C97** With the unit normalisation the average over bins is 1. -/
theorem C97_unit {V : View} (hb : V.box.WF) (hne : V.shapes ≠ []) {n : Vec3 Nat} (hn : 0 < n.x ∧ 0 < n.y ∧ 0 < n.z) (d : Vec3 ℝ) :
    ((List.range n.x).map fun i => ((List.range n.y).map fun j => ((List.range n.z).map fun l => densityValue .unit n ⟨i, j, l⟩ V d).sum).sum).sum / (n.x * n.y * n.z : ℝ) = 1 := by
  have h := C97_total hb hn d
  have h' : (((List.range n.x).map fun i => ((List.range n.y).map fun j => ((List.range n.z).map fun l => (population n ⟨i, j, l⟩ V d : ℝ)).sum).sum).sum : ℝ) = V.shapes.length := by
    rw [← h]
    simp only [Nat.cast_list_sum, List.map_map, Function.comp_def]
  have h1 : (0 : ℝ) < n.x := by exact_mod_cast hn.1
  have h2 : (0 : ℝ) < n.y := by exact_mod_cast hn.2.1
  have h3 : (0 : ℝ) < n.z := by exact_mod_cast hn.2.2
  have h4 : (0 : ℝ) < V.shapes.length := by exact_mod_cast List.length_pos_of_ne_nil hne
  simp only [densityValue, div_eq_mul_inv _ ((V.shapes.length : ℝ) * _), div_eq_mul_inv (_ : ℝ) (_ / _), List.sum_map_mul_right]
  rw [h']
  field_simp

theorem inBin_lattice {n k : Vec3 Nat} {b : Box} {p q : Vec3 ℝ} (h : IsLattice b (q - p)) (hp : InBin n k b p) : InBin n k b q := by
  obtain ⟨m, hm⟩ := h
  obtain ⟨s, m', e, hk⟩ := hp
  refine ⟨s, ⟨m'.x + m.x, m'.y + m.y, m'.z + m.z⟩, ?_, hk⟩
  have : q = p + lattice b m := by rw [← hm]; abel
  rw [this, e]
  simp only [lattice, combo, Vec3.map]
  push_cast
  ext <;> simp <;> ring

theorem isLattice_neg {b : Box} {v : Vec3 ℝ} (h : IsLattice b v) : IsLattice b (-v) := by
  obtain ⟨m, rfl⟩ := h
  refine ⟨⟨-m.x, -m.y, -m.z⟩, ?_⟩
  simp only [lattice, combo, Vec3.map]
  push_cast
  ext <;> simp <;> ring

theorem isLattice_sub {b : Box} {v w : Vec3 ℝ} (h : IsLattice b v) (h' : IsLattice b w) : IsLattice b (v - w) := by
  obtain ⟨m, rfl⟩ := h
  obtain ⟨m', rfl⟩ := h'
  refine ⟨⟨m.x - m'.x, m.y - m'.y, m.z - m'.z⟩, ?_⟩
  simp only [lattice, combo, Vec3.map]
  push_cast
  ext <;> simp <;> ring

/-- **C97** The drift is cancelled out: if all particles are moved by the same vector, up to lattice vectors, and so is the origin, numbers of particles in bins do not change. -/
theorem C97_drift {b : Box} {l l' : List Shape} {t o o' : Vec3 ℝ} (h : List.Forall₂ (fun s s' : Shape => IsLattice b (s'.pos - s.pos - t)) l l') (ho : IsLattice b (o' - o - t))
    (n k : Vec3 Nat) (first : Vec3 ℝ) : population n k ⟨b, l'⟩ (o' - first) = population n k ⟨b, l⟩ (o - first) := by
  classical
  unfold population
  simp only
  induction h with
  | nil => rfl
  | @cons s s' l l' hs _ ih =>
    have hd : IsLattice b (s'.pos - (o' - first) - (s.pos - (o - first))) := by
      have := isLattice_sub hs ho
      have e : s'.pos - s.pos - t - (o' - o - t) = s'.pos - (o' - first) - (s.pos - (o - first)) := by abel
      rwa [e] at this
    have hiff : InBin n k b (s'.pos - (o' - first)) ↔ InBin n k b (s.pos - (o - first)) := by
      refine ⟨inBin_lattice ?_, inBin_lattice hd⟩
      have := isLattice_neg hd
      rwa [neg_sub] at this
    rw [List.filter_cons, List.filter_cons]
    simp only [hiff]
    split_ifs
    · rw [List.length_cons, List.length_cons, ih]
    · exact ih

/-- Two particles which drift through the wall of the box, with the origin left by a lattice vector. -/
example (n k : Vec3 Nat) : population n k ⟨⟨1, 1⟩, [⟨⟨1 / 4, 0, 0⟩, 1⟩, ⟨⟨3 / 4, 0, 0⟩, 1⟩]⟩ (⟨-1 / 4, 0, 0⟩ - ⟨1 / 4, 0, 0⟩) =
    population n k ⟨⟨1, 1⟩, [⟨⟨3 / 4, 0, 0⟩, 1⟩, ⟨⟨1 / 4, 0, 0⟩, 1⟩]⟩ (⟨1 / 4, 0, 0⟩ - ⟨1 / 4, 0, 0⟩) := by
  have e : ∀ v : Vec3 ℤ, lattice ⟨1, 1⟩ v = v.map fun q : ℤ => (q : ℝ) := fun v => by
    rw [lattice, ← Box.relToAbs_eq_combo]; exact Mat3.one_mulVec _
  refine C97_drift (t := ⟨1 / 2, 0, 0⟩) (.cons ⟨⟨-1, 0, 0⟩, ?_⟩ (.cons ⟨⟨0, 0, 0⟩, ?_⟩ .nil)) ⟨⟨-1, 0, 0⟩, ?_⟩ n k _ <;> rw [e] <;> ext <;> simp [Vec3.map] <;> norm_num

/-- **C97** After clearing the histogram is as just created. -/
theorem C97_clear {m : Vec3 Nat} (hm : m.x < 2 ^ 64 ∧ m.y < 2 ^ 64 ∧ m.z < 2 ^ 64) {threads : Nat} {S : BinnedState} (h : Binned.create m threads = .ok S) (norm : DensityNorm)
    {runs : List DensityRun} (hr : ∀ r ∈ runs, r.Legal threads) : ∃ S', runDensity norm S runs = .ok S' ∧ Binned.clear S' = S := by
  obtain ⟨h1, h2, h3⟩ := create_eq h
  rw [← h2] at h1
  have hb : ∀ a ∈ spec S.numBins, a.2.2 < 2 ^ 64 := by
    obtain ⟨q1, q2, q3⟩ := normalize_lt hm
    rw [h2]
    intro a ha
    simp only [spec, List.mem_cons, List.not_mem_nil, or_false] at ha
    rcases ha with rfl | rfl | rfl
    · exact q1
    · exact q2
    · exact q3
  have hS : ∀ o B', (HistogramBuilder.clear B' = S.builder) → Binned.clear ⟨S.numBins, B', o⟩ = S := by
    intro o B' hB
    unfold Binned.clear
    simp only [hB]
    rw [← h3]
  cases runs with
  | nil =>
    obtain ⟨B', e, hc⟩ := C44_clear hb h1 (hist := []) (by intro s hs; cases hs)
    injection e with e
    subst e
    exact ⟨S, rfl, hS _ _ hc⟩
  | cons r₀ runs =>
    obtain ⟨B', e, hc⟩ := C44_clear hb h1 (hist := (r₀ :: runs).map fun r => ⟨samples r (r.origin - r₀.origin) (fun _ => weight norm S.numBins r.V), none⟩) (by
      intro s hs
      obtain ⟨r, hr', rfl⟩ := List.mem_map.mp hs
      refine ⟨fun x hx => ?_, fun f hf => by cases hf⟩
      obtain ⟨c, hc, rfl⟩ := List.mem_map.mp hx
      exact ⟨(hr r hr').2.2 c hc, relative_within (hr r hr').1 _ _ _⟩)
    rw [first_eq h3, runs_eq (o := r₀.origin) rfl hr, e, Outcome.ok_bind]
    exact ⟨_, rfl, hS _ _ hc⟩

/-- A snapshot with one particle, which is the origin of the system. -/
noncomputable def lone (b : Box) (p : Vec3 ℝ) : DensityRun := ⟨⟨b, [⟨p, 1⟩]⟩, p, [(0, 0)]⟩

theorem lone_legal {b : Box} (hb : b.WF) (p : Vec3 ℝ) : (lone b p).Legal 1 := ⟨hb, by simp [lone], by simp [lone]⟩

theorem lone_population {b : Box} (hb : b.WF) {n k : Vec3 Nat} (hn : 0 < n.x ∧ 0 < n.y ∧ 0 < n.z) (p d : Vec3 ℝ) (h : InBin n k b (p - d)) (k' : Vec3 Nat) :
    population n k' (lone b p).V d = if k' = k then 1 else 0 := by
  classical
  unfold population lone
  simp only
  obtain ⟨q, -, hu⟩ := C97_bin hb hn (p - d)
  by_cases e : k' = k
  · subst e
    rw [List.filter_cons, if_pos (decide_eq_true h), if_pos rfl]
    rfl
  · rw [List.filter_cons, if_neg (by
      intro hc
      exact e ((hu _ (of_decide_eq_true hc)).trans (hu _ h).symm)), if_neg e]
    rfl

theorem unit_combo (s : Vec3 ℝ) : combo ⟨1, 1⟩ s = s := by
  rw [← Box.relToAbs_eq_combo]
  exact Mat3.one_mulVec s

theorem cube2_combo (s : Vec3 ℝ) : combo cube2 s = ⟨2 * s.x, 2 * s.y, 2 * s.z⟩ := by
  simp only [combo, cube2, Mat3.c0, Mat3.c1, Mat3.c2]
  ext <;> simp <;> ring

theorem lattice_zero (b : Box) : lattice b ⟨0, 0, 0⟩ = 0 := by
  simp only [lattice, combo, Vec3.map]
  ext <;> simp

/-- **C97** The displacement of the origin is the one of absolute positions, although the binning is that of relative positions. When the box is scaled, as in constant-pressure simulations, the
density gets smeared: relative positions of the particle and of the origin are the same in both snapshots, in the bin number 2 of 8, but half of the density is printed in the bin number 1. -/
theorem C97_scaled_violated : ∃ S S' sums, Binned.create ⟨8, 0, 0⟩ 1 = .ok S ∧
    (∀ r ∈ [lone ⟨1, 1⟩ ⟨1 / 4, 0, 0⟩, lone cube2 ⟨1 / 2, 0, 0⟩], r.Legal 1 ∧ r.origin = combo r.V.box ⟨1 / 4, 0, 0⟩ ∧ ∀ s ∈ r.V.shapes, s.pos = combo r.V.box ⟨1 / 4, 0, 0⟩) ∧
    runDensity .avgCount S [lone ⟨1, 1⟩ ⟨1 / 4, 0, 0⟩, lone cube2 ⟨1 / 2, 0, 0⟩] = .ok S' ∧ S'.builder.dumpHistogram .sum = .ok sums ∧
    sums[1]? = some (.num (1 / 2), 1) ∧ sums[2]? = some (.num (1 / 2), 1) := by
  obtain ⟨S, hS⟩ := (C97_create ⟨8, 0, 0⟩ 1).1.mpr (by simp)
  have hn : S.numBins = ⟨8, 1, 1⟩ := by rw [(C97_create ⟨8, 0, 0⟩ 1).2.2 S hS]; rfl
  have hl : ∀ r ∈ [lone ⟨1, 1⟩ ⟨1 / 4, 0, 0⟩, lone cube2 ⟨1 / 2, 0, 0⟩], r.Legal 1 := by
    intro r hr
    simp only [List.mem_cons, List.not_mem_nil, or_false] at hr
    rcases hr with rfl | rfl
    · exact lone_legal unitBox_wf _
    · exact lone_legal cube2_wf _
  obtain ⟨S', sums, g1, g2, -, g3⟩ := C97_values (by norm_num) hS .avgCount hl
  refine ⟨S, S', sums, hS, ?_, g1, g2, ?_⟩
  · intro r hr
    refine ⟨hl r hr, ?_⟩
    simp only [List.mem_cons, List.not_mem_nil, or_false] at hr
    rcases hr with rfl | rfl
    · simp only [lone, List.mem_singleton, forall_eq, unit_combo, and_self]
    · simp only [lone, List.mem_singleton, forall_eq, cube2_combo, and_self]
      norm_num
  · rw [hn] at g3
    have p1 := lone_population unitBox_wf (n := ⟨8, 1, 1⟩) (k := ⟨2, 0, 0⟩) (by simp) ⟨1 / 4, 0, 0⟩ (⟨1 / 4, 0, 0⟩ - ⟨1 / 4, 0, 0⟩) ⟨⟨1 / 4, 0, 0⟩, ⟨0, 0, 0⟩, by
      rw [lattice_zero, unit_combo]; simp, by norm_num⟩
    have p2 := lone_population cube2_wf (n := ⟨8, 1, 1⟩) (k := ⟨1, 0, 0⟩) (by simp) ⟨1 / 2, 0, 0⟩ (⟨1 / 2, 0, 0⟩ - ⟨1 / 4, 0, 0⟩) ⟨⟨1 / 8, 0, 0⟩, ⟨0, 0, 0⟩, by
      rw [lattice_zero, cube2_combo]; ext <;> simp <;> norm_num, by norm_num⟩
    have e1 : ∀ p b, (lone b p).origin = p := fun _ _ => rfl
    have v := fun k hk => g3 k hk
    simp only [List.map_cons, List.map_nil, List.sum_cons, List.sum_nil, e1, densityValue, p1, p2, List.length_cons, List.length_nil] at v
    have v1 := v ⟨1, 0, 0⟩ (by simp)
    have v2 := v ⟨2, 0, 0⟩ (by simp)
    simp [flatBin] at v1 v2
    refine ⟨?_, ?_⟩
    · rw [v1]; norm_num
    · rw [v2]; norm_num

end DensityHistogram

end Rampack
