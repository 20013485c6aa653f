import Verif.Observables.SmecticSpec
import Verif.Observables.NematicProps
import Verif.Box.Lemmas
import Mathlib.Data.List.Forall2
/-
Theorems on the smectic order parameter (C92).
-/
namespace Rampack

open Spec SmecticOrder

theorem mem_upTo {lo hi x : ℤ} : x ∈ upTo lo hi ↔ lo ≤ x ∧ x ≤ hi := by
  unfold upTo
  simp only [List.mem_map, List.mem_range]
  constructor
  · rintro ⟨j, h, rfl⟩; omega
  · rintro ⟨h1, h2⟩; exact ⟨(x - lo).toNat, by omega, by omega⟩

/-- The indices visited are those in range whose first coordinate which is not zero is positive. -/
theorem mem_indices {R : Vec3 Nat} {n : Vec3 ℤ} : n ∈ indices R ↔ IndicesWithin R n ∧ (0 < n.x ∨ n.x = 0 ∧ (0 < n.y ∨ n.y = 0 ∧ 0 < n.z)) := by
  obtain ⟨x, y, z⟩ := n
  unfold indices IndicesWithin
  simp only [List.mem_flatMap, List.mem_filter, List.mem_map, mem_upTo, decide_eq_true_eq, Vec3.mk.injEq, ne_eq]
  constructor
  · rintro ⟨cx, hx, cy, hy, ⟨cz, hz, rfl, rfl, rfl⟩, h0⟩
    refine ⟨⟨h0, ?_⟩, ?_⟩
    · rw [abs_le, abs_le, abs_le]
      split_ifs at hy hz <;> omega
    · split_ifs at hy hz <;> omega
  · rintro ⟨⟨h0, h1, h2, h3⟩, h⟩
    rw [abs_le] at h1 h2 h3
    refine ⟨x, by omega, y, ?_, ⟨z, ?_, rfl, rfl, rfl⟩, h0⟩ <;> split_ifs <;> omega

theorem tauSum_eq (k : Vec3 ℝ) : ∀ (l : List (Vec3 ℝ × ℝ)) (t : ℂ), tauSum k l t = t + modulation k l
  | [], t => by simp [tauSum, modulation]
  | (p, f) :: l, t => by
    rw [tauSum, tauSum_eq k l]
    simp only [modulation, List.map_cons, List.sum_cons]
    ring

theorem waveVector_of {b : Box} (h : b.WF) (n : Vec3 ℤ) : WaveOf b n (waveVector b n) := by
  intro s
  have h1 : b.dims.inverse.mulVec (b.dims.mulVec s) = s := by
    rw [Mat3.mulVec_mulVec, Mat3.inverse_mul_cancel h.det_ne, Mat3.one_mulVec]
  have h2 : (waveVector b n).dot (b.relToAbs s) = Vec3.dot ⟨2 * Real.pi * n.x, 2 * Real.pi * n.y, 2 * Real.pi * n.z⟩ (b.dims.inverse.mulVec (b.dims.mulVec s)) := by
    unfold waveVector Box.relToAbs
    simp only [Mat3.mulVec, Mat3.transpose, Vec3.dot, Mat3.c0, Mat3.c1, Mat3.c2]
    ring
  rw [h2, h1]
  simp only [Vec3.dot]
  ring

theorem waveOf_unique {b : Box} (h : b.WF) {n : Vec3 ℤ} {k k' : Vec3 ℝ} (h1 : WaveOf b n k) (h2 : WaveOf b n k') : k = k' := by
  have key : ∀ p, k.dot p = k'.dot p := by
    intro p
    have := (h1 (b.absToRel p)).trans (h2 (b.absToRel p)).symm
    rwa [Box.relToAbs_absToRel h] at this
  have hx := key ⟨1, 0, 0⟩
  have hy := key ⟨0, 1, 0⟩
  have hz := key ⟨0, 0, 1⟩
  simp only [Vec3.dot] at hx hy hz
  ext <;> linarith

theorem waveVector_neg {b : Box} (n : Vec3 ℤ) : waveVector b ⟨-n.x, -n.y, -n.z⟩ = -waveVector b n := by
  unfold waveVector
  ext <;> simp [Mat3.mulVec, Vec3.dot] <;> ring

theorem modulation_neg (k : Vec3 ℝ) (l : List (Vec3 ℝ × ℝ)) : modulation (-k) l = (starRingEnd ℂ) (modulation k l) := by
  unfold modulation
  rw [map_list_sum, List.map_map]
  congr 1
  apply List.map_congr_left
  intro q _
  simp only [Function.comp, map_mul, Complex.conj_ofReal, ← Complex.exp_conj, Complex.conj_I]
  congr 2
  have : (-k).dot q.1 = -k.dot q.1 := by simp [Vec3.dot]; ring
  rw [this]
  push_cast
  ring

/-- The value for one vector of indices. -/
noncomputable def tauOf (b : Box) (l : List (Vec3 ℝ × ℝ)) (n : Vec3 ℤ) : ℂ := modulation (waveVector b n) l / (b.volume : ℝ)

theorem calculateTau_eq {b : Box} {points : List (Vec3 ℝ)} {values : List ℝ} (h : points.length = values.length) (n : Vec3 ℤ) :
    calculateTau n b points values = .ok (tauOf b (points.zip values) n, waveVector b n) := by
  unfold calculateTau
  rw [show decide (points.length = values.length) = true by simpa using h, Outcome.require_true, Outcome.ok_bind, tauSum_eq, zero_add]
  rfl

theorem visit_eq {b : Box} {points : List (Vec3 ℝ)} {values : List ℝ} (h : points.length = values.length) (st : State) (n : Vec3 ℤ) :
    visit b points values st n = .ok (if ‖tauOf b (points.zip values) n‖ > ‖st.tau‖ then ⟨tauOf b (points.zip values) n, n, waveVector b n⟩ else st) := by
  unfold visit
  rw [calculateTau_eq h, Outcome.ok_bind]
  split_ifs <;> rfl

theorem visits_best {b : Box} {points : List (Vec3 ℝ)} {values : List ℝ} (h : points.length = values.length) : ∀ (L : List (Vec3 ℤ)) (st : State),
    ∃ st', L.foldlM (visit b points values) st = .ok st' ∧ ‖st.tau‖ ≤ ‖st'.tau‖ ∧ (∀ n ∈ L, ‖tauOf b (points.zip values) n‖ ≤ ‖st'.tau‖) ∧
      (st' = st ∨ ∃ n ∈ L, st' = ⟨tauOf b (points.zip values) n, n, waveVector b n⟩)
  | [], st => ⟨st, rfl, le_refl _, by simp, .inl rfl⟩
  | n :: L, st => by
    rw [List.foldlM_cons, visit_eq h, Outcome.ok_bind]
    obtain ⟨st', h1, h2, h3, h4⟩ := visits_best h L (if ‖tauOf b (points.zip values) n‖ > ‖st.tau‖ then ⟨tauOf b (points.zip values) n, n, waveVector b n⟩ else st)
    refine ⟨st', h1, ?_, ?_, ?_⟩
    · split_ifs at h2 with hc
      · exact hc.le.trans h2
      · exact h2
    · intro m hm
      rcases List.mem_cons.mp hm with rfl | hm
      · split_ifs at h2 with hc
        · exact h2
        · exact (not_lt.mp hc).trans h2
      · exact h3 m hm
    · rcases h4 with h4 | ⟨m, hm, h4⟩
      · split_ifs at h4 with hc
        · exact .inr ⟨n, List.mem_cons_self, h4⟩
        · exact .inl h4
      · exact .inr ⟨m, List.mem_cons_of_mem _ hm, h4⟩

/-- **C92** For all points and values, the value found is the largest magnitude of `∑ fᵢ exp(i k · rᵢ) / V` over all wave vectors in the range, of both signs; the indices and
the wave vector are those of the value, unless all values are zero. -/
theorem C92_search {b : Box} (hb : b.WF) {R : Vec3 Nat} {points : List (Vec3 ℝ)} {values : List ℝ} (h : points.length = values.length) (st : State) :
    ∃ st', search R b points values st = .ok st' ∧
      (∀ n k, IndicesWithin R n → WaveOf b n k → ‖modulation k (points.zip values)‖ / b.volume ≤ ‖st'.tau‖) ∧
      ((st'.tau = 0 ∧ st'.hkl = ⟨0, 0, 0⟩) ∨
        (IndicesWithin R st'.hkl ∧ WaveOf b st'.hkl st'.k ∧ ‖st'.tau‖ = ‖modulation st'.k (points.zip values)‖ / b.volume)) := by
  obtain ⟨st', h1, -, h3, h4⟩ := visits_best (b := b) h (indices R) { st with tau := 0, hkl := ⟨0, 0, 0⟩ }
  have hv : 0 ≤ b.volume := abs_nonneg _
  have hT : ∀ n, ‖tauOf b (points.zip values) n‖ = ‖modulation (waveVector b n) (points.zip values)‖ / b.volume := by
    intro n
    unfold tauOf
    rw [norm_div, Complex.norm_real, Real.norm_eq_abs, abs_of_nonneg hv]
  refine ⟨st', h1, ?_, ?_⟩
  · intro n k hn hk
    rw [waveOf_unique hb hk (waveVector_of hb n), ← hT]
    by_cases hp : 0 < n.x ∨ n.x = 0 ∧ (0 < n.y ∨ n.y = 0 ∧ 0 < n.z)
    · exact h3 n (mem_indices.mpr ⟨hn, hp⟩)
    · have h5 := h3 ⟨-n.x, -n.y, -n.z⟩ (mem_indices.mpr ⟨⟨?_, ?_⟩, ?_⟩)
      · rw [hT, waveVector_neg, modulation_neg, Complex.norm_conj, ← hT] at h5
        exact h5
      · intro e
        apply hn.1
        simp only [Vec3.mk.injEq, neg_eq_zero] at e
        ext
        · exact e.1
        · exact e.2.1
        · exact e.2.2
      · simpa using hn.2
      · have h0 := hn.1
        have : ¬(n.x = 0 ∧ n.y = 0 ∧ n.z = 0) := fun e => h0 (by ext; exacts [e.1, e.2.1, e.2.2])
        show 0 < -n.x ∨ -n.x = 0 ∧ (0 < -n.y ∨ -n.y = 0 ∧ 0 < -n.z)
        omega
  · rcases h4 with rfl | ⟨n, hn, rfl⟩
    · exact .inl ⟨rfl, rfl⟩
    · exact .inr ⟨(mem_indices.mp hn).1, waveVector_of hb n, hT n⟩

theorem exp_images {b : Box} (hb : b.WF) {p q : Vec3 ℝ} (h : SameUpToBox b p q) (n : Vec3 ℤ) :
    Complex.exp (Complex.I * ((waveVector b n).dot q : ℝ)) = Complex.exp (Complex.I * ((waveVector b n).dot p : ℝ)) := by
  obtain ⟨m, rfl⟩ := h
  have h1 : (waveVector b n).dot (p + b.relToAbs ⟨m.x, m.y, m.z⟩) = (waveVector b n).dot p + 2 * Real.pi * ((n.x * m.x + n.y * m.y + n.z * m.z : ℤ) : ℝ) := by
    have := waveVector_of hb n ⟨m.x, m.y, m.z⟩
    push_cast
    rw [← this]
    simp [Vec3.dot]; ring
  rw [h1, Complex.exp_eq_exp_iff_exists_int]
  refine ⟨n.x * m.x + n.y * m.y + n.z * m.z, ?_⟩
  push_cast
  ring

theorem modulation_images {b : Box} (hb : b.WF) (n : Vec3 ℤ) : ∀ {ps qs : List (Vec3 ℝ)} (fs : List ℝ), List.Forall₂ (SameUpToBox b) ps qs →
    modulation (waveVector b n) (qs.zip fs) = modulation (waveVector b n) (ps.zip fs)
  | _, _, _, .nil => by simp
  | _, _, [], .cons _ _ => by simp
  | _, _, f :: fs, .cons h hs => by
    have := modulation_images hb n fs hs
    unfold modulation at this ⊢
    simp only [List.zip_cons_cons, List.map_cons, List.sum_cons]
    rw [this, exp_images hb h]

/-- **C92** Nothing changes when particles are moved by side vectors of the box. -/
theorem C92_images {b : Box} (hb : b.WF) {R : Vec3 Nat} {ps qs : List (Vec3 ℝ)} {values : List ℝ} (h : List.Forall₂ (SameUpToBox b) ps qs) (st : State) :
    search R b qs values st = search R b ps values st := by
  have hl := h.length_eq
  unfold search
  congr 1
  funext st n
  by_cases hv : ps.length = values.length
  · rw [visit_eq hv, visit_eq (hl ▸ hv)]
    unfold tauOf
    rw [modulation_images hb n values h]
  · unfold visit calculateTau
    rw [← hl, show decide (ps.length = values.length) = false by simpa using hv]
    rfl

theorem visits_norm {b : Box} {ps qs : List (Vec3 ℝ)} {fs gs : List ℝ} (hp : ps.length = fs.length) (hq : qs.length = gs.length)
    (hn : ∀ n, ‖tauOf b (ps.zip fs) n‖ = ‖tauOf b (qs.zip gs) n‖) : ∀ (L : List (Vec3 ℤ)) (s t : State), ‖s.tau‖ = ‖t.tau‖ ∧ s.hkl = t.hkl ∧ s.k = t.k →
    ∃ s' t', L.foldlM (visit b ps fs) s = .ok s' ∧ L.foldlM (visit b qs gs) t = .ok t' ∧ ‖s'.tau‖ = ‖t'.tau‖ ∧ s'.hkl = t'.hkl ∧ s'.k = t'.k
  | [], s, t, h => ⟨s, t, rfl, rfl, h⟩
  | n :: L, s, t, h => by
    rw [List.foldlM_cons, List.foldlM_cons, visit_eq hp, visit_eq hq, Outcome.ok_bind, Outcome.ok_bind]
    apply visits_norm hp hq hn L
    rw [hn n, h.1]
    split_ifs
    · exact ⟨hn n, rfl, rfl⟩
    · exact h

theorem modulation_shift (k v : Vec3 ℝ) : ∀ (ps : List (Vec3 ℝ)) (fs : List ℝ),
    modulation k ((ps.map (· + v)).zip fs) = Complex.exp (Complex.I * (k.dot v : ℝ)) * modulation k (ps.zip fs)
  | [], fs => by simp [modulation]
  | p :: ps, [] => by simp [modulation]
  | p :: ps, f :: fs => by
    have := modulation_shift k v ps fs
    unfold modulation at this ⊢
    simp only [List.map_cons, List.zip_cons_cons, List.sum_cons]
    rw [this, mul_add]
    congr 1
    have h1 : k.dot (p + v) = k.dot v + k.dot p := by simp [Vec3.dot]; ring
    rw [h1, Complex.ofReal_add, mul_add, Complex.exp_add]
    ring

/-- **C92** Values, indices and wave vectors which are printed do not change when all particles are moved by the same vector, or when they are given in another order. -/
theorem C92_shift {b : Box} {R : Vec3 Nat} {ps qs : List (Vec3 ℝ)} {fs gs : List ℝ} (v : Vec3 ℝ) (h : ps.length = fs.length) (h' : qs.length = gs.length)
    (hperm : (qs.zip gs).Perm ((ps.map (· + v)).zip fs)) (st : State) :
    ∃ s t, search R b ps fs st = .ok s ∧ search R b qs gs st = .ok t ∧ s.hkl = t.hkl ∧ ∀ dump, intervalValues dump s = intervalValues dump t := by
  have hn : ∀ n, ‖tauOf b (ps.zip fs) n‖ = ‖tauOf b (qs.zip gs) n‖ := by
    intro n
    unfold tauOf
    have : modulation (waveVector b n) (qs.zip gs) = modulation (waveVector b n) ((ps.map (· + v)).zip fs) := by
      unfold modulation
      exact (hperm.map _).sum_eq
    rw [this, modulation_shift, norm_div, norm_div, norm_mul, mul_comm Complex.I, Complex.norm_exp_ofReal_mul_I, one_mul]
  obtain ⟨s, t, h1, h2, h3, h4, h5⟩ := visits_norm (b := b) h h' hn (indices R) { st with tau := 0, hkl := ⟨0, 0, 0⟩ } { st with tau := 0, hkl := ⟨0, 0, 0⟩ } ⟨rfl, rfl, rfl⟩
  refine ⟨s, t, h1, h2, h4, fun dump => ?_⟩
  unfold intervalValues
  rw [h3, h5]

/-- **C92** The points are the named points of particles and the values are those of the function. -/
theorem C92_calculate {R : Vec3 Nat} {name : String} {f : ShapeFn} {V : View} {G : Geometry} {p : Vec3 ℝ} {g : Shape → ℝ} (hp : G.getNamedPoint name = .ok p)
    (hg : ∀ s ∈ V.shapes, f.value G s = .ok (g s)) (st : State) :
    SmecticOrder.calculate R name f V G st = search R V.box (V.shapes.map fun s => s.pos + s.rot.mulVec p) (V.shapes.map g) st := by
  unfold SmecticOrder.calculate View.namedPoints
  rw [hp, Outcome.ok_bind, Outcome.pure_eq, Outcome.ok_bind, Grid.mapM_ok hg, Outcome.ok_bind]

/-- **C92** The functions which are accepted: a constant and a coordinate of an axis; other ones and an empty range are refused. -/
theorem C92_accepted {R : Vec3 Nat} {f : ShapeFn} : (SmecticOrder.check R f = .ok () ↔ (R.x ≠ 0 ∨ R.y ≠ 0 ∨ R.z ≠ 0) ∧ ((∃ v, f = .const v) ∨ ∃ k i, f = .coordinate k i)) ∧
    (∀ v G s, (ShapeFn.const v).value G s = .ok v) ∧
    ∀ k i (G : Geometry) s a, G.getAxis k s = .ok a → (ShapeFn.coordinate k i).value G s = .ok (a.get i) := by
  refine ⟨?_, fun v G s => rfl, fun k i G s a h => ?_⟩
  · unfold SmecticOrder.check
    constructor
    · intro h
      obtain ⟨_, h1, h⟩ := Outcome.bind_eq_ok.mp h
      refine ⟨by simpa using Outcome.require_eq_ok.mp h1, ?_⟩
      cases f with
      | const v => exact .inl ⟨v, rfl⟩
      | coordinate k i => exact .inr ⟨k, i, rfl⟩
      | axis k => cases h
      | tensor k => cases h
    · rintro ⟨h, h'⟩
      rw [show decide (R.x ≠ 0 ∨ R.y ≠ 0 ∨ R.z ≠ 0) = true from decide_eq_true h, Outcome.require_true, Outcome.ok_bind]
      rcases h' with ⟨v, rfl⟩ | ⟨k, i, rfl⟩ <;> rfl
  · unfold ShapeFn.value ShapeFn.values
    simp only []
    rw [h, Outcome.ok_bind, Outcome.pure_eq, Outcome.ok_bind]
    rfl

theorem unitBox_wf : (⟨1, 1⟩ : Box).WF := by
  constructor
  · norm_num [Mat3.det, one_row0, one_row1, one_row2]
  · ext <;> norm_num [Mat3.inverse, Mat3.det, one_row0, one_row1, one_row2]

/-- Two layers of particles, in which the wave vector with indices (0, 0, 2) fits. -/
example : ∃ st', search ⟨1, 1, 2⟩ ⟨1, 1⟩ [⟨0, 0, 0⟩, ⟨1 / 3, 1 / 5, 1 / 2⟩] [1, 1] .new = .ok st' ∧ 2 ≤ ‖st'.tau‖ := by
  obtain ⟨st', h1, h2, -⟩ := C92_search unitBox_wf (R := ⟨1, 1, 2⟩) (points := [⟨0, 0, 0⟩, ⟨1 / 3, 1 / 5, 1 / 2⟩]) (values := [1, 1]) rfl .new
  refine ⟨st', h1, ?_⟩
  have h3 := h2 ⟨0, 0, 2⟩ _ ⟨by simp, by norm_num⟩ (waveVector_of unitBox_wf _)
  have h4 : waveVector ⟨1, 1⟩ ⟨0, 0, 2⟩ = ⟨0, 0, 4 * Real.pi⟩ := by
    have : (1 : Mat3).inverse = 1 := unitBox_wf.inv_eq.symm
    unfold waveVector
    rw [this]
    ext <;> norm_num [Mat3.mulVec, Mat3.transpose, Vec3.dot, Mat3.c0, Mat3.c1, Mat3.c2, one_row0, one_row1, one_row2] <;> ring
  have h5 : Complex.exp (Complex.I * ((4 * Real.pi * (1 / 2) : ℝ) : ℂ)) = 1 := by
    rw [Complex.exp_eq_one_iff]
    exact ⟨1, by push_cast; ring⟩
  have h6 : modulation ⟨0, 0, 4 * Real.pi⟩ ([⟨0, 0, 0⟩, ⟨1 / 3, 1 / 5, 1 / 2⟩].zip [1, 1]) = 2 := by
    simp only [modulation, List.zip_cons_cons, List.zip_nil_left, List.map_cons, List.map_nil, List.sum_cons, List.sum_nil, Vec3.dot, zero_mul, mul_zero, zero_add, h5]
    norm_num
  have h7 : (⟨1, 1⟩ : Box).volume = 1 := by
    norm_num [Box.volume, Box.sides, Box.relToAbs, Vec3.cross, Vec3.dot, Mat3.mulVec, one_row0, one_row1, one_row2]
  rw [h4, h6, h7] at h3
  simpa using h3

/-- A cube of side 2. -/
noncomputable def cube2 : Box := ⟨⟨⟨2, 0, 0⟩, ⟨0, 2, 0⟩, ⟨0, 0, 2⟩⟩, (⟨⟨2, 0, 0⟩, ⟨0, 2, 0⟩, ⟨0, 0, 2⟩⟩ : Mat3).inverse⟩

theorem cube2_wf : cube2.WF := by
  constructor
  · norm_num [cube2, Mat3.det]
  · rfl

theorem cube2_volume : cube2.volume = 8 := by
  norm_num [cube2, Box.volume, Box.sides, Box.relToAbs, Vec3.cross, Vec3.dot, Mat3.mulVec]

/-- **C92** The documented definition divides by the number of particles, the code by the volume: for one particle in a cube of side 2 the documented value is 1 for each wave
vector and the value found is 1/8. -/
theorem C92_normalisation_violated (G : Geometry) : cube2.WF ∧ (∀ k : Vec3 ℝ, ‖modulation k [(0, 1)] / (1 : ℕ)‖ = 1) ∧
    ∃ st, SmecticOrder.calculate ⟨1, 1, 1⟩ "o" (.const 1) ⟨cube2, [⟨-(G.origin), 1⟩]⟩ G .new = .ok st ∧ intervalValues false st = [1 / 8] := by
  have hm : ∀ k : Vec3 ℝ, modulation k [(0, 1)] = 1 := by
    intro k
    simp [modulation, Vec3.dot]
  refine ⟨cube2_wf, fun k => by rw [hm]; simp, ?_⟩
  obtain ⟨st, h1, h2, h3⟩ := C92_search cube2_wf (R := ⟨1, 1, 1⟩) (points := [0]) (values := [1]) rfl .new
  have h4 := h2 ⟨1, 0, 0⟩ _ ⟨by simp, by norm_num⟩ (waveVector_of cube2_wf _)
  have h5 : ∀ k, modulation k ([0].zip [1]) = 1 := hm
  rw [h5, cube2_volume] at h4
  refine ⟨st, ?_, ?_⟩
  · have ho : G.getNamedPoint "o" = .ok G.origin := by
      unfold Geometry.getNamedPoint Geometry.getGeometricOrigin Shape.default
      rw [if_pos rfl, Mat3.one_mulVec]
    rw [C92_calculate (p := G.origin) (g := fun _ => 1) ho (fun s _ => rfl), ← h1]
    congr 1
    simp only [List.map_cons, List.map_nil, Mat3.one_mulVec]
    congr 1
    ext <;> simp
  · rcases h3 with ⟨h, -⟩ | ⟨-, -, h⟩
    · rw [h] at h4; norm_num at h4
    · rw [h5, cube2_volume] at h
      simp [intervalValues, h]

/-- **C92** When all values are zero the wave vector of the previous snapshot is printed, whatever it was. -/
theorem C92_stale_violated (st : State) : ∃ st', search ⟨1, 0, 0⟩ ⟨1, 1⟩ [⟨0, 0, 0⟩, ⟨1 / 2, 0, 0⟩] [1, 1] st = .ok st' ∧
    st'.hkl = ⟨0, 0, 0⟩ ∧ intervalValues true st' = [0, st.k.x, st.k.y, st.k.z] := by
  have h4 : waveVector ⟨1, 1⟩ ⟨1, 0, 0⟩ = ⟨2 * Real.pi, 0, 0⟩ := by
    have : (1 : Mat3).inverse = 1 := unitBox_wf.inv_eq.symm
    unfold waveVector
    rw [this]
    ext <;> norm_num [Mat3.mulVec, Mat3.transpose, Vec3.dot, Mat3.c0, Mat3.c1, Mat3.c2, one_row0, one_row1, one_row2]
  have h5 : Complex.exp (Complex.I * ((2 * Real.pi * (1 / 2) : ℝ) : ℂ)) = -1 := by
    rw [← Complex.exp_pi_mul_I]
    congr 1
    push_cast
    ring
  have h6 : modulation ⟨2 * Real.pi, 0, 0⟩ ([⟨0, 0, 0⟩, ⟨1 / 2, 0, 0⟩].zip [1, 1]) = 0 := by
    simp only [modulation, List.zip_cons_cons, List.zip_nil_left, List.map_cons, List.map_nil, List.sum_cons, List.sum_nil, Vec3.dot, zero_mul, mul_zero, add_zero, h5]
    norm_num
  have hi : indices ⟨1, 0, 0⟩ = [⟨1, 0, 0⟩] := by decide
  refine ⟨⟨0, ⟨0, 0, 0⟩, st.k⟩, ?_, rfl, by simp [intervalValues]⟩
  unfold search
  rw [hi, List.foldlM_cons, visit_eq rfl, Outcome.ok_bind]
  unfold tauOf
  rw [h4, h6]
  simp

end Rampack
