import Verif.Observables.BondProps
import Verif.Geometry.XenoProps
/-
Theorems on values of the bond order parameter (C93).
-/
namespace Rampack

open Spec BondOrder

theorem localPsi_eq {b : Box} {L : Layers} {r : Nat} {bond : List (Vec3 ℝ)} {pos : Vec3 ℝ} : ∀ {l : List Entry} {t : ℂ}, (∀ e ∈ l, e.1 < bond.length) →
    localPsi b L r bond pos l t = .ok (t + (l.map fun e => bondPhase L.p1 L.p2 r (vectorTo b bond pos e.1)).sum)
  | [], t, _ => by simp [localPsi]
  | e :: l, t, h => by
    have he := h e List.mem_cons_self
    rw [localPsi, vget_ok he, Outcome.ok_bind, localPsi_eq fun e' h' => h e' (List.mem_cons_of_mem _ h'), List.map_cons, List.sum_cons, add_assoc]
    have : vectorTo b bond pos e.1 = bond[e.1] - pos + PBC.getTranslation b pos bond[e.1] := by
      unfold vectorTo
      rw [List.getD_eq_getElem?_getD, List.getElem?_eq_getElem he]
      rfl
    rw [this]
    rfl

theorem addPsi_fold {b : Box} {L : Layers} {r : Nat} {isLocal : Bool} {bond : List (Vec3 ℝ)} : ∀ {l : List (Vec3 ℝ × List Entry)} {t : ℂ},
    (∀ p ∈ l, r ≤ p.2.length ∧ ∀ e ∈ p.2, e.1 < bond.length) →
    l.foldlM (addPsi b L r isLocal bond) t = .ok (t + (l.map fun p =>
      let z := bondOf L.p1 L.p2 r ((p.2.take r).map fun e => vectorTo b bond p.1 e.1)
      if isLocal then ((‖z‖ : ℝ) : ℂ) else z).sum)
  | [], t, _ => by simp
  | p :: l, t, h => by
    obtain ⟨h1, h2⟩ := h p List.mem_cons_self
    have e1 : addPsi b L r isLocal bond t p = .ok (t + (let z := bondOf L.p1 L.p2 r ((p.2.take r).map fun e => vectorTo b bond p.1 e.1)
      if isLocal then ((‖z‖ : ℝ) : ℂ) else z)) := by
      unfold addPsi
      rw [if_neg (by omega), localPsi_eq fun e he => h2 e (List.mem_of_mem_take he), Outcome.ok_bind, zero_add]
      unfold bondOf
      rw [List.map_map]
      cases isLocal
      · rfl
      · simp only [if_true, norm_div, Complex.norm_natCast]
        rfl
    rw [List.foldlM_cons, e1, Outcome.ok_bind, addPsi_fold fun q hq => h q (List.mem_cons_of_mem _ hq), List.map_cons, List.sum_cons, add_assoc]

/-- **C93** The value is the local or the global bond order parameter for vectors to the first `r` neighbours of each particle. -/
theorem C93_value {b : Box} {L : Layers} {r : Nat} {isLocal : Bool} {bond : List (Vec3 ℝ)} {knn : List (List Entry)} (hb : bond ≠ []) (hl : knn.length = bond.length)
    (h : ∀ v ∈ knn, r ≤ v.length ∧ ∀ e ∈ v, e.1 < bond.length) :
    doCalculate b L r isLocal bond knn = .ok ((if isLocal then localBond else globalBond) L.p1 L.p2 r
      ((bond.zip knn).map fun p => (p.2.take r).map fun e => vectorTo b bond p.1 e.1)) := by
  unfold doCalculate
  rw [addPsi_fold fun p hp => h p.2 (List.of_mem_zip hp).2, Outcome.ok_bind, zero_add, if_neg (by rw [List.length_eq_zero_iff]; exact hb)]
  have hlen : (bond.zip knn).length = bond.length := by rw [List.length_zip, hl, min_self]
  cases isLocal
  · simp only [Bool.false_eq_true, if_false, globalBond, List.length_map, hlen, List.map_map]
    rfl
  · simp only [if_true, localBond, averageOf, List.length_map, hlen, List.map_map]
    have : ∀ l : List (Vec3 ℝ × List Entry), (l.map fun p => ((‖bondOf L.p1 L.p2 r ((p.2.take r).map fun e => vectorTo b bond p.1 e.1)‖ : ℝ) : ℂ)).sum
        = (((l.map ((fun ds => ‖bondOf L.p1 L.p2 r ds‖) ∘ fun p => (p.2.take r).map fun e => vectorTo b bond p.1 e.1)).sum : ℝ) : ℂ) := by
      intro l
      induction l with
      | nil => simp
      | cons p l ih => rw [List.map_cons, List.sum_cons, ih, List.map_cons, List.sum_cons, Complex.ofReal_add]; rfl
    rw [this, Complex.norm_real, Real.norm_eq_abs, abs_of_nonneg]
    · rfl
    · refine List.sum_nonneg ?_
      intro x hx
      obtain ⟨p, -, rfl⟩ := List.mem_map.mp hx
      exact norm_nonneg _

theorem bondPhase_norm (u v : Vec3 ℝ) (r : Nat) (d : Vec3 ℝ) : ‖bondPhase u v r d‖ = 1 := by
  unfold bondPhase
  rw [show Complex.I * r * (Complex.arg ⟨u.dot d, v.dot d⟩ : ℝ) = ((r * Complex.arg ⟨u.dot d, v.dot d⟩ : ℝ) : ℂ) * Complex.I by push_cast; ring]
  exact Complex.norm_exp_ofReal_mul_I _

theorem norm_sum_le {α : Type} (f : α → ℂ) : ∀ l : List α, ‖(l.map f).sum‖ ≤ (l.map fun a => ‖f a‖).sum
  | [] => by simp
  | a :: l => by
    rw [List.map_cons, List.sum_cons, List.map_cons, List.sum_cons]
    exact (norm_add_le _ _).trans (add_le_add_right (norm_sum_le f l) _)

theorem bondOf_norm {u v : Vec3 ℝ} {r : Nat} {ds : List (Vec3 ℝ)} (h : ds.length = r) : ‖bondOf u v r ds‖ ≤ 1 := by
  unfold bondOf
  rw [norm_div, Complex.norm_natCast]
  refine div_le_one_of_le₀ ((norm_sum_le _ _).trans ?_) (Nat.cast_nonneg r)
  simp only [bondPhase_norm, List.map_const', List.sum_replicate, nsmul_eq_mul, mul_one, h, le_refl]

/-- **C93** For `r` neighbours of each particle both parameters are between 0 and 1 and the global one is not greater than the local one. -/
theorem C93_range {u v : Vec3 ℝ} {r : Nat} {particles : List (List (Vec3 ℝ))} (hp : particles ≠ []) (h : ∀ ds ∈ particles, ds.length = r) :
    0 ≤ globalBond u v r particles ∧ globalBond u v r particles ≤ localBond u v r particles ∧ localBond u v r particles ≤ 1 := by
  refine ⟨div_nonneg (norm_nonneg _) (Nat.cast_nonneg _), ?_, (mean_between hp (p := 0) (q := 1) fun ds hd => ⟨norm_nonneg _, bondOf_norm (h ds hd)⟩).2⟩
  exact div_le_div_of_nonneg_right (norm_sum_le _ _) (Nat.cast_nonneg _)

/-- **C93** The local parameter is 1 if, for each particle, angles of all neighbours differ by multiples of `2π/r`, and the global one is 1 if it is so for all particles. -/
theorem C93_perfect {u v : Vec3 ℝ} {r : Nat} (hr : 0 < r) {particles : List (List (Vec3 ℝ))} (hp : particles ≠ []) (h : ∀ ds ∈ particles, ds.length = r) :
    ((∀ ds ∈ particles, ∃ θ : ℝ, ∀ d ∈ ds, ∃ m : ℤ, Complex.arg ⟨u.dot d, v.dot d⟩ = θ + 2 * Real.pi * m / r) → localBond u v r particles = 1) ∧
    ((∃ θ : ℝ, ∀ ds ∈ particles, ∀ d ∈ ds, ∃ m : ℤ, Complex.arg ⟨u.dot d, v.dot d⟩ = θ + 2 * Real.pi * m / r) → globalBond u v r particles = 1) := by
  have hr0 : (r : ℂ) ≠ 0 := by exact_mod_cast hr.ne'
  have key : ∀ (ds : List (Vec3 ℝ)) (θ : ℝ), ds.length = r → (∀ d ∈ ds, ∃ m : ℤ, Complex.arg ⟨u.dot d, v.dot d⟩ = θ + 2 * Real.pi * m / r) →
      bondOf u v r ds = Complex.exp (((r * θ : ℝ) : ℂ) * Complex.I) := by
    intro ds θ hl hd
    have h1 : ds.map (bondPhase u v r) = ds.map fun _ => Complex.exp (((r * θ : ℝ) : ℂ) * Complex.I) := by
      refine List.map_congr_left fun d hd' => ?_
      obtain ⟨m, hm⟩ := hd d hd'
      unfold bondPhase
      rw [hm, Complex.exp_eq_exp_iff_exists_int]
      refine ⟨m, ?_⟩
      push_cast
      field_simp
    unfold bondOf
    rw [h1, List.map_const', List.sum_replicate, hl, nsmul_eq_mul, mul_div_cancel_left₀ _ hr0]
  have hl0 : (particles.length : ℝ) ≠ 0 := by
    have := List.length_pos_of_ne_nil hp
    exact_mod_cast this.ne'
  constructor
  · intro hθ
    have h1 : particles.map (fun ds => ‖bondOf u v r ds‖) = particles.map fun _ => 1 := by
      refine List.map_congr_left fun ds hd => ?_
      obtain ⟨θ, hθ⟩ := hθ ds hd
      rw [key ds θ (h ds hd) hθ, Complex.norm_exp_ofReal_mul_I]
    unfold localBond averageOf
    rw [h1, List.map_const', List.sum_replicate, nsmul_eq_mul, mul_one, div_self hl0]
  · rintro ⟨θ, hθ⟩
    have h1 : particles.map (bondOf u v r) = particles.map fun _ => Complex.exp (((r * θ : ℝ) : ℂ) * Complex.I) :=
      List.map_congr_left fun ds hd => key ds θ (h ds hd) (hθ ds hd)
    unfold globalBond
    rw [h1, List.map_const', List.sum_replicate, nsmul_eq_mul, norm_mul, Complex.norm_exp_ofReal_mul_I, mul_one, Complex.norm_natCast, div_self hl0]

/-! ### The choice of the direction in the plane -/

theorem frame_dot {k u v : Vec3 ℝ} (hk : k.norm2 ≠ 0) (h : PlaneFrame k u v) {w : Vec3 ℝ} (hw : k.dot w = 0) (d : Vec3 ℝ) :
    w.dot d = u.dot w * u.dot d + v.dot w * v.dot d := by
  obtain ⟨h1, h2, h3, h4, h5⟩ := h
  have hpos : 0 < k.norm2 := lt_of_le_of_ne (add_nonneg (add_nonneg (mul_self_nonneg _) (mul_self_nonneg _)) (mul_self_nonneg _)) (Ne.symm hk)
  obtain ⟨n, hn⟩ := normalize_some hpos
  have n1 := normalize_ok hn
  obtain ⟨c, hc⟩ := normalize_scaled hn
  have n2 : ∀ x, k.dot x = 0 → n.dot x = 0 := by
    intro x hx
    rw [hc]
    simp only [Vec3.dot, Vec3.smul_x, Vec3.smul_y, Vec3.smul_z] at hx ⊢
    linear_combination c * hx
  have o1 := n2 u h4
  have o2 := n2 v h5
  have o3 := n2 w hw
  have hO : Orthogonal (Mat3.transpose ⟨u, v, n⟩) := by
    unfold Orthogonal
    simp only [Vec3.norm2, Vec3.dot] at h1 h2 h3 n1 o1 o2
    ext <;> simp [Mat3.mul_def, Mat3.mul, Mat3.one_def, Mat3.one, Mat3.transpose, Vec3.dot, Mat3.c0, Mat3.c1, Mat3.c2] <;> linarith
  have hM := Xeno.orthogonal_transpose hO
  have e1 : (Mat3.transpose ⟨u, v, n⟩ * (Mat3.transpose ⟨u, v, n⟩).transpose).mulVec d = d := by rw [hM, Mat3.one_mulVec]
  have e2 : w.dot ((Mat3.transpose ⟨u, v, n⟩ * (Mat3.transpose ⟨u, v, n⟩).transpose).mulVec d) = u.dot w * u.dot d + v.dot w * v.dot d + n.dot w * n.dot d := by
    simp [Mat3.mul_def, Mat3.mul, Mat3.transpose, Vec3.dot, Mat3.c0, Mat3.c1, Mat3.c2, Mat3.mulVec]
    ring
  rw [e1, o3] at e2
  linarith

theorem bondPhase_pow {u v d : Vec3 ℝ} {r : Nat} {z : ℂ} (hz : z = ⟨u.dot d, v.dot d⟩) (h : z ≠ 0) : bondPhase u v r d = (z / ‖z‖) ^ r := by
  have h0 : ((‖z‖ : ℝ) : ℂ) ≠ 0 := by simpa using h
  have h1 : z / ‖z‖ = Complex.exp (Complex.arg z * Complex.I) := by
    rw [div_eq_iff h0, mul_comm, Complex.norm_mul_exp_arg_mul_I]
  unfold bondPhase
  rw [h1, ← hz, ← Complex.exp_nat_mul]
  congr 1
  ring

theorem frames_related {k u v u' v' : Vec3 ℝ} (hk : k.norm2 ≠ 0) (h : PlaneFrame k u v) (h' : PlaneFrame k u' v') :
    ∃ w : ℂ, ‖w‖ = 1 ∧ ((∀ d, (⟨u'.dot d, v'.dot d⟩ : ℂ) = w * ⟨u.dot d, v.dot d⟩) ∨ ∀ d, (⟨u'.dot d, v'.dot d⟩ : ℂ) = (starRingEnd ℂ) (w * ⟨u.dot d, v.dot d⟩)) := by
  have hu := frame_dot hk h h'.2.2.2.1
  have hv := frame_dot hk h h'.2.2.2.2
  have a1 := hu u'
  have a2 := hv v'
  have a3 := hu v'
  rw [show u'.dot u' = 1 from h'.1] at a1
  rw [show v'.dot v' = 1 from h'.2.1] at a2
  rw [h'.2.2.1] at a3
  generalize u.dot u' = a at *
  generalize v.dot u' = b at *
  generalize u.dot v' = a' at *
  generalize v.dot v' = b' at *
  have e0 : (a * b' - a' * b) * (a * b' - a' * b) = 1 := by
    linear_combination (-a' * a' - b' * b') * a1 - a2 + (a * a' + b * b') * a3
  have e1 : a' = -((a * b' - a' * b) * b) := by linear_combination a' * a1 - a * a3
  have e2 : b' = (a * b' - a' * b) * a := by linear_combination b' * a1 - b * a3
  refine ⟨⟨a, -b⟩, ?_, ?_⟩
  · rw [Complex.norm_def, Complex.normSq_mk, Real.sqrt_eq_one]
    linarith
  · rcases mul_self_eq_one_iff.mp e0 with e | e
    · left
      intro d
      rw [hu d, hv d]
      rw [e] at e1 e2
      apply Complex.ext
      · simp
      · simp [e1, e2]; ring
    · right
      intro d
      rw [hu d, hv d]
      rw [e] at e1 e2
      apply Complex.ext
      · simp
      · simp [e1, e2]; ring

theorem bondOf_frames {k u v u' v' : Vec3 ℝ} (hk : k.norm2 ≠ 0) (h : PlaneFrame k u v) (h' : PlaneFrame k u' v') (r : Nat) :
    ∃ w : ℂ, ‖w‖ = 1 ∧ ((∀ ds : List (Vec3 ℝ), (∀ d ∈ ds, u.dot d ≠ 0 ∨ v.dot d ≠ 0) → bondOf u' v' r ds = w * bondOf u v r ds) ∨
      ∀ ds : List (Vec3 ℝ), (∀ d ∈ ds, u.dot d ≠ 0 ∨ v.dot d ≠ 0) → bondOf u' v' r ds = (starRingEnd ℂ) (w * bondOf u v r ds)) := by
  obtain ⟨w, hw, h1⟩ := frames_related hk h h'
  have hw0 : w ≠ 0 := by intro e; rw [e] at hw; simp at hw
  have hz : ∀ d : Vec3 ℝ, (u.dot d ≠ 0 ∨ v.dot d ≠ 0) → (⟨u.dot d, v.dot d⟩ : ℂ) ≠ 0 := by
    intro d hd e
    rw [Complex.ext_iff] at e
    simp at e
    rcases hd with hd | hd
    · exact hd e.1
    · exact hd e.2
  refine ⟨w ^ r, by rw [norm_pow, hw, one_pow], ?_⟩
  rcases h1 with h1 | h1
  · left
    intro ds hd
    have e : ds.map (bondPhase u' v' r) = (ds.map (bondPhase u v r)).map fun z => w ^ r * z := by
      rw [List.map_map]
      refine List.map_congr_left fun d hdm => ?_
      have z0 := hz d (hd d hdm)
      rw [Function.comp, bondPhase_pow rfl z0, bondPhase_pow (h1 d).symm (mul_ne_zero hw0 z0), norm_mul, hw, one_mul, ← mul_pow, mul_div_assoc]
    unfold bondOf
    rw [e, List.sum_map_mul_left, List.map_id', mul_div_assoc]
  · right
    intro ds hd
    have e : ds.map (bondPhase u' v' r) = (ds.map (bondPhase u v r)).map fun z => (starRingEnd ℂ) (w ^ r * z) := by
      rw [List.map_map]
      refine List.map_congr_left fun d hdm => ?_
      have z0 := hz d (hd d hdm)
      rw [Function.comp, bondPhase_pow rfl z0, bondPhase_pow (h1 d).symm (by simpa using ⟨hw0, z0⟩), Complex.norm_conj, norm_mul, hw, one_mul, ← mul_pow, map_pow,
        ← mul_div_assoc, map_div₀, Complex.conj_ofReal]
    unfold bondOf
    rw [e, ← mul_div_assoc, map_div₀, Complex.conj_natCast, ← List.sum_map_mul_left, map_list_sum, List.map_map, List.map_map]
    rfl

/-- **C93** The parameters do not depend on the choice of perpendicular directions in the plane. -/
theorem C93_direction {k u v u' v' : Vec3 ℝ} (hk : k.norm2 ≠ 0) (h : PlaneFrame k u v) (h' : PlaneFrame k u' v') (r : Nat) {particles : List (List (Vec3 ℝ))}
    (hd : ∀ ds ∈ particles, ∀ d ∈ ds, u.dot d ≠ 0 ∨ v.dot d ≠ 0) :
    localBond u' v' r particles = localBond u v r particles ∧ globalBond u' v' r particles = globalBond u v r particles := by
  obtain ⟨w, hw, h1⟩ := bondOf_frames hk h h' r
  constructor
  · unfold localBond averageOf
    congr 2
    refine List.map_congr_left fun ds hm => ?_
    rcases h1 with h1 | h1
    · rw [h1 ds (hd ds hm), norm_mul, hw, one_mul]
    · rw [h1 ds (hd ds hm), Complex.norm_conj, norm_mul, hw, one_mul]
  · unfold globalBond
    congr 1
    rcases h1 with h1 | h1
    · have e : particles.map (bondOf u' v' r) = (particles.map (bondOf u v r)).map fun z => w * z := by
        rw [List.map_map]
        exact List.map_congr_left fun ds hm => h1 ds (hd ds hm)
      rw [e, List.sum_map_mul_left, List.map_id', norm_mul, hw, one_mul]
    · have e : particles.map (bondOf u' v' r) = (particles.map (bondOf u v r)).map fun z => (starRingEnd ℂ) (w * z) := by
        rw [List.map_map]
        exact List.map_congr_left fun ds hm => h1 ds (hd ds hm)
      have e' : (((particles.map (bondOf u v r)).map fun z => (starRingEnd ℂ) (w * z))).sum = (starRingEnd ℂ) (w * (particles.map (bondOf u v r)).sum) := by
        rw [← List.sum_map_mul_left, map_list_sum, List.map_map, List.map_map]
        rfl
      rw [e, e', Complex.norm_conj, norm_mul, hw, one_mul]

/-! ### The whole calculation -/

theorem kVector_wave (b : Box) (hkl : Vec3 ℤ) : kVector b hkl = waveVector b hkl := by
  unfold kVector waveVector
  ext <;> simp [Mat3.mulVec, Vec3.dot] <;> ring

/-- The wave vector of layers is the one of the given indices, and it is not zero. -/
theorem kVector_of {b : Box} (h : b.WF) {hkl : Vec3 ℤ} (hn : hkl.x ≠ 0 ∨ hkl.y ≠ 0 ∨ hkl.z ≠ 0) : WaveOf b hkl (kVector b hkl) ∧ (kVector b hkl).norm2 ≠ 0 := by
  have h1 : WaveOf b hkl (kVector b hkl) := by rw [kVector_wave]; exact waveVector_of h hkl
  refine ⟨h1, fun h0 => ?_⟩
  have hz : (kVector b hkl).x = 0 ∧ (kVector b hkl).y = 0 ∧ (kVector b hkl).z = 0 := by
    simp only [Vec3.norm2, Vec3.dot] at h0
    refine ⟨?_, ?_, ?_⟩ <;> nlinarith [mul_self_nonneg (kVector b hkl).x, mul_self_nonneg (kVector b hkl).y, mul_self_nonneg (kVector b hkl).z]
  have hs : ∀ s : Vec3 ℝ, (hkl.x : ℝ) * s.x + hkl.y * s.y + hkl.z * s.z = 0 := by
    intro s
    have := h1 s
    rw [Vec3.dot, hz.1, hz.2.1, hz.2.2] at this
    have hp := Real.pi_pos
    have h2 : 2 * Real.pi * (hkl.x * s.x + hkl.y * s.y + hkl.z * s.z) = 0 := by linarith
    rcases mul_eq_zero.mp h2 with h3 | h3
    · linarith
    · exact h3
  have a := hs ⟨1, 0, 0⟩
  have b := hs ⟨0, 1, 0⟩
  have c := hs ⟨0, 0, 1⟩
  simp at a b c
  rcases hn with hn | hn | hn
  · exact hn a
  · exact hn b
  · exact hn c

theorem create_ok {ranks rs : List Nat} {hkl : Vec3 ℤ} (h : create ranks hkl = .ok rs) :
    rs.Perm ranks ∧ rs.Pairwise (· ≤ ·) ∧ rs ≠ [] ∧ (∀ r ∈ rs, 2 ≤ r) ∧ (hkl.x ≠ 0 ∨ hkl.y ≠ 0 ∨ hkl.z ≠ 0) := by
  unfold create at h
  obtain ⟨_, h1, h⟩ := Outcome.bind_eq_ok.mp h
  obtain ⟨_, h2, h⟩ := Outcome.bind_eq_ok.mp h
  obtain ⟨_, h3, h⟩ := Outcome.bind_eq_ok.mp h
  replace h1 := of_decide_eq_true (Outcome.require_eq_ok.mp h1)
  replace h2 := of_decide_eq_true (Outcome.require_eq_ok.mp h2)
  replace h3 := of_decide_eq_true (Outcome.require_eq_ok.mp h3)
  injection h with h
  subst h
  have hp := List.mergeSort_perm ranks fun a b => decide (a ≤ b)
  refine ⟨hp, ?_, fun e => h1 (by rw [e] at hp; exact hp.symm.eq_nil), fun r hr => h2 r (hp.mem_iff.mp hr), h3⟩
  have := List.pairwise_mergeSort (le := fun a b : Nat => decide (a ≤ b)) (fun a b c => by simp; omega) (fun a b => by simp; omega) ranks
  exact this.imp fun h => of_decide_eq_true h

theorem nearest_mem {r filler n : Nat} {C v : List Entry} (h : NearestOf r filler C v) (hC : ∀ e ∈ C, e.1 < n) (hf : filler < n) : ∀ e ∈ v, e.1 < n := by
  obtain ⟨-, -, left, h3, -⟩ := h
  intro e he
  have := h3.mem_iff.mp (List.mem_append_left _ he)
  rcases List.mem_append.mp this with h | h
  · exact hC e h
  · rw [(List.mem_replicate.mp h).2]; exact hf

/-- **C93** For an accepted observable and a packing with particles, if the plane of layers is found, there is one value for each rank, in increasing order of ranks: the local or
the global parameter for vectors to nearest images of `r` nearest neighbours found. It is between 0 and 1. -/
theorem C93_calculate {ranks rs : List Nat} {hkl : Vec3 ℤ} (hc : create ranks hkl = .ok rs) {layeringName bondName : String} {isLocal : Bool} {V : View} {G : Geometry}
    (hb : V.box.WF) (hV : V.shapes ≠ []) {p q : Vec3 ℝ} (hp : G.getNamedPoint layeringName = .ok p) (hq : G.getNamedPoint bondName = .ok q)
    {L : Layers} (hL : layerGeometry V.box hkl (V.shapes.map fun s => s.pos + s.rot.mulVec p) = .ok L) :
    ∃ top knn, rs.getLast? = some top ∧
      constructKnn V.box L top (V.shapes.map fun s => s.pos + s.rot.mulVec p) (V.shapes.map fun s => s.pos + s.rot.mulVec q) = .ok knn ∧
      calculate rs hkl layeringName bondName isLocal V G = .ok (rs.map fun r => (if isLocal then localBond else globalBond) L.p1 L.p2 r
        (((V.shapes.map fun s => s.pos + s.rot.mulVec q).zip knn).map fun x => (x.2.take r).map fun e =>
          vectorTo V.box (V.shapes.map fun s => s.pos + s.rot.mulVec q) x.1 e.1)) ∧
      ∀ values, calculate rs hkl layeringName bondName isLocal V G = .ok values → ∀ x ∈ values, 0 ≤ x ∧ x ≤ 1 := by
  obtain ⟨-, hs, hne, h2, hn⟩ := create_ok hc
  have hLk : L.k = kVector V.box hkl := by
    unfold layerGeometry at hL
    simp only [] at hL
    obtain ⟨p1, -, hL⟩ := Outcome.bind_eq_ok.mp hL
    obtain ⟨p2, -, hL⟩ := Outcome.bind_eq_ok.mp hL
    injection hL with hL
    rw [← hL]
  obtain ⟨-, hk⟩ := kVector_of hb hn
  obtain ⟨kn, hkn⟩ : ∃ kn, normalize L.k = .ok kn := by
    apply normalize_some
    rw [hLk]
    exact lt_of_le_of_ne (add_nonneg (add_nonneg (mul_self_nonneg _) (mul_self_nonneg _)) (mul_self_nonneg _)) (Ne.symm hk)
  obtain ⟨top, htop⟩ : ∃ top, rs.getLast? = some top := ⟨_, List.getLast?_eq_some_getLast hne⟩
  have hmem : top ∈ rs := List.mem_of_getLast? htop
  have hmax : ∀ r ∈ rs, r ≤ top := by
    intro r hr
    obtain ⟨l, e⟩ := List.getLast?_eq_some_iff.mp htop
    rw [e] at hr hs
    rcases List.mem_append.mp hr with hr | hr
    · exact (List.pairwise_append.mp hs).2.2 r hr top (by simp)
    · simp at hr; omega
  have htop2 := h2 top hmem
  obtain ⟨knn, e1, e2, e3⟩ := C93_nearest (b := V.box) (L := L) hkn (r := top) (by omega) (layering := V.shapes.map fun s => s.pos + s.rot.mulVec p)
    (bond := V.shapes.map fun s => s.pos + s.rot.mulVec q) (by simp)
  have hall : ∀ v ∈ knn, v.length = top ∧ ∀ e ∈ v, e.1 < (V.shapes.map fun s => s.pos + s.rot.mulVec q).length := by
    intro v hv
    obtain ⟨i, hi, hv⟩ := List.getElem_of_mem hv
    obtain ⟨C, h4, -, h5⟩ := e3 i v (by rw [List.getElem?_eq_getElem hi, hv])
    refine ⟨h4.1, nearest_mem h4 (fun e he => ?_) (by rw [List.length_map]; exact List.length_pos_of_ne_nil hV)⟩
    obtain ⟨-, a, b, a', b', g1, g2, g3, g4, -⟩ := (h5 e.1 e.2).mp he
    obtain ⟨h, -⟩ := List.getElem?_eq_some_iff.mp g4
    omega
  have hval : calculate rs hkl layeringName bondName isLocal V G = .ok (rs.map fun r => (if isLocal then localBond else globalBond) L.p1 L.p2 r
        (((V.shapes.map fun s => s.pos + s.rot.mulVec q).zip knn).map fun x => (x.2.take r).map fun e =>
          vectorTo V.box (V.shapes.map fun s => s.pos + s.rot.mulVec q) x.1 e.1)) := by
    unfold calculate View.namedPoints
    rw [hp, hq, Outcome.ok_bind, Outcome.pure_eq, Outcome.ok_bind, Outcome.ok_bind, Outcome.pure_eq, Outcome.ok_bind, hL, Outcome.ok_bind, htop]
    simp only []
    rw [e1, Outcome.ok_bind]
    refine Grid.mapM_ok fun r hr => ?_
    refine C93_value (by simpa using hV) e2 fun v hv => ⟨?_, (hall v hv).2⟩
    rw [(hall v hv).1]
    exact hmax r hr
  refine ⟨top, knn, htop, e1, hval, ?_⟩
  intro values hvals x hx
  rw [hval] at hvals
  injection hvals with hvals
  subst hvals
  obtain ⟨r, hr, rfl⟩ := List.mem_map.mp hx
  have hr' := C93_range (u := L.p1) (v := L.p2) (r := r) (particles := (((V.shapes.map fun s => s.pos + s.rot.mulVec q).zip knn).map fun x => (x.2.take r).map fun e =>
    vectorTo V.box (V.shapes.map fun s => s.pos + s.rot.mulVec q) x.1 e.1)) ?_ ?_
  · cases isLocal
    · exact ⟨hr'.1, hr'.2.1.trans hr'.2.2⟩
    · exact ⟨hr'.1.trans hr'.2.1, hr'.2.2⟩
  · intro e
    have := congrArg List.length e
    rw [List.length_map, List.length_zip, e2, min_self, List.length_map, List.length_nil] at this
    exact hV (List.length_eq_zero_iff.mp this)
  · intro ds hds
    obtain ⟨x, hx, rfl⟩ := List.mem_map.mp hds
    rw [List.length_map, List.length_take, (hall x.2 (List.of_mem_zip hx).2).1, min_eq_left (hmax r hr)]

/-! ### Where the documentation is wrong -/

theorem trans1_near {x y : ℝ} (h : |y - x| ≤ 1 / 2) : PBC.trans1 x y = 0 := by
  obtain ⟨h1, h2⟩ := abs_le.mp h
  unfold PBC.trans1
  rw [PBC.transDown, if_neg (by linarith), PBC.transUp, if_neg (by linarith)]

theorem translation_self {b : Box} (p : Vec3 ℝ) : PBC.getTranslation b p p = 0 := by
  unfold PBC.getTranslation
  simp only []
  rw [trans1_near (by simp), trans1_near (by simp), trans1_near (by simp)]
  ext <;> simp [Box.relToAbs, Mat3.mulVec, Vec3.dot]

theorem kVector_unit (hkl : Vec3 ℤ) : kVector ⟨1, 1⟩ hkl = ⟨2 * Real.pi * hkl.x, 2 * Real.pi * hkl.y, 2 * Real.pi * hkl.z⟩ := by
  have : (1 : Mat3).inverse = 1 := unitBox_wf.inv_eq.symm
  unfold kVector
  rw [this]
  ext <;> norm_num [Mat3.mulVec, Mat3.transpose, Vec3.dot, Mat3.c0, Mat3.c1, Mat3.c2, one_row0, one_row1, one_row2]

/-- Layers perpendicular to the z axis are found in the unit box. -/
theorem unit_layers (points : List (Vec3 ℝ)) : ∃ L, layerGeometry ⟨1, 1⟩ ⟨0, 0, 1⟩ points = .ok L ∧ L.k = ⟨0, 0, 2 * Real.pi⟩ ∧
    L.angle = Complex.arg (points.map fun p => Complex.exp (Complex.I * (2 * Real.pi * p.z : ℝ))).sum := by
  have hk : kVector ⟨1, 1⟩ ⟨0, 0, 1⟩ = ⟨0, 0, 2 * Real.pi⟩ := by rw [kVector_unit]; simp
  have hp := Real.pi_pos
  obtain ⟨L, h1, h2, -, h4⟩ := (C93_frame (b := ⟨1, 1⟩) (hkl := ⟨0, 0, 1⟩) (points := points) (kVector_of unitBox_wf (by simp)).2).2 (by
    rw [hk]
    rintro ⟨c, hc, h | h | h⟩
    · have := congrArg Vec3.z h; simp at this; 
    · have := congrArg Vec3.z h; simp at this; 
    · have := congrArg Vec3.z h; simp at this; linarith)
  refine ⟨L, h1, by rw [h2, hk], ?_⟩
  rw [h4, h2, hk]
  simp [Vec3.dot]

/-- **C93** Particles with too few neighbours are meant to be skipped, as if their parameter was 0, but a single particle, which has no neighbours at all, gives 1 for each rank:
it is taken for its own neighbour. -/
theorem C93_few_violated (G : Geometry) (s : Shape) {r : Nat} (hr : 2 ≤ r) (isLocal : Bool) : create [r] ⟨0, 0, 1⟩ = .ok [r] ∧
    calculate [r] ⟨0, 0, 1⟩ "o" "o" isLocal ⟨⟨1, 1⟩, [s]⟩ G = .ok [1] := by
  have hc : create [r] ⟨0, 0, 1⟩ = .ok [r] := by
    unfold create
    rw [show decide ([r] ≠ []) = true by simp, Outcome.require_true, Outcome.ok_bind, show decide (∀ x ∈ [r], x ≥ 2) = true by simpa using hr, Outcome.require_true,
      Outcome.ok_bind]
    simp [Outcome.ok_bind, Outcome.require]
  refine ⟨hc, ?_⟩
  have hp : G.getNamedPoint "o" = .ok (G.getGeometricOrigin Shape.default) := by simp [Geometry.getNamedPoint]
  obtain ⟨L, hL, hLk, -⟩ := unit_layers [s.pos + s.rot.mulVec (G.getGeometricOrigin Shape.default)]
  obtain ⟨top, knn, h1, h2, h3, -⟩ := C93_calculate hc (isLocal := isLocal) (V := ⟨⟨1, 1⟩, [s]⟩) (L := L) unitBox_wf (by simp) hp hp hL
  injection h1 with h1
  subst h1
  rw [h3]
  simp only [List.map_cons, List.map_nil] at h2 ⊢
  have hk : knn = [List.replicate r (0, ⊤)] := by
    unfold constructKnn at h2
    rw [show decide (([s.pos + s.rot.mulVec (G.getGeometricOrigin Shape.default)] : List (Vec3 ℝ)).length = [s.pos + s.rot.mulVec (G.getGeometricOrigin Shape.default)].length) = true
      by simp, Outcome.require_true, Outcome.ok_bind] at h2
    obtain ⟨kn, -, h2⟩ := Outcome.bind_eq_ok.mp h2
    rw [show BondOrder.pairs [s.pos + s.rot.mulVec (G.getGeometricOrigin Shape.default)].length = [] by simp [BondOrder.pairs]] at h2
    injection h2 with h2
    rw [← h2]
    rfl
  subst hk
  congr 2
  have hd : ∀ x, vectorTo ⟨1, 1⟩ [x] x 0 = 0 := by
    intro x
    unfold vectorTo
    show x - x + PBC.getTranslation ⟨1, 1⟩ x x = 0
    rw [translation_self]
    ext <;> simp
  have hv : ([s.pos + s.rot.mulVec (G.getGeometricOrigin Shape.default)].zip [List.replicate r ((0 : Nat), (⊤ : WithTop ℝ))]).map (fun x => (x.2.take r).map fun e =>
      vectorTo ⟨1, 1⟩ [s.pos + s.rot.mulVec (G.getGeometricOrigin Shape.default)] x.1 e.1) = [List.replicate r 0] := by
    simp only [List.zip_cons_cons, List.zip_nil_left, List.map_cons, List.map_nil, List.take_replicate, min_self, List.map_replicate, hd]
  rw [hv]
  obtain ⟨g1, g2⟩ := C93_perfect (u := L.p1) (v := L.p2) (r := r) (by omega) (particles := [List.replicate r 0]) (by simp) (by simp)
  have ha : ∀ d ∈ List.replicate r (0 : Vec3 ℝ), ∃ m : ℤ, Complex.arg ⟨L.p1.dot d, L.p2.dot d⟩ = 0 + 2 * Real.pi * m / r := by
    intro d hd
    rw [(List.mem_replicate.mp hd).2]
    refine ⟨0, ?_⟩
    rw [show (⟨L.p1.dot 0, L.p2.dot 0⟩ : ℂ) = 0 by apply Complex.ext <;> simp [Vec3.dot]]
    simp
  cases isLocal
  · exact g2 ⟨0, fun ds hds => by rw [List.mem_singleton.mp hds]; exact ha⟩
  · exact g1 fun ds hds => ⟨0, by rw [List.mem_singleton.mp hds]; exact ha⟩

/-- **C93** Indices with a negative one on a single axis, such as (0, 0, -1), which describe the same layers as (0, 0, 1), are accepted, but there is no value for them. -/
theorem C93_negative_violated (G : Geometry) (shapes : List Shape) (isLocal : Bool) : create [6] ⟨0, 0, -1⟩ = .ok [6] ∧
    calculate [6] ⟨0, 0, -1⟩ "o" "o" isLocal ⟨⟨1, 1⟩, shapes⟩ G = .ub := by
  constructor
  · unfold create
    simp [Outcome.require]
  · have hp : G.getNamedPoint "o" = .ok (G.getGeometricOrigin Shape.default) := by simp [Geometry.getNamedPoint]
    unfold calculate View.namedPoints
    rw [hp, Outcome.ok_bind, Outcome.pure_eq, Outcome.ok_bind, Outcome.ok_bind]
    have h := (C93_frame (b := ⟨1, 1⟩) (hkl := ⟨0, 0, -1⟩) (points := shapes.map fun s => s.pos + s.rot.mulVec (G.getGeometricOrigin Shape.default))
      (kVector_of unitBox_wf (by simp)).2).1 ⟨2 * Real.pi, by have := Real.pi_pos; linarith, .inr (.inr (by rw [kVector_unit]; simp))⟩
    rw [h]
    rfl

/-- **C93** Indices (0, 0, 1) are said to put all particles on one plane, but two particles at 1/3 and 2/3 of the box are in different layers (two more are at 0): they are not
neighbours of each other. -/
theorem C93_plane_violated : ∃ L, layerGeometry ⟨1, 1⟩ ⟨0, 0, 1⟩ [⟨0, 0, 0⟩, ⟨1 / 2, 0, 0⟩, ⟨0, 0, 1 / 3⟩, ⟨1 / 5, 0, 2 / 3⟩] = .ok L ∧
    ¬ sameLayer ⟨1, 1⟩ L ⟨0, 0, 1 / 3⟩ ⟨1 / 5, 0, 2 / 3⟩ := by
  obtain ⟨L, h1, h2, h3⟩ := unit_layers [⟨0, 0, 0⟩, ⟨1 / 2, 0, 0⟩, ⟨0, 0, 1 / 3⟩, ⟨1 / 5, 0, 2 / 3⟩]
  refine ⟨L, h1, ?_⟩
  have ha : L.angle = 0 := by
    rw [h3]
    have e : Complex.exp (Complex.I * (2 * Real.pi * (2 / 3) : ℝ)) = (starRingEnd ℂ) (Complex.exp (Complex.I * (2 * Real.pi * (1 / 3) : ℝ))) := by
      rw [← Complex.exp_conj, Complex.exp_eq_exp_iff_exists_int]
      refine ⟨1, ?_⟩
      rw [map_mul, Complex.conj_I, Complex.conj_ofReal]
      push_cast
      ring
    have hn : ‖Complex.exp (Complex.I * (2 * Real.pi * (1 / 3) : ℝ))‖ = 1 := by rw [mul_comm]; exact Complex.norm_exp_ofReal_mul_I _
    simp only [List.map_cons, List.map_nil, List.sum_cons, List.sum_nil, e]
    generalize Complex.exp (Complex.I * (2 * Real.pi * (1 / 3) : ℝ)) = z at *
    have : (Complex.exp (Complex.I * (2 * Real.pi * 0 : ℝ)) + (Complex.exp (Complex.I * (2 * Real.pi * 0 : ℝ)) + (z + ((starRingEnd ℂ) z + 0)))) = ((2 + 2 * z.re : ℝ) : ℂ) := by
      apply Complex.ext
      · simp; ring
      · simp
    rw [this, Complex.arg_ofReal_of_nonneg]
    have := Complex.abs_re_le_norm z
    rw [hn] at this
    linarith [(abs_le.mp this).1]
  have ht : PBC.getTranslation ⟨1, 1⟩ ⟨0, 0, 1 / 3⟩ ⟨1 / 5, 0, 2 / 3⟩ = 0 := by
    unfold PBC.getTranslation
    simp only [Box.absToRel, Mat3.one_mulVec]
    rw [trans1_near (by norm_num), trans1_near (by norm_num), trans1_near (by norm_num)]
    ext <;> simp [Box.relToAbs, Mat3.mulVec, Vec3.dot]
  unfold sameLayer layerOf
  rw [ht, ha, h2]
  have hp := Real.pi_pos
  have e1 : (Vec3.dot ⟨0, 0, 1 / 3⟩ ⟨0, 0, 2 * Real.pi⟩ - 0) / (2 * Real.pi) = 1 / 3 := by
    simp only [Vec3.dot]; field_simp; ring
  have e2 : (Vec3.dot (⟨1 / 5, 0, 2 / 3⟩ + 0) ⟨0, 0, 2 * Real.pi⟩ - 0) / (2 * Real.pi) = 2 / 3 := by
    simp only [Vec3.dot, Vec3.add_x, Vec3.add_y, Vec3.add_z, Vec3.zero_x, Vec3.zero_y, Vec3.zero_z]; field_simp; ring
  rw [e1, e2]
  unfold roundAway
  norm_num

/-- Neighbours of three particles in the unit box: the hypotheses are met. -/
example : ∃ L kn knn, layerGeometry ⟨1, 1⟩ ⟨0, 0, 1⟩ [⟨0, 0, 0⟩, ⟨1 / 2, 0, 0⟩, ⟨1 / 5, 0, 1 / 10⟩] = .ok L ∧ normalize L.k = .ok kn ∧
    constructKnn ⟨1, 1⟩ L 2 [⟨0, 0, 0⟩, ⟨1 / 2, 0, 0⟩, ⟨1 / 5, 0, 1 / 10⟩] [⟨0, 0, 0⟩, ⟨1 / 2, 0, 0⟩, ⟨1 / 5, 0, 1 / 10⟩] = .ok knn ∧ knn.length = 3 := by
  obtain ⟨L, h1, h2, -⟩ := unit_layers [⟨0, 0, 0⟩, ⟨1 / 2, 0, 0⟩, ⟨1 / 5, 0, 1 / 10⟩]
  have hp := Real.pi_pos
  obtain ⟨kn, hk⟩ := normalize_some (v := L.k) (by rw [h2]; simp only [Vec3.norm2, Vec3.dot]; nlinarith)
  obtain ⟨knn, h3, h4, -⟩ := C93_nearest (b := ⟨1, 1⟩) hk (r := 2) (by norm_num) (layering := [⟨0, 0, 0⟩, ⟨1 / 2, 0, 0⟩, ⟨1 / 5, 0, 1 / 10⟩])
    (bond := [⟨0, 0, 0⟩, ⟨1 / 2, 0, 0⟩, ⟨1 / 5, 0, 1 / 10⟩]) rfl
  exact ⟨L, kn, knn, h1, hk, h3, h4⟩

/-- Four neighbours on a square: rank 4 gives 1. -/
example : PlaneFrame ⟨0, 0, 1⟩ ⟨1, 0, 0⟩ ⟨0, 1, 0⟩ ∧ localBond ⟨1, 0, 0⟩ ⟨0, 1, 0⟩ 4 [[⟨1, 0, 0⟩, ⟨0, 1, 0⟩, ⟨-1, 0, 0⟩, ⟨0, -1, 0⟩]] = 1 := by
  refine ⟨by norm_num [PlaneFrame, Vec3.norm2, Vec3.dot], (C93_perfect (by norm_num) (by simp) (by simp)).1 ?_⟩
  intro ds hds
  rw [List.mem_singleton.mp hds]
  refine ⟨0, fun d hd => ?_⟩
  simp only [List.mem_cons, List.not_mem_nil, or_false] at hd
  rcases hd with rfl | rfl | rfl | rfl
  · exact ⟨0, by norm_num [Vec3.dot]; exact Complex.arg_one⟩
  · refine ⟨1, ?_⟩
    norm_num [Vec3.dot]
    rw [show (⟨0, 1⟩ : ℂ) = Complex.I from rfl, Complex.arg_I]; ring
  · refine ⟨2, ?_⟩
    norm_num [Vec3.dot]
    rw [show (⟨-1, 0⟩ : ℂ) = -1 by apply Complex.ext <;> simp, Complex.arg_neg_one]; ring
  · refine ⟨-1, ?_⟩
    norm_num [Vec3.dot]
    rw [show (⟨0, -1⟩ : ℂ) = -Complex.I by apply Complex.ext <;> simp, Complex.arg_neg_I]; ring

end Rampack
