import Verif.Observables.FourierPeaks
import Verif.Observables.CorrelationProps
/-
**C99** The tracker finds the maximum of the standing wave nearest to the previous one.
-/
namespace Rampack

open Spec Fourier

noncomputable section

/-- **C99** Which trackers are accepted: at least one wavenumber is not zero, and the function has a single value. -/
theorem C99_create (n : Vec3 Nat) (f : ShapeFn) :
    ((∃ T, Fourier.create n f = .ok T) ↔ (∃ a, n.get a ≠ 0) ∧ f.arity = 1) ∧
    ∀ T, Fourier.create n f = .ok T → T.wavenumbers = n ∧ OnAxes n T.previous := by
  have key : ∀ T, Fourier.create n f = .ok T → ((∃ a, n.get a ≠ 0) ∧ f.arity = 1) ∧ T = ⟨n, 0, 0⟩ := by
    intro T h
    unfold Fourier.create at h
    obtain ⟨_, h1, h⟩ := Outcome.bind_eq_ok.mp h
    obtain ⟨_, h2, h⟩ := Outcome.bind_eq_ok.mp h
    refine ⟨⟨?_, by simpa using Outcome.require_eq_ok.mp h2⟩, (Outcome.ok_inj.mp h).symm⟩
    have := Outcome.require_eq_ok.mp h1
    cases hl : nonzeroIdxs n with
    | nil => rw [hl] at this; simp at this
    | cons a _ => exact ⟨a, (mem_idxs.mp (by rw [hl]; simp)).ne'⟩
  refine ⟨⟨fun ⟨T, h⟩ => (key T h).1, fun ⟨⟨a, ha⟩, h2⟩ => ?_⟩, fun T h => ?_⟩
  · have hm := mem_idxs.mpr (Nat.pos_of_ne_zero ha)
    unfold Fourier.create
    rw [show (!(nonzeroIdxs n).isEmpty) = true by
      cases hl : nonzeroIdxs n with
      | nil => rw [hl] at hm; simp at hm
      | cons _ _ => rfl]
    rw [Outcome.require_true, decide_eq_true h2, Outcome.require_true]
    exact ⟨_, rfl⟩
  · obtain ⟨-, rfl⟩ := key T h
    exact ⟨rfl, fun a _ => get_zero_vec a⟩

/-- Non-vacuity: layers along an axis. -/
example : ∃ T, Fourier.create ⟨0, 0, 3⟩ (.const 1) = .ok T := (C99_create _ _).1.mpr ⟨⟨2, by simp⟩, rfl⟩

/-- **C99** The standing waves of particles are what the documentation describes: the first-order Fourier expansion with given coefficients. -/
theorem C99_expansion (n : Vec3 Nat) (l : List (Vec3 ℝ × ℝ)) (s : Vec3 ℝ) : waves n l s = expansion n l s := by
  rw [waves_cf]
  unfold expansion cf
  simp only [Fintype.sum_bool, trig, tr_zero, tr_one]
  have e : ∀ g : Vec3 ℝ → ℝ × ℝ × ℝ, (l.map fun q => q.2 * (g q.1).1 * (g q.1).2.1 * (g q.1).2.2).sum = (l.map fun q => q.2 * ((g q.1).1 * (g q.1).2.1 * (g q.1).2.2)).sum := by
    intro g
    congr 1
    exact List.map_congr_left fun q _ => by ring
  simp only [e fun p => (Real.cos (2 * Real.pi * n.x * p.x), Real.cos (2 * Real.pi * n.y * p.y), Real.cos (2 * Real.pi * n.z * p.z)),
    e fun p => (Real.cos (2 * Real.pi * n.x * p.x), Real.cos (2 * Real.pi * n.y * p.y), Real.sin (2 * Real.pi * n.z * p.z)),
    e fun p => (Real.cos (2 * Real.pi * n.x * p.x), Real.sin (2 * Real.pi * n.y * p.y), Real.cos (2 * Real.pi * n.z * p.z)),
    e fun p => (Real.cos (2 * Real.pi * n.x * p.x), Real.sin (2 * Real.pi * n.y * p.y), Real.sin (2 * Real.pi * n.z * p.z)),
    e fun p => (Real.sin (2 * Real.pi * n.x * p.x), Real.cos (2 * Real.pi * n.y * p.y), Real.cos (2 * Real.pi * n.z * p.z)),
    e fun p => (Real.sin (2 * Real.pi * n.x * p.x), Real.cos (2 * Real.pi * n.y * p.y), Real.sin (2 * Real.pi * n.z * p.z)),
    e fun p => (Real.sin (2 * Real.pi * n.x * p.x), Real.sin (2 * Real.pi * n.y * p.y), Real.cos (2 * Real.pi * n.z * p.z)),
    e fun p => (Real.sin (2 * Real.pi * n.x * p.x), Real.sin (2 * Real.pi * n.y * p.y), Real.sin (2 * Real.pi * n.z * p.z))]
  ring

namespace Fourier

/-- One or two wavenumbers are not zero. -/
theorem idxs_cases {n : Vec3 Nat} (h1 : ∃ a, n.get a ≠ 0) (h2 : ∃ a, n.get a = 0) :
    (∃ i, nonzeroIdxs n = [i]) ∨ ∃ i j, nonzeroIdxs n = [i, j] := by
  have hd := nodup_idxs n
  obtain ⟨a, ha⟩ := h1
  obtain ⟨b, hb⟩ := h2
  have ha := mem_idxs.mpr (Nat.pos_of_ne_zero ha)
  have hb' : b ∉ nonzeroIdxs n := fun h => by have := mem_idxs.mp h; omega
  have hlen : (b :: nonzeroIdxs n).length ≤ 3 := by
    have := (List.nodup_cons.mpr ⟨hb', hd⟩).length_le_card
    simpa using this
  match hl : nonzeroIdxs n with
  | [] => rw [hl] at ha; simp at ha
  | [i] => exact Or.inl ⟨i, rfl⟩
  | [i, j] => exact Or.inr ⟨i, j, rfl⟩
  | _ :: _ :: _ :: _ => rw [hl] at hlen; simp at hlen; omega

theorem sgn_abs (n : Vec3 Nat) (j : Fin 3) {e : ℤ} (he : e = 1 ∨ e = -1) (a : Fin 3) : ((sgn n j e).get a).natAbs = n.get a := by
  unfold sgn
  rw [get_ofFn]
  rcases he with rfl | rfl <;> split <;> simp

/-- The point found before the choice of the nearest one. -/
theorem relative_spec (solve : List ℝ → List ℝ) {n : Vec3 Nat} (h1 : ∃ a, n.get a ≠ 0) (h2 : ∃ a, n.get a = 0) (l : List (Vec3 ℝ × ℝ)) :
    ∃ rel, relativeOrigin solve n (cf n l) = .ok rel ∧ OnAxes n rel ∧ (∀ p, waves n l p ≤ waves n l rel + 2 / 10 ^ 8) ∧ (Resolved n l → Complete n l rel) := by
  unfold relativeOrigin
  rcases idxs_cases h1 h2 with ⟨i, hi⟩ | ⟨i, j, hij⟩
  · rw [hi]
    obtain ⟨p1, p2⟩ := idxs_one hi
    obtain ⟨q1, q2⟩ := peak1 p1 p2 l
    refine ⟨_, rfl, relative1D_axes p1 _, q1, fun hr => q2 ?_⟩
    obtain ⟨p, hp⟩ := hr (sgn n i 1) (sgn_abs n i (Or.inl rfl))
    exact ⟨p, by rw [← diag1 p2]; exact hp⟩
  · rw [hij]
    obtain ⟨p1, p2, p3, p4⟩ := idxs_two hij
    obtain ⟨q1, q2⟩ := peak2 p1 p2 p3 p4 l
    exact ⟨_, rfl, relative2D_axes p2 p3 _, q1, fun hr => q2 (hr _ (sgn_abs n j (Or.inl rfl))) (hr _ (sgn_abs n j (Or.inr rfl)))⟩

theorem calculate_of {solve : List ℝ → List ℝ} {f : Shape → Outcome ℝ} {T : FourierTracker} {V : View} {l : List (Vec3 ℝ × ℝ)} {rel : Vec3 ℝ} (hb : V.box.WF) (hl : Sampled f V l)
    (h : relativeOrigin solve T.wavenumbers (cf T.wavenumbers l) = .ok rel) :
    calculateOrigin solve f T V = .ok ⟨T.wavenumbers, normalizeOrigin T.wavenumbers T.previous rel, V.box.relToAbs (normalizeOrigin T.wavenumbers T.previous rel)⟩ := by
  unfold calculateOrigin
  rw [coefficients_ok hb hl, Outcome.ok_bind, h, Outcome.ok_bind]
  rfl

/-- Waves do not depend on coordinates along axes which are not tracked. -/
theorem waves_active {n : Vec3 Nat} {p q : Vec3 ℝ} (h : ∀ a, n.get a ≠ 0 → p.get a = q.get a) (l : List (Vec3 ℝ × ℝ)) : waves n l p = waves n l q := by
  have e : ∀ (a : Fin 3) (y : ℝ), Real.cos (2 * Real.pi * (n.get a) * (p.get a - y)) = Real.cos (2 * Real.pi * (n.get a) * (q.get a - y)) := by
    intro a y
    by_cases ha : n.get a = 0
    · rw [ha]; simp
    · rw [h a ha]
  unfold waves
  congr 1
  refine List.map_congr_left fun r _ => ?_
  have e0 := e 0 r.1.x
  have e1 := e 1 r.1.y
  have e2 := e 2 r.1.z
  simp only [Vec3.get_zero, Vec3.get_one, Vec3.get_two] at e0 e1 e2
  rw [e0, e1, e2]

theorem normalize_waves {n : Vec3 Nat} {prev rel : Vec3 ℝ} (h : OnAxes n rel) (l : List (Vec3 ℝ × ℝ)) : waves n l (normalizeOrigin n prev rel) = waves n l rel := by
  obtain ⟨⟨k, m, hk, e⟩, -, -⟩ := normalize_spec n prev rel h
  rw [e, waves_int, waves_halves hk]

/-- The square of a difference along axes. -/
theorem dist2_mono {prev p q : Vec3 ℝ} (h : ∀ a, q.get a = p.get a ∨ q.get a = prev.get a) : dist2 prev q ≤ dist2 prev p := by
  have e : ∀ a, (q.get a - prev.get a) ^ 2 ≤ (p.get a - prev.get a) ^ 2 := by
    intro a
    rcases h a with h | h
    · rw [h]
    · rw [h, sub_self]
      nlinarith [sq_nonneg (p.get a - prev.get a)]
  have e0 := e 0
  have e1 := e 1
  have e2 := e 2
  simp only [Vec3.get_zero, Vec3.get_one, Vec3.get_two] at e0 e1 e2
  unfold dist2
  linarith

theorem nearest_of {n : Vec3 Nat} {l : List (Vec3 ℝ × ℝ)} {prev rel : Vec3 ℝ} (hp : OnAxes n prev) (h0 : OnAxes n rel) (h : Complete n l rel) :
    Peak n l (normalizeOrigin n prev rel) ∧
    ∃ q, Congruent (normalizeOrigin n prev rel) q ∧ ∀ p, Peak n l p → dist2 prev q ≤ dist2 prev p := by
  refine ⟨fun p => by rw [normalize_waves h0]; exact h.1 p, ?_⟩
  obtain ⟨-, -, m0, hm0⟩ := normalize_spec n prev rel h0
  refine ⟨_, ⟨m0, rfl⟩, fun p hpk => ?_⟩
  obtain ⟨k, hk, e⟩ := h.2 p hpk
  refine (hm0 k ⟨0, 0, 0⟩ hk).trans (dist2_mono fun a => ?_)
  have e0 : rel + halves n k + (⟨((0 : ℤ) : ℝ), ((0 : ℤ) : ℝ), ((0 : ℤ) : ℝ)⟩ : Vec3 ℝ) = rel + halves n k := by ext <;> simp
  show (rel + halves n k + (⟨((0 : ℤ) : ℝ), ((0 : ℤ) : ℝ), ((0 : ℤ) : ℝ)⟩ : Vec3 ℝ)).get a = _ ∨ (rel + halves n k + (⟨((0 : ℤ) : ℝ), ((0 : ℤ) : ℝ), ((0 : ℤ) : ℝ)⟩ : Vec3 ℝ)).get a = _
  rw [e0]
  by_cases ha : n.get a = 0
  · right
    rw [get_add, h0 a ha, hp a ha, get_halves]
    simp [half, ha]
  · exact Or.inl (e a ha).symm

end Fourier

/-- **C99** In one and two dimensions, whatever the previous origin is, the tracker finds a point where the wave is not further from its maximum than twice the threshold of amplitudes, on tracked
axes, and the reported origin is this point of the box. -/
theorem C99_maximum (solve : List ℝ → List ℝ) {f : Shape → Outcome ℝ} {T : FourierTracker} {V : View} {l : List (Vec3 ℝ × ℝ)} (hb : V.box.WF) (hl : Sampled f V l)
    (h1 : ∃ a, T.wavenumbers.get a ≠ 0) (h2 : ∃ a, T.wavenumbers.get a = 0) :
    ∃ T', calculateOrigin solve f T V = .ok T' ∧ T'.wavenumbers = T.wavenumbers ∧ T'.origin = combo V.box T'.previous ∧ OnAxes T.wavenumbers T'.previous ∧
      ∀ p, waves T.wavenumbers l p ≤ waves T.wavenumbers l T'.previous + 2 / 10 ^ 8 := by
  obtain ⟨rel, g1, g2, g3, -⟩ := relative_spec solve h1 h2 l
  refine ⟨_, calculate_of hb hl g1, rfl, Box.relToAbs_eq_combo _ _, (normalize_spec _ _ _ g2).2.1, fun p => ?_⟩
  rw [normalize_waves g2]
  exact g3 p

/-- **C99** (one and two dimensions) When waves are not negligible, the origin is exactly a global maximum and among all maxima one of its periodic images is the nearest to the previous origin
(which is zero at the beginning and after a reset). -/
theorem C99_nearest (solve : List ℝ → List ℝ) {f : Shape → Outcome ℝ} {T : FourierTracker} {V : View} {l : List (Vec3 ℝ × ℝ)} (hb : V.box.WF) (hl : Sampled f V l)
    (h1 : ∃ a, T.wavenumbers.get a ≠ 0) (h2 : ∃ a, T.wavenumbers.get a = 0) (hp : OnAxes T.wavenumbers T.previous) (hr : Resolved T.wavenumbers l) :
    ∃ T', calculateOrigin solve f T V = .ok T' ∧ T'.wavenumbers = T.wavenumbers ∧ T'.origin = combo V.box T'.previous ∧ OnAxes T.wavenumbers T'.previous ∧
      Peak T.wavenumbers l T'.previous ∧
      ∃ q, Congruent T'.previous q ∧ ∀ p, Peak T.wavenumbers l p → dist2 T.previous q ≤ dist2 T.previous p := by
  obtain ⟨rel, g1, g2, -, g4⟩ := relative_spec solve h1 h2 l
  obtain ⟨k1, k2⟩ := nearest_of hp g2 (g4 hr)
  exact ⟨_, calculate_of hb hl g1, rfl, Box.relToAbs_eq_combo _ _, (normalize_spec _ _ _ g2).2.1, k1, k2⟩

namespace Fourier

/-- A single particle. -/
theorem lone_sampled (p : Vec3 ℝ) : Sampled (fun _ => .ok 1) ⟨⟨1, 1⟩, [⟨p, 1⟩]⟩ [(p, 1)] :=
  List.Forall₂.cons ⟨by rw [← Box.relToAbs_eq_combo]; exact (unit_relToAbs p).symm, rfl⟩ List.Forall₂.nil

theorem lone_resolved (n : Vec3 Nat) (p : Vec3 ℝ) : Resolved n [(p, 1)] := by
  intro σ _
  refine ⟨p, ?_⟩
  simp [diagonal]
  norm_num

end Fourier

/-- Non-vacuity: a particle tracked in the plane. -/
example : (⟨1, 1⟩ : Box).WF ∧ Sampled (fun _ => .ok 1) ⟨⟨1, 1⟩, [⟨⟨1 / 4, 1 / 3, 0⟩, 1⟩]⟩ [(⟨1 / 4, 1 / 3, 0⟩, 1)] ∧ Resolved ⟨1, 2, 0⟩ [(⟨1 / 4, 1 / 3, 0⟩, 1)] ∧
    (∃ a, (⟨1, 2, 0⟩ : Vec3 Nat).get a ≠ 0) ∧ (∃ a, (⟨1, 2, 0⟩ : Vec3 Nat).get a = 0) ∧ OnAxes ⟨1, 2, 0⟩ (0 : Vec3 ℝ) :=
  ⟨unitBox_wf, lone_sampled _, lone_resolved _ _, ⟨0, by simp⟩, ⟨2, rfl⟩, fun a _ => get_zero_vec a⟩

/-- **C99** A reset makes the tracker forget the previous origin, and nothing else. -/
theorem C99_reset (solve : List ℝ → List ℝ) (f : Shape → Outcome ℝ) (n : Vec3 Nat) (p o : Vec3 ℝ) (V : View) :
    calculateOrigin solve f (reset ⟨n, p, o⟩) V = calculateOrigin solve f ⟨n, 0, 0⟩ V := rfl

namespace Fourier

theorem cos_displaced (n : Nat) (p y t : ℝ) (m : ℤ) :
    Real.cos (2 * Real.pi * n * (p + (if n = 0 then 0 else t) - (y + t + m))) = Real.cos (2 * Real.pi * n * (p - y)) := by
  by_cases hn : n = 0
  · subst hn; simp
  · rw [if_neg hn, ← Real.cos_sub_int_mul_two_pi (2 * Real.pi * n * (p - y)) (n * m)]
    congr 1
    push_cast
    ring

theorem waves_displaced {n : Vec3 Nat} {t : Vec3 ℝ} {l l' : List (Vec3 ℝ × ℝ)} (h : Displaced t l l') (p : Vec3 ℝ) : waves n l' (p + along n t) = waves n l p := by
  unfold waves
  induction h with
  | nil => rfl
  | @cons q q' l l' hq _ ih =>
    obtain ⟨e1, m, e2⟩ := hq
    simp only [along, Vec3.add_x, Vec3.add_y, Vec3.add_z] at ih
    simp only [List.map_cons, List.sum_cons, e1, e2, along, Vec3.add_x, Vec3.add_y, Vec3.add_z, cos_displaced, ih]

theorem diagonal_displaced (σ : Vec3 ℤ) {t : Vec3 ℝ} {l l' : List (Vec3 ℝ × ℝ)} (h : Displaced t l l') (p : Vec3 ℝ) : diagonal σ l' (p + t) = diagonal σ l p := by
  unfold diagonal
  induction h with
  | nil => rfl
  | @cons q q' l l' hq _ ih =>
    obtain ⟨e1, m, e2⟩ := hq
    simp only [Vec3.add_x, Vec3.add_y, Vec3.add_z] at ih
    simp only [List.map_cons, List.sum_cons, e1, e2, Vec3.add_x, Vec3.add_y, Vec3.add_z, ih]
    congr 2
    rw [← Real.cos_sub_int_mul_two_pi (2 * Real.pi * (σ.x * (p.x - q.1.x) + σ.y * (p.y - q.1.y) + σ.z * (p.z - q.1.z))) (σ.x * m.x + σ.y * m.y + σ.z * m.z)]
    congr 1
    push_cast
    ring

theorem resolved_displaced {n : Vec3 Nat} {t : Vec3 ℝ} {l l' : List (Vec3 ℝ × ℝ)} (h : Displaced t l l') (hr : Resolved n l) : Resolved n l' := by
  intro σ hσ
  obtain ⟨p, hp⟩ := hr σ hσ
  exact ⟨p + t, by rw [diagonal_displaced σ h]; exact hp⟩

theorem peak_displaced {n : Vec3 Nat} {t : Vec3 ℝ} {l l' : List (Vec3 ℝ × ℝ)} (h : Displaced t l l') (p : Vec3 ℝ) : Peak n l' (p + along n t) ↔ Peak n l p := by
  unfold Peak
  rw [waves_displaced h]
  constructor
  · intro hp q
    rw [← waves_displaced h q]
    exact hp _
  · intro hp q
    have := hp (q - along n t)
    rw [← waves_displaced h, show q - along n t + along n t = q by ext <;> simp] at this
    exact this

theorem get_along (n : Vec3 Nat) (t : Vec3 ℝ) (a : Fin 3) : (along n t).get a = if n.get a = 0 then 0 else t.get a := by
  match a with
  | 0 => rfl
  | 1 => rfl
  | 2 => rfl

theorem congruent_of {p q : Vec3 ℝ} (h : ∀ a, ∃ m : ℤ, q.get a = p.get a + m) : Congruent p q := by
  obtain ⟨x, hx⟩ := h 0
  obtain ⟨y, hy⟩ := h 1
  obtain ⟨z, hz⟩ := h 2
  exact ⟨⟨x, y, z⟩, by ext; exacts [hx, hy, hz]⟩

theorem Congruent.get {p q : Vec3 ℝ} (h : Congruent p q) (a : Fin 3) : ∃ m : ℤ, q.get a = p.get a + m := by
  obtain ⟨m, rfl⟩ := h
  match a with
  | 0 => exact ⟨m.x, rfl⟩
  | 1 => exact ⟨m.y, rfl⟩
  | 2 => exact ⟨m.z, rfl⟩

theorem follow_step {n : Vec3 Nat} {t : Vec3 ℝ} {l l' : List (Vec3 ℝ × ℝ)} {s s' q : Vec3 ℝ} (h : Displaced t l l') (hs : Peak n l s) (hslow : Slow n l t)
    (h0 : OnAxes n s) (h0' : OnAxes n s') (hpk : Peak n l' s') (hq : Congruent s' q) (hnear : ∀ p, Peak n l' p → dist2 s q ≤ dist2 s p) :
    Congruent (s + along n t) s' := by
  have hq' : Peak n l' q := by
    obtain ⟨m, rfl⟩ := hq
    intro p
    rw [waves_int]
    exact hpk p
  have e1 := hnear _ ((peak_displaced h s).mpr hs)
  have hr : Peak n l (q - along n t) := by
    rw [← peak_displaced h, show q - along n t + along n t = q by ext <;> simp]
    exact hq'
  have hact : ∀ a, n.get a ≠ 0 → s.get a = (q - along n t).get a := by
    by_contra hc
    push Not at hc
    obtain ⟨a, ha, hne⟩ := hc
    have := hslow s (q - along n t) hs hr ⟨a, ha, hne⟩
    revert this e1
    simp only [dist2, Vec3.norm2, Vec3.dot, Vec3.add_x, Vec3.add_y, Vec3.add_z, Vec3.sub_x, Vec3.sub_y, Vec3.sub_z]
    intro e1 this
    nlinarith [sq_nonneg (q.x - s.x + (along n t).x), sq_nonneg (q.y - s.y + (along n t).y), sq_nonneg (q.z - s.z + (along n t).z)]
  refine congruent_of fun a => ?_
  by_cases ha : n.get a = 0
  · exact ⟨0, by rw [get_add, h0 a ha, h0' a ha, get_along, if_pos ha]; simp⟩
  · obtain ⟨m, hm⟩ := Congruent.get hq a
    have e2 := hact a ha
    have e3 : (q - along n t).get a = q.get a - (along n t).get a := by
      match a with
      | 0 => rfl
      | 1 => rfl
      | 2 => rfl
    refine ⟨-m, ?_⟩
    rw [get_add, e2, e3, hm]
    push_cast
    ring

theorem congruent_trans {p q r t : Vec3 ℝ} (h1 : Congruent (p + t) q) (u : Vec3 ℝ) (h2 : Congruent (q + u) r) : Congruent (p + (t + u)) r := by
  refine congruent_of fun a => ?_
  obtain ⟨m, hm⟩ := Congruent.get h1 a
  obtain ⟨k, hk⟩ := Congruent.get h2 a
  refine ⟨m + k, ?_⟩
  rw [get_add] at hm hk
  rw [get_add, get_add, hk, hm]
  push_cast
  ring

end Fourier

/-- **C99** (one and two dimensions) The origin follows the system. Whatever the number of snapshots is, when in each of them the whole system is displaced (with the box possibly changed) by less
than half of the distance between maxima, the relative origin is displaced, along tracked axes, by the total displacement of the system, up to periodic images. -/
theorem C99_follow (solve : List ℝ → List ℝ) {f : Shape → Outcome ℝ} (steps : List (Vec3 ℝ × View × List (Vec3 ℝ × ℝ))) : ∀ {T : FourierTracker} {l : List (Vec3 ℝ × ℝ)},
    (∃ a, T.wavenumbers.get a ≠ 0) → (∃ a, T.wavenumbers.get a = 0) → Resolved T.wavenumbers l → OnAxes T.wavenumbers T.previous → Peak T.wavenumbers l T.previous →
    Drifting T.wavenumbers f l steps →
    ∃ T', steps.foldlM (fun T q => calculateOrigin solve f T q.2.1) T = .ok T' ∧
      Congruent (T.previous + (steps.map fun q => along T.wavenumbers q.1).foldr (· + ·) 0) T'.previous := by
  induction steps with
  | nil =>
    intro T l _ _ _ _ _ _
    exact ⟨T, rfl, congruent_of fun a => ⟨0, by rw [get_add]; simp [get_zero_vec]⟩⟩
  | cons st rest ih =>
    intro T l h1 h2 hr hp hpk hd
    obtain ⟨t, V, l'⟩ := st
    obtain ⟨d1, d2, d3, d4, d5⟩ := hd
    obtain ⟨T1, g1, g2, -, g4, g5, q, g6, g7⟩ := C99_nearest solve d1 d2 h1 h2 hp (resolved_displaced d3 hr)
    have hstep := follow_step d3 hpk d4 hp g4 g5 g6 g7
    rw [← g2] at g4 g5 d5
    obtain ⟨T2, k1, k2⟩ := ih (by rw [g2]; exact h1) (by rw [g2]; exact h2) (by rw [g2]; exact resolved_displaced d3 hr) g4 g5 d5
    refine ⟨T2, ?_, ?_⟩
    · rw [List.foldlM_cons]
      show Outcome.bind (calculateOrigin solve f T V) _ = _
      rw [g1]
      exact k1
    · rw [g2] at k2
      exact congruent_trans hstep _ k2

/-- Non-vacuity: a particle which moves by a quarter of the period. -/
example : Drifting ⟨0, 0, 1⟩ (fun _ => .ok 1) [(⟨0, 0, 0⟩, 1)] [(⟨1 / 8, 0, 1 / 4⟩, ⟨⟨1, 1⟩, [⟨⟨1 / 8, 0, 1 / 4⟩, 1⟩]⟩, [(⟨1 / 8, 0, 1 / 4⟩, 1)])] ∧
    Peak ⟨0, 0, 1⟩ [(⟨0, 0, 0⟩, 1)] 0 := by
  have hw : ∀ p, waves ⟨0, 0, 1⟩ [(⟨0, 0, 0⟩, 1)] p = Real.cos (2 * Real.pi * p.z) := by
    intro p; simp [waves]
  have hpk : Peak ⟨0, 0, 1⟩ [(⟨0, 0, 0⟩, 1)] 0 := by
    intro p
    rw [hw, hw]
    simpa using Real.cos_le_one _
  have hint : ∀ p, Peak ⟨0, 0, 1⟩ [(⟨0, 0, 0⟩, 1)] p → ∃ k : ℤ, p.z = k := by
    intro p hp
    have h := hp 0
    rw [hw, hw] at h
    have h1 : Real.cos (2 * Real.pi * p.z) = 1 := by
      have := Real.cos_le_one (2 * Real.pi * p.z)
      simp at h
      linarith
    obtain ⟨k, hk⟩ := (Real.cos_eq_one_iff _).mp h1
    refine ⟨k, ?_⟩
    have := Real.pi_pos
    nlinarith
  refine ⟨⟨unitBox_wf, lone_sampled _, List.Forall₂.cons ⟨rfl, ⟨0, 0, 0⟩, by ext <;> simp⟩ List.Forall₂.nil, ?_, trivial⟩, hpk⟩
  intro p q hp hq ⟨a, ha, hne⟩
  obtain ⟨k, hk⟩ := hint p hp
  obtain ⟨j, hj⟩ := hint q hq
  have ha2 : p.z ≠ q.z := by
    match a with
    | 0 => exact absurd rfl ha
    | 1 => exact absurd rfl ha
    | 2 => exact hne
  have hjk : 1 ≤ |j - k| := Int.one_le_abs (by
    intro h
    apply ha2
    rw [hk, hj, show j = k by omega])
  have hjk' : (1 : ℝ) ≤ |(j : ℝ) - k| := by exact_mod_cast hjk
  have hsq : 1 ≤ ((j : ℝ) - k) ^ 2 := by
    rw [← sq_abs]
    nlinarith
  simp only [along, Vec3.norm2, Vec3.dot, dist2, hk, hj]
  norm_num
  nlinarith [sq_nonneg (q.x - p.x), sq_nonneg (q.y - p.y)]

end

end Rampack
