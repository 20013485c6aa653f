import Verif.Shapes.WedgeLemmas
import Verif.Grid.ListLemmas
import Mathlib.Algebra.Order.Floor.Ring
/-
Parts of wedges.
-/
namespace Rampack.Wedge

open Rampack Spec Packing XC

theorem smooth_describes {R r l : ℝ} (hR : 0 < R) (hr : 0 < r) (hl : 0 < l) (h : |R - r| ≤ l) :
    Describes ⟨smoothSupport R r l, 0, (l + R + r) / 2, 1 / 2 * (R + r + (R - r) * (R - r) / l)⟩ (SmoothWedge R r l) := by
  obtain ⟨d1, d2⟩ := abs_le.mp h
  have hin : Inscribed (SmoothWedge R r l) (1 / 2 * (R + r + (R - r) * (R - r) / l)) := by
    intro _ p hp
    unfold SmoothWedge
    rw [join_balls hR hr]
    refine ⟨(l - (R - r)) / (2 * l), div_nonneg (by linarith) (by linarith), (div_le_one (by linarith)).mpr (by linarith), ?_⟩
    rw [norm2_eq] at hp
    unfold Swept
    have e1 : (1 - (l - (R - r)) / (2 * l)) * ((R - r - l) / 2) + (l - (R - r)) / (2 * l) * ((R - r + l) / 2) = 0 := by field_simp; ring
    have e2 : (1 - (l - (R - r)) / (2 * l)) * R + (l - (R - r)) / (2 * l) * r = 1 / 2 * (R + r + (R - r) * (R - r) / l) := by field_simp; ring
    rw [e1, e2, sub_zero]; exact hp
  have hpos : 0 < 1 / 2 * (R + r + (R - r) * (R - r) / l) := by
    have : 0 ≤ (R - r) * (R - r) / l := div_nonneg (mul_self_nonneg _) hl.le
    linarith
  refine ⟨?_, join_convex (ballAt_convex _ _) (ballAt_convex _ _), hin hpos 0 ?_, by show 0 ≤ (l + R + r) / 2; linarith, hpos.le, ?_, hin⟩
  · refine join_support (ballAt_support hR) (ballAt_support hr) fun n hn => ?_
    have h4 := normalized_self hn
    have hnp := Xeno.norm_pos_of_ne hn
    have ez : (normalized n).z * n.norm = n.z := by
      show n.z / n.norm * n.norm = n.z
      field_simp
    have e : ∀ s z : ℝ, (s • normalized n + ⟨0, 0, z⟩).dot n = s * n.norm + z * n.z := by
      intro s z
      rw [← h4]
      simp only [Vec3.dot, Vec3.smul_x, Vec3.smul_y, Vec3.smul_z, Vec3.add_x, Vec3.add_y, Vec3.add_z]; ring
    show (smoothSupport R r l n = _ ∧ _) ∨ (smoothSupport R r l n = _ ∧ _)
    unfold smoothSupport
    rw [e, e]
    split_ifs with hc
    · left
      refine ⟨by rw [show (-l + R - r) / 2 = (R - r - l) / 2 by ring], ?_⟩
      have := mul_le_mul_of_nonneg_right hc.le hnp.le
      rw [mul_right_comm, ez] at this
      nlinarith
    · right
      refine ⟨by rw [show (l + R - r) / 2 = (R - r + l) / 2 by ring], ?_⟩
      have := mul_le_mul_of_nonneg_right (not_lt.mp hc) hnp.le
      rw [mul_right_comm, ez] at this
      nlinarith
  · rw [norm2_eq]; simp; positivity
  · intro p hp
    unfold SmoothWedge at hp
    rw [join_balls hR hr] at hp
    obtain ⟨t, h0, h1, hp⟩ := hp
    unfold Swept at hp
    rw [norm2_eq]
    show _ ≤ ((l + R + r) / 2) ^ 2
    have ec : (1 - t) * ((R - r - l) / 2) + t * ((R - r + l) / 2) = (R - r - l) / 2 + t * l := by ring
    rw [ec] at hp
    have eρ : (1 - t) * R + t * r = R - t * (R - r) := by ring
    rw [eρ] at hp
    have hρ : 0 ≤ R - t * (R - r) := by
      rw [← eρ]; exact add_nonneg (mul_nonneg (by linarith) hR.le) (mul_nonneg h0 hr.le)
    have hup : (R - r - l) / 2 + t * l + (R - t * (R - r)) ≤ (l + R + r) / 2 := by
      have := mul_nonneg (sub_nonneg.mpr h1) (sub_nonneg.mpr d2)
      linarith
    have hdown : -((R - r - l) / 2 + t * l) + (R - t * (R - r)) ≤ (l + R + r) / 2 := by
      have := mul_nonneg h0 (show 0 ≤ l + (R - r) by linarith)
      linarith
    generalize (R - r - l) / 2 + t * l = c at *
    generalize R - t * (R - r) = ρ at *
    generalize (l + R + r) / 2 = C at *
    -- |p| ≤ ρ + |c|
    have hz : |p.z - c| ≤ ρ := by
      apply abs_le_of_sq_le_sq _ hρ
      have := sq_nonneg p.x
      have := sq_nonneg p.y
      linarith
    obtain ⟨z1, z2⟩ := abs_le.mp hz
    have hC : |c| + ρ ≤ C := by
      rcases abs_cases c with ⟨e, _⟩ | ⟨e, _⟩ <;> rw [e] <;> linarith
    have h2 : p.x ^ 2 + p.y ^ 2 + p.z ^ 2 ≤ (|c| + ρ) ^ 2 := by
      have e : p.x ^ 2 + p.y ^ 2 + p.z ^ 2 = p.x ^ 2 + p.y ^ 2 + (p.z - c) ^ 2 + 2 * c * (p.z - c) + c ^ 2 := by ring
      have : c * (p.z - c) ≤ |c| * ρ := by
        refine le_trans (le_abs_self _) ?_
        rw [abs_mul]
        exact mul_le_mul_of_nonneg_left hz (abs_nonneg _)
      have := sq_abs c
      nlinarith
    have : (|c| + ρ) ^ 2 ≤ C ^ 2 := pow_le_pow_left₀ (add_nonneg (abs_nonneg _) hρ) hC 2
    linarith

theorem boxy_describes {bx bz tx ty l : ℝ} (hl : 0 < l) (h1 : 0 ≤ bx) (h2 : 0 ≤ bz) (h3 : 0 ≤ tx) (h4 : 0 ≤ ty) :
    Describes ⟨boxySupport ⟨tx / 2, ty / 2, l / 2⟩ ⟨bx / 2, bz / 2, -l / 2⟩, 0, max (⟨tx / 2, ty / 2, l / 2⟩ : Vec3 ℝ).norm (⟨bx / 2, bz / 2, -l / 2⟩ : Vec3 ℝ).norm,
      min (min (min tx ty) (min bx bz)) l / 2⟩ (PolyhedralWedge bx bz tx ty l) := by
  have hmin : 0 ≤ min (min (min tx ty) (min bx bz)) l / 2 := by
    have : 0 ≤ min (min (min tx ty) (min bx bz)) l := le_min (le_min (le_min h3 h4) (le_min h1 h2)) hl.le
    linarith
  have hin : ∀ p : Vec3 ℝ, p.norm2 ≤ (min (min (min tx ty) (min bx bz)) l / 2) ^ 2 → PolyhedralWedge bx bz tx ty l p := by
    intro p hp
    rw [norm2_eq] at hp
    have m1 : min (min (min tx ty) (min bx bz)) l ≤ tx := (min_le_left _ _).trans ((min_le_left _ _).trans (min_le_left _ _))
    have m2 : min (min (min tx ty) (min bx bz)) l ≤ ty := (min_le_left _ _).trans ((min_le_left _ _).trans (min_le_right _ _))
    have m3 : min (min (min tx ty) (min bx bz)) l ≤ bx := (min_le_left _ _).trans ((min_le_right _ _).trans (min_le_left _ _))
    have m4 : min (min (min tx ty) (min bx bz)) l ≤ bz := (min_le_left _ _).trans ((min_le_right _ _).trans (min_le_right _ _))
    have m5 : min (min (min tx ty) (min bx bz)) l ≤ l := min_le_right _ _
    generalize min (min (min tx ty) (min bx bz)) l = m at *
    have q1 := sq_nonneg p.x
    have q2 := sq_nonneg p.y
    have q3 := sq_nonneg p.z
    have ax : |p.x| ≤ m / 2 := abs_le_of_sq_le_sq (by linarith) hmin
    have ay : |p.y| ≤ m / 2 := abs_le_of_sq_le_sq (by linarith) hmin
    have az : |p.z| ≤ m / 2 := abs_le_of_sq_le_sq (by linarith) hmin
    obtain ⟨z1, z2⟩ := abs_le.mp az
    unfold PolyhedralWedge
    rw [show l / 2 = -l / 2 + l by ring, join_rectangles h1 h2 h3 h4]
    have t0 : 0 ≤ p.z / l + 1 / 2 := by
      have : -(1 / 2) ≤ p.z / l := by rw [le_div_iff₀ hl]; linarith
      linarith
    have t1 : p.z / l + 1 / 2 ≤ 1 := by
      have : p.z / l ≤ 1 / 2 := by rw [div_le_iff₀ hl]; linarith
      linarith
    refine ⟨p.z / l + 1 / 2, t0, t1, by field_simp; ring, ?_, ?_⟩
    · generalize p.z / l + 1 / 2 = t at *
      have i1 := mul_le_mul_of_nonneg_left m3 (sub_nonneg.mpr t1)
      have i2 := mul_le_mul_of_nonneg_left m1 t0
      linarith
    · generalize p.z / l + 1 / 2 = t at *
      have i1 := mul_le_mul_of_nonneg_left m4 (sub_nonneg.mpr t1)
      have i2 := mul_le_mul_of_nonneg_left m2 t0
      linarith
  refine ⟨?_, join_convex (rectangleAt_convex _ _ _) (rectangleAt_convex _ _ _), hin 0 ?_, (Vec3.norm_nonneg _).trans (le_max_left _ _), hmin, ?_, fun _ => hin⟩
  · refine join_support (rectangleAt_support h1 h2) (rectangleAt_support h3 h4) fun n hn => ?_
    show (boxySupport _ _ n = _ ∧ _) ∨ (boxySupport _ _ n = _ ∧ _)
    unfold boxySupport
    have e : ∀ a b : Vec3 ℝ, (a - b).dot n = a.dot n - b.dot n := by
      intro a b; simp only [Vec3.dot, Vec3.sub_x, Vec3.sub_y, Vec3.sub_z]; ring
    rw [e]
    split_ifs with hc
    · right; exact ⟨rfl, by linarith⟩
    · left; exact ⟨rfl, by linarith⟩
  · rw [norm2_eq]; simp; positivity
  · rintro _ ⟨a, b, t, ⟨a1, a2, a3⟩, ⟨b1, b2, b3⟩, h0, h1', rfl⟩
    show _ ≤ (max (⟨tx / 2, ty / 2, l / 2⟩ : Vec3 ℝ).norm (⟨bx / 2, bz / 2, -l / 2⟩ : Vec3 ℝ).norm) ^ 2
    have n1 : a.norm2 ≤ (max (⟨tx / 2, ty / 2, l / 2⟩ : Vec3 ℝ).norm (⟨bx / 2, bz / 2, -l / 2⟩ : Vec3 ℝ).norm) ^ 2 := by
      refine le_trans ?_ (pow_le_pow_left₀ (Vec3.norm_nonneg _) (le_max_right _ _) 2)
      rw [Vec3.norm_sq, norm2_eq, norm2_eq, a3]
      have := abs_sq_le a1
      have := abs_sq_le a2
      show _ ≤ (bx / 2) ^ 2 + (bz / 2) ^ 2 + (-l / 2) ^ 2
      linarith
    have n2 : b.norm2 ≤ (max (⟨tx / 2, ty / 2, l / 2⟩ : Vec3 ℝ).norm (⟨bx / 2, bz / 2, -l / 2⟩ : Vec3 ℝ).norm) ^ 2 := by
      refine le_trans ?_ (pow_le_pow_left₀ (Vec3.norm_nonneg _) (le_max_left _ _) 2)
      rw [Vec3.norm_sq, norm2_eq, norm2_eq, b3]
      have := abs_sq_le b1
      have := abs_sq_le b2
      show _ ≤ (tx / 2) ^ 2 + (ty / 2) ^ 2 + (l / 2) ^ 2
      linarith
    generalize (max (⟨tx / 2, ty / 2, l / 2⟩ : Vec3 ℝ).norm (⟨bx / 2, bz / 2, -l / 2⟩ : Vec3 ℝ).norm) ^ 2 = M at *
    rw [norm2_eq] at n1 n2 ⊢
    have c := fun x y : ℝ => sq_comb (x := x) (y := y) (c := 1 - t) (by linarith) (by linarith)
    have e : (1 : ℝ) - (1 - t) = t := by ring
    rw [e] at c
    have i1 := c a.x b.x
    have i2 := c a.y b.y
    have i3 := c a.z b.z
    have j1 := mul_le_mul_of_nonneg_left n1 (sub_nonneg.mpr h1')
    have j2 := mul_le_mul_of_nonneg_left n2 h0
    show ((1 - t) * a.x + t * b.x) ^ 2 + ((1 - t) * a.y + t * b.y) ^ 2 + ((1 - t) * a.z + t * b.z) ^ 2 ≤ M
    linarith

/-- The body of a slice in its place. -/
theorem slice_body {R r l a b : ℝ} (hR : 0 < R) (hr : 0 < r) (ha : 0 ≤ a) (hab : a < b) (hb : b ≤ 1) (p : Vec3 ℝ) :
    movedBy ⟨0, 0, (-l + R - r) / 2 + l * (a + b) / 2 - ((a * r + (1 - a) * R) - (b * r + (1 - b) * R)) / 2⟩ (SmoothWedge (a * r + (1 - a) * R) (b * r + (1 - b) * R) ((b - a) * l)) p ↔
      ∃ t, a ≤ t ∧ t ≤ b ∧ Swept ((R - r - l) / 2) R ((R - r + l) / 2) r t p := by
  have pos : ∀ x : ℝ, 0 ≤ x → x ≤ 1 → 0 < x * r + (1 - x) * R := by
    intro x h0 h1
    rcases eq_or_lt_of_le h0 with e | e
    · rw [← e]; simpa using hR
    · have := mul_pos e hr
      have := mul_nonneg (sub_nonneg.mpr h1) hR.le
      linarith
  unfold movedBy SmoothWedge
  rw [join_balls (pos a ha (by linarith)) (pos b (by linarith) hb)]
  have e1 : ∀ t : ℝ, (1 - t) * (a * r + (1 - a) * R) + t * (b * r + (1 - b) * R) = (1 - (a + t * (b - a))) * R + (a + t * (b - a)) * r := by intro t; ring
  have hsw : ∀ t : ℝ, Swept ((a * r + (1 - a) * R - (b * r + (1 - b) * R) - (b - a) * l) / 2) (a * r + (1 - a) * R) ((a * r + (1 - a) * R - (b * r + (1 - b) * R) + (b - a) * l) / 2) (b * r + (1 - b) * R) t
      (p - ⟨0, 0, (-l + R - r) / 2 + l * (a + b) / 2 - ((a * r + (1 - a) * R) - (b * r + (1 - b) * R)) / 2⟩) ↔ Swept ((R - r - l) / 2) R ((R - r + l) / 2) r (a + t * (b - a)) p := by
    intro t
    unfold Swept
    rw [e1]
    simp only [Vec3.sub_x, Vec3.sub_y, Vec3.sub_z, sub_zero]
    have e2 : p.z - ((-l + R - r) / 2 + l * (a + b) / 2 - ((a * r + (1 - a) * R) - (b * r + (1 - b) * R)) / 2) - ((1 - t) * ((a * r + (1 - a) * R - (b * r + (1 - b) * R) - (b - a) * l) / 2) + t * ((a * r + (1 - a) * R - (b * r + (1 - b) * R) + (b - a) * l) / 2)) =
      p.z - ((1 - (a + t * (b - a))) * ((R - r - l) / 2) + (a + t * (b - a)) * ((R - r + l) / 2)) := by ring
    rw [e2]
  have hba : 0 < b - a := by linarith
  constructor
  · rintro ⟨t, h0, h1, h⟩
    have := mul_nonneg h0 hba.le
    have := mul_le_mul_of_nonneg_right h1 hba.le
    exact ⟨a + t * (b - a), by linarith, by linarith, (hsw t).mp h⟩
  · rintro ⟨t, h0, h1, h⟩
    refine ⟨(t - a) / (b - a), div_nonneg (by linarith) hba.le, (div_le_one hba).mpr (by linarith), (hsw _).mpr ?_⟩
    rw [div_mul_cancel₀ _ hba.ne', show a + (t - a) = t by ring]
    exact h

theorem smoothPart_ok {R r l : ℝ} (hR : 0 < R) (hr : 0 < r) (hl : 0 < l) : smoothPart R r l = .ok ⟨smoothSupport R r l, 0, (l + R + r) / 2, 1 / 2 * (R + r + (R - r) * (R - r) / l)⟩ := by
  unfold smoothPart
  rw [decide_eq_true hR, decide_eq_true hr, decide_eq_true hl]
  rfl

/-- Slices between growing positions together fill the wedge between the first and the last. -/
theorem slices_body {R r l : ℝ} (hR : 0 < R) (hr : 0 < r) (hl : 0 < l) (h : |R - r| ≤ l) : ∀ (rest : List ℝ) (a : ℝ), (a :: rest).Pairwise (· < ·) → 0 ≤ a → (∀ x ∈ a :: rest, x ≤ 1) →
    ∃ (s : List (XCGeometry × Vec3 ℝ)) (bodies : List (Vec3 ℝ → Prop)), smoothSlices R r l (a :: rest) = .ok s ∧ s.length = rest.length ∧ List.Forall₂ Describes (s.map Prod.fst) bodies ∧
      ∀ p, (∃ (i : ℕ) (D : Vec3 ℝ → Prop) (c : Vec3 ℝ), bodies[i]? = some D ∧ (s.map Prod.snd)[i]? = some c ∧ movedBy c D p) ↔ rest ≠ [] ∧ ∃ last, (a :: rest).getLast? = some last ∧ ∃ t, a ≤ t ∧ t ≤ last ∧ Swept ((R - r - l) / 2) R ((R - r + l) / 2) r t p
  | [], a, _, _, _ => ⟨[], [], rfl, rfl, .nil, fun p => by simp⟩
  | b :: rest, a, hp, ha, h1 => by
    obtain ⟨hlt, hp'⟩ := List.pairwise_cons.mp hp
    have hab : a < b := hlt b (by simp)
    have hb1 : b ≤ 1 := h1 b (by simp)
    obtain ⟨s, bodies, hs, hlen, hd, hb⟩ := slices_body hR hr hl h rest b hp' (by linarith) fun x hx => h1 x (List.mem_cons_of_mem _ hx)
    have pos : ∀ x : ℝ, 0 ≤ x → x ≤ 1 → 0 < x * r + (1 - x) * R := by
      intro x h0 h1
      rcases eq_or_lt_of_le h0 with e | e
      · rw [← e]; simpa using hR
      · have := mul_pos e hr
        have := mul_nonneg (sub_nonneg.mpr h1) hR.le
        linarith
    have hl' : 0 < (b - a) * l := mul_pos (by linarith) hl
    have hr0 := pos a ha (by linarith)
    have hr1 := pos b (by linarith) hb1
    have hdiff : |a * r + (1 - a) * R - (b * r + (1 - b) * R)| ≤ (b - a) * l := by
      rw [show a * r + (1 - a) * R - (b * r + (1 - b) * R) = (b - a) * (R - r) by ring, abs_mul, abs_of_pos (sub_pos.mpr hab)]
      exact mul_le_mul_of_nonneg_left h (by linarith)
    obtain ⟨g, hg, hgd⟩ : ∃ g, smoothPart (a * r + (1 - a) * R) (b * r + (1 - b) * R) ((b - a) * l) = .ok g ∧ Describes g (SmoothWedge (a * r + (1 - a) * R) (b * r + (1 - b) * R) ((b - a) * l)) :=
      ⟨_, smoothPart_ok hr0 hr1 hl', smooth_describes hr0 hr1 hl' hdiff⟩
    refine ⟨(g, ⟨0, 0, (-l + R - r) / 2 + l * (a + b) / 2 - ((a * r + (1 - a) * R) - (b * r + (1 - b) * R)) / 2⟩) :: s, SmoothWedge (a * r + (1 - a) * R) (b * r + (1 - b) * R) ((b - a) * l) :: bodies, ?_, ?_, .cons hgd hd, ?_⟩
    · unfold smoothSlices smoothSlice
      rw [hg, Outcome.ok_bind, Outcome.ok_bind, hs, Outcome.ok_bind]
    · simp [hlen]
    · intro p
      have hsl := slice_body (l := l) hR hr ha hab hb1 p
      rw [show ((b :: rest ≠ []) ↔ True) from by simp, true_and]
      rw [show (a :: b :: rest).getLast? = (b :: rest).getLast? from by simp [List.getLast?_cons_cons]]
      have hge : ∀ last, (b :: rest).getLast? = some last → b ≤ last := by
        intro last hlast
        have hm := List.mem_of_getLast? hlast
        rcases List.mem_cons.mp hm with e | e
        · exact e.ge
        · exact ((List.pairwise_cons.mp hp').1 last e).le
      have hb' := hb p
      constructor
      · rintro ⟨i, D, c, hD, hc, hm⟩
        obtain ⟨last, hlast⟩ : ∃ last, (b :: rest).getLast? = some last := ⟨_, List.getLast?_eq_some_getLast (by simp)⟩
        refine ⟨last, hlast, ?_⟩
        cases i with
        | zero =>
          simp only [List.getElem?_cons_zero, Option.some.injEq, List.map_cons] at hD hc
          subst hD; subst hc
          obtain ⟨t, t0, t1, ht⟩ := hsl.mp hm
          exact ⟨t, t0, t1.trans (hge last hlast), ht⟩
        | succ i =>
          simp only [List.getElem?_cons_succ, List.map_cons] at hD hc
          obtain ⟨_, last', hlast', t, t0, t1, ht⟩ := hb'.mp ⟨i, D, c, hD, hc, hm⟩
          rw [hlast] at hlast'
          cases hlast'
          exact ⟨t, by linarith, t1, ht⟩
      · rintro ⟨last, hlast, t, t0, t1, ht⟩
        rcases le_or_gt t b with hc | hc
        · exact ⟨0, _, _, rfl, rfl, hsl.mpr ⟨t, t0, hc, ht⟩⟩
        · have hne : rest ≠ [] := by
            rintro rfl
            simp at hlast
            linarith
          obtain ⟨i, D, c, hD, hc, hm⟩ := hb'.mpr ⟨hne, last, hlast, t, hc.le, t1, ht⟩
          exact ⟨i + 1, D, c, hD, hc, hm⟩

theorem unscaled_lt {A : ℝ} (hA : 0 < A) : ∀ n, 0 ≤ unscaled A n ∧ unscaled A n < unscaled A (n + 1)
  | 0 => by simp [unscaled]
  | n + 1 => by
    obtain ⟨h0, h1⟩ := unscaled_lt hA n
    have : unscaled A (n + 1) = A * unscaled A n + 1 := rfl
    have e2 : unscaled A (n + 1 + 1) = A * unscaled A (n + 1) + 1 := rfl
    refine ⟨by linarith, ?_⟩
    rw [e2]
    conv_lhs => rw [this]
    have := mul_lt_mul_of_pos_left h1 hA
    linarith

theorem unscaled_mono {A : ℝ} (hA : 0 < A) {i j : ℕ} (h : i < j) : unscaled A i < unscaled A j :=
  strictMono_nat_of_lt_succ (fun n => (unscaled_lt hA n).2) h

end Rampack.Wedge
