import Verif.Shapes.WedgeProps
import Verif.Shapes.PlacedVolume
/-
C104: polyhedral wedges, balls and spherocylinders.
-/
namespace Rampack

open Spec Packing Wedge Volume MeasureTheory Shapes

namespace Wedge

theorem boxyPart_ok {bx bz tx ty l : ℝ} (h : (tx > 0 ∧ bz > 0) ∨ (ty > 0 ∧ bx > 0)) (hl : 0 < l) : boxyPart bx bz tx ty l =
    .ok ⟨boxySupport ⟨tx / 2, ty / 2, l / 2⟩ ⟨bx / 2, bz / 2, -l / 2⟩, 0, max (⟨tx / 2, ty / 2, l / 2⟩ : Vec3 ℝ).norm (⟨bx / 2, bz / 2, -l / 2⟩ : Vec3 ℝ).norm,
      min (min (min tx ty) (min bx bz)) l / 2⟩ := by
  unfold boxyPart boxyAllowed
  rw [decide_eq_true h, decide_eq_true hl]
  rfl

/-- The size of a section between the top and the bottom. -/
theorem between_eq (t b : ℝ) {n : ℕ} (hn : 0 < n) (i : ℝ) : t + i * ((b - t) / n) = (1 - i / n) * t + i / n * b := by
  have : (n : ℝ) ≠ 0 := by positivity
  field_simp
  ring

theorem share {n i : ℕ} (hi : i < n) : 0 ≤ (i : ℝ) / n ∧ (i : ℝ) / n < ((i : ℝ) + 1) / n ∧ ((i : ℝ) + 1) / n ≤ 1 := by
  have hn : (0 : ℝ) < n := by exact_mod_cast (by omega : 0 < n)
  refine ⟨by positivity, div_lt_div_of_pos_right (by linarith) hn, ?_⟩
  rw [div_le_one hn]
  exact_mod_cast hi

/-- A body which is a slice of the polyhedral wedge, in its place. -/
theorem boxy_slice_body {bx bz tx ty l : ℝ} (hl : 0 < l) (h1 : 0 ≤ bx) (h2 : 0 ≤ bz) (h3 : 0 ≤ tx) (h4 : 0 ≤ ty) {n i : ℕ} (hi : i < n) (p : Vec3 ℝ) :
    movedBy ⟨0, 0, l / 2 - ((i : ℝ) + 1 / 2) * (l / n)⟩ (PolyhedralWedge (tx + ((i : ℝ) + 1) * ((bx - tx) / n)) (ty + ((i : ℝ) + 1) * ((bz - ty) / n)) (tx + (i : ℝ) * ((bx - tx) / n)) (ty + (i : ℝ) * ((bz - ty) / n)) (l / n)) p ↔
      ∃ t : ℝ, 1 - ((i : ℝ) + 1) / n ≤ t ∧ t ≤ 1 - (i : ℝ) / n ∧ p.z = -l / 2 + t * l ∧ |p.x| ≤ ((1 - t) * bx + t * tx) / 2 ∧ |p.y| ≤ ((1 - t) * bz + t * ty) / 2 := by
  have hn0 : 0 < n := by omega
  have hn : (0 : ℝ) < n := by exact_mod_cast hn0
  obtain ⟨s1, s2, s3⟩ := share hi
  have nn : ∀ a b x : ℝ, 0 ≤ a → 0 ≤ b → 0 ≤ x → x ≤ 1 → 0 ≤ (1 - x) * a + x * b := fun a b x ha hb h0 h1 => add_nonneg (mul_nonneg (by linarith) ha) (mul_nonneg h0 hb)
  unfold movedBy PolyhedralWedge
  rw [between_eq _ _ hn0, between_eq _ _ hn0, between_eq _ _ hn0, between_eq _ _ hn0]
  rw [show l / n / 2 = -(l / n) / 2 + l / n by ring]
  rw [join_rectangles (nn _ _ _ h3 h1 (by linarith) s3) (nn _ _ _ h4 h2 (by linarith) s3) (nn _ _ _ h3 h1 s1 (by linarith)) (nn _ _ _ h4 h2 s1 (by linarith))]
  simp only [Vec3.sub_x, Vec3.sub_y, Vec3.sub_z, sub_zero]
  have mix : ∀ a b u : ℝ, (1 - u) * ((1 - ((i : ℝ) + 1) / n) * a + ((i : ℝ) + 1) / n * b) + u * ((1 - (i : ℝ) / n) * a + (i : ℝ) / n * b) =
      (1 - (1 - ((i : ℝ) + 1) / n + u / n)) * b + (1 - ((i : ℝ) + 1) / n + u / n) * a := by
    intro a b u
    field_simp
    ring
  constructor
  · rintro ⟨u, u0, u1, hz, hx, hy⟩
    rw [mix] at hx hy
    have hu : 0 ≤ u / n := by positivity
    have hu' : u / n ≤ 1 / n := div_le_div_of_nonneg_right u1 hn.le
    have e : ((i : ℝ) + 1) / n = (i : ℝ) / n + 1 / n := by ring
    refine ⟨1 - ((i : ℝ) + 1) / n + u / n, by linarith, by linarith, ?_, hx, hy⟩
    have : p.z = -(l / n) / 2 + u * (l / n) + (l / 2 - ((i : ℝ) + 1 / 2) * (l / n)) := by linarith
    rw [this]
    field_simp
    ring
  · rintro ⟨t, t0, t1, hz, hx, hy⟩
    have e : 1 - ((i : ℝ) + 1) / n + (n * t - n + (i : ℝ) + 1) / n = t := by field_simp; ring
    refine ⟨n * t - n + (i : ℝ) + 1, ?_, ?_, ?_, ?_, ?_⟩
    · have := mul_le_mul_of_nonneg_left t0 hn.le
      rw [mul_sub, mul_div_cancel₀ _ hn.ne'] at this
      linarith
    · have := mul_le_mul_of_nonneg_left t1 hn.le
      rw [mul_sub, mul_div_cancel₀ _ hn.ne'] at this
      linarith
    · rw [hz]
      field_simp
      ring
    · rw [mix, e]; exact hx
    · rw [mix, e]; exact hy

/-- Every number between zero and one falls in one of `n` equal parts. -/
theorem some_part {n : ℕ} (hn : 0 < n) {t : ℝ} (h0 : 0 ≤ t) (h1 : t ≤ 1) : ∃ i < n, 1 - ((i : ℝ) + 1) / n ≤ t ∧ t ≤ 1 - (i : ℝ) / n := by
  have hn' : (0 : ℝ) < n := by exact_mod_cast hn
  rcases eq_or_lt_of_le h0 with e | e
  · refine ⟨n - 1, by omega, ?_, ?_⟩
    · rw [← e, Nat.cast_sub hn, Nat.cast_one, sub_add_cancel, div_self hn'.ne', sub_self]
    · rw [← e, Nat.cast_sub hn, Nat.cast_one, sub_nonneg, div_le_one hn']; linarith
  · have hx : 0 ≤ (1 - t) * n := mul_nonneg (by linarith) hn'.le
    have f1 := Nat.floor_le hx
    have f2 := Nat.lt_floor_add_one ((1 - t) * n)
    refine ⟨⌊(1 - t) * n⌋₊, ?_, ?_, ?_⟩
    · have : ((⌊(1 - t) * n⌋₊ : ℕ) : ℝ) < n := lt_of_le_of_lt f1 (by nlinarith)
      exact_mod_cast this
    · have := (le_div_iff₀ hn').mpr f2.le
      linarith
    · have := (div_le_iff₀ hn').mpr f1
      linarith

end Wedge

/-- C104 for polyhedral wedges with sizes which are not negative (as the input requires): they are built exactly when the length is positive and some side at the top and the perpendicular one at the bottom are; the bodies which the collision test
knows, put in interaction centres, make exactly the body which joins both rectangles, with right furthest points and radii; the volume is that of the body; as many parts are made as asked for; ends are at the centres of rectangles. -/
theorem C104_polyhedral {bx bz tx ty : ℝ} (h1 : 0 ≤ bx) (h2 : 0 ≤ bz) (h3 : 0 ≤ tx) (h4 : 0 ≤ ty) (l : ℝ) (n : ℕ) :
    ((∃ m, boxy bx bz tx ty l n = .ok m) ↔ 0 < l ∧ ((0 < tx ∧ 0 < bz) ∨ (0 < ty ∧ 0 < bx))) ∧
    ∀ m, boxy bx bz tx ty l n = .ok m → MadeOf m (PolyhedralWedge bx bz tx ty l) ∧ HasVolume (PolyhedralWedge bx bz tx ty l) m.volume ∧ 0 < m.volume ∧ m.parts.length = max n 1 ∧
      (∀ s, m.geometry.getPrimaryAxis s = .ok (s.rot.mulVec ⟨0, 0, 1⟩)) ∧ (∀ s, m.geometry.getSecondaryAxis s = .ok (s.rot.mulVec ⟨1, 0, 0⟩)) ∧ m.geometry.getNamedPoint "o" = .ok 0 ∧
      m.geometry.getNamedPoint "beg" = .ok ⟨0, 0, -l / 2⟩ ∧ m.geometry.getNamedPoint "end" = .ok ⟨0, 0, l / 2⟩ := by
  have hreq : ∀ m, boxy bx bz tx ty l n = .ok m → 0 < l ∧ ((0 < tx ∧ 0 < bz) ∨ (0 < ty ∧ 0 < bx)) := by
    intro m hm
    unfold boxy at hm
    rw [wedgeGeometry, Outcome.ok_bind] at hm
    obtain ⟨_, e1, hm⟩ := Outcome.bind_eq_ok.mp hm
    obtain ⟨_, e2, hm⟩ := Outcome.bind_eq_ok.mp hm
    exact ⟨of_decide_eq_true (Outcome.require_eq_ok.mp e2), of_decide_eq_true (Outcome.require_eq_ok.mp e1)⟩
  have hbuild : 0 < l → ((0 < tx ∧ 0 < bz) ∨ (0 < ty ∧ 0 < bx)) →
      ∃ m, boxy bx bz tx ty l n = .ok m ∧ MadeOf m (PolyhedralWedge bx bz tx ty l) ∧ m.volume = boxyVolume bx bz tx ty l ∧ m.parts.length = max n 1 ∧ m.geometry = ⟨some ⟨0, 0, 1⟩, some ⟨1, 0, 0⟩, 0, [("beg", ⟨0, 0, -l / 2⟩), ("end", ⟨0, 0, l / 2⟩)], false⟩ := by
    intro hl ha
    unfold boxy boxyAllowed
    rw [wedgeGeometry, Outcome.ok_bind, decide_eq_true (show (tx > 0 ∧ bz > 0) ∨ (ty > 0 ∧ bx > 0) from ha), decide_eq_true hl, Outcome.require_true, Outcome.ok_bind, Outcome.require_true, Outcome.ok_bind]
    by_cases hn : n = 0 ∨ n = 1
    · rw [if_pos hn, boxyPart_ok ha hl, Outcome.ok_bind]
      refine ⟨_, rfl, ⟨[PolyhedralWedge bx bz tx ty l], .cons (boxy_describes hl h1 h2 h3 h4) .nil, by simp [places], ?_⟩, rfl, ?_, rfl⟩
      · intro p
        have e : movedBy 0 (PolyhedralWedge bx bz tx ty l) p ↔ PolyhedralWedge bx bz tx ty l p := by
          unfold movedBy
          rw [show p - 0 = p by ext <;> simp]
        simp only [places, if_true]
        constructor
        · intro hp
          exact ⟨0, _, _, rfl, rfl, e.mpr hp⟩
        · rintro ⟨i, D, c, hD, hc, hm⟩
          match i, hD, hc with
          | 0, hD, hc =>
            simp only [List.getElem?_cons_zero, Option.some.injEq] at hD hc
            subst hD; subst hc
            exact e.mp hm
      · rcases hn with rfl | rfl <;> rfl
    · rw [if_neg hn]
      have hn0 : 0 < n := by omega
      have hnr : (0 : ℝ) < n := by exact_mod_cast hn0
      have hln : 0 < l / n := div_pos hl hnr
      have nn : ∀ a b x : ℝ, 0 ≤ a → 0 ≤ b → 0 ≤ x → x ≤ 1 → 0 ≤ (1 - x) * a + x * b := fun a b x ha hb h0 h1 => add_nonneg (mul_nonneg (by linarith) ha) (mul_nonneg h0 hb)
      have part : ∀ i < n, ∃ g, boxyPart (tx + ((i : ℝ) + 1) * ((bx - tx) / n)) (ty + ((i : ℝ) + 1) * ((bz - ty) / n)) (tx + (i : ℝ) * ((bx - tx) / n)) (ty + (i : ℝ) * ((bz - ty) / n)) (l / n) = .ok g ∧
          Describes g (PolyhedralWedge (tx + ((i : ℝ) + 1) * ((bx - tx) / n)) (ty + ((i : ℝ) + 1) * ((bz - ty) / n)) (tx + (i : ℝ) * ((bx - tx) / n)) (ty + (i : ℝ) * ((bz - ty) / n)) (l / n)) := by
        intro i hi
        obtain ⟨s1, s2, s3⟩ := share hi
        rw [between_eq _ _ hn0, between_eq _ _ hn0, between_eq _ _ hn0, between_eq _ _ hn0]
        refine ⟨_, boxyPart_ok ?_ hln, boxy_describes hln (nn _ _ _ h3 h1 (by linarith) s3) (nn _ _ _ h4 h2 (by linarith) s3) (nn _ _ _ h3 h1 s1 (by linarith)) (nn _ _ _ h4 h2 s1 (by linarith))⟩
        rcases ha with ⟨a1, a2⟩ | ⟨a1, a2⟩
        · left
          have q1 := mul_pos (show 0 < 1 - (i : ℝ) / n by linarith) a1
          have q2 := mul_nonneg s1 h1
          have q3 := mul_pos (show 0 < ((i : ℝ) + 1) / n by linarith) a2
          have q4 := mul_nonneg (sub_nonneg.mpr s3) h4
          exact ⟨by linarith, by linarith⟩
        · right
          have q1 := mul_pos (show 0 < 1 - (i : ℝ) / n by linarith) a1
          have q2 := mul_nonneg s1 h2
          have q3 := mul_pos (show 0 < ((i : ℝ) + 1) / n by linarith) a2
          have q4 := mul_nonneg (sub_nonneg.mpr s3) h3
          exact ⟨by linarith, by linarith⟩
      haveI : Nonempty XCGeometry := ⟨XC.point 0⟩
      choose! g hg hd using part
      have hmap : (List.range n).mapM (boxySlice bx bz tx ty l n) = .ok ((List.range n).map fun i : ℕ => (g i, (⟨0, 0, l / 2 - ((i : ℝ) + 1 / 2) * (l / n)⟩ : Vec3 ℝ))) := by
        apply Grid.mapM_ok
        intro i hi
        unfold boxySlice
        rw [hg i (List.mem_range.mp hi), Outcome.ok_bind]
      rw [hmap, Outcome.ok_bind]
      rw [List.map_map, List.map_map]
      have hne : (List.range n).map (Prod.snd ∘ fun i : ℕ => (g i, (⟨0, 0, l / 2 - ((i : ℝ) + 1 / 2) * (l / n)⟩ : Vec3 ℝ))) ≠ [] := by
        rw [ne_eq, List.map_eq_nil_iff, List.range_eq_nil]; omega
      refine ⟨_, rfl, ⟨(List.range n).map fun i : ℕ => PolyhedralWedge (tx + ((i : ℝ) + 1) * ((bx - tx) / n)) (ty + ((i : ℝ) + 1) * ((bz - ty) / n)) (tx + (i : ℝ) * ((bx - tx) / n)) (ty + (i : ℝ) * ((bz - ty) / n)) (l / n), ?_, ?_, ?_⟩, rfl, ?_, rfl⟩
      · rw [List.forall₂_map_left_iff, List.forall₂_map_right_iff, List.forall₂_same]
        intro i hi
        exact hd i (List.mem_range.mp hi)
      · simp only [places, if_neg hne, List.length_map]
      · intro p
        simp only [places, if_neg hne]
        have hw : PolyhedralWedge bx bz tx ty l p ↔ ∃ t : ℝ, 0 ≤ t ∧ t ≤ 1 ∧ p.z = -l / 2 + t * l ∧ |p.x| ≤ ((1 - t) * bx + t * tx) / 2 ∧ |p.y| ≤ ((1 - t) * bz + t * ty) / 2 := by
          unfold PolyhedralWedge
          rw [show l / 2 = -l / 2 + l by ring]
          exact join_rectangles h1 h2 h3 h4 p
        rw [hw]
        constructor
        · rintro ⟨t, t0, t1, hp⟩
          obtain ⟨i, hi, i0, i1⟩ := some_part hn0 t0 t1
          refine ⟨i, _, _, ?_, ?_, (boxy_slice_body hl h1 h2 h3 h4 hi p).mpr ⟨t, i0, i1, hp⟩⟩
          · rw [List.getElem?_map, List.getElem?_range hi]; rfl
          · rw [List.getElem?_map, List.getElem?_range hi]; rfl
        · rintro ⟨i, D, c, hD, hc, hm⟩
          have hi : i < n := by
            by_contra hc'
            rw [List.getElem?_eq_none (by simp; omega)] at hD
            cases hD
          rw [List.getElem?_map, List.getElem?_range hi] at hD hc
          simp only [Option.map_some, Option.some.injEq, Function.comp_apply] at hD hc
          subst hD; subst hc
          obtain ⟨t, t0, t1, hp⟩ := (boxy_slice_body hl h1 h2 h3 h4 hi p).mp hm
          obtain ⟨s1, s2, s3⟩ := share hi
          exact ⟨t, by linarith, by linarith, hp⟩
      · simp only [List.length_map, List.length_range]
        omega
  refine ⟨⟨fun ⟨m, hm⟩ => hreq m hm, fun ⟨a, b⟩ => ?_⟩, ?_⟩
  · obtain ⟨m, hm, _⟩ := hbuild a b
    exact ⟨m, hm⟩
  · intro m hm
    obtain ⟨hl, ha⟩ := hreq m hm
    obtain ⟨m', hm', hmade, hvol, hlen, hgeo⟩ := hbuild hl ha
    obtain rfl : m' = m := Outcome.ok_inj.mp (hm'.symm.trans hm)
    have hpos : 0 < m'.volume := by
      rw [hvol]
      unfold boxyVolume
      have q1 := mul_nonneg h1 h2
      have q2 := mul_nonneg h3 h2
      have q3 := mul_nonneg h1 h4
      have q4 := mul_nonneg h3 h4
      have : 0 < 2 * bx * bz + tx * bz + bx * ty + 2 * tx * ty := by
        rcases ha with ⟨a, b⟩ | ⟨a, b⟩
        · have := mul_pos a b; linarith
        · have := mul_pos b a; linarith
      positivity
    refine ⟨hmade, ⟨hpos.le, ?_⟩, hpos, hlen, ?_, ?_, ?_, ?_, ?_⟩
    · rw [hvol]
      exact boxy_volume hl h1 h2 h3 h4
    · intro s; rw [hgeo]; rfl
    · intro s; rw [hgeo]; rfl
    · rw [hgeo]
      unfold Geometry.getNamedPoint Geometry.getGeometricOrigin
      rw [if_pos rfl, Mat3.mulVec_zero]
    · rw [hgeo]; rfl
    · rw [hgeo]; rfl

/-- A tetrahedron in four parts. -/
example : ∃ m, boxy 1 0 0 2 3 4 = .ok m := (C104_polyhedral (by norm_num) le_rfl le_rfl (by norm_num) 3 4).1.mpr (by norm_num)

/-- Negative sizes pass the check of the constructor, and give a negative volume. -/
theorem C104_negative_violated : ∃ m, boxy (-10) 1 1 1 6 1 = .ok m ∧ m.volume < 0 := by
  unfold boxy
  rw [wedgeGeometry, Outcome.ok_bind]
  have e : boxyAllowed (-10) 1 1 1 = true := by unfold boxyAllowed; rw [decide_eq_true (by norm_num)]
  rw [e, decide_eq_true (by norm_num), Outcome.require_true, Outcome.ok_bind, Outcome.require_true, Outcome.ok_bind, if_pos (Or.inr rfl), boxyPart_ok (by norm_num) (by norm_num), Outcome.ok_bind]
  refine ⟨_, rfl, ?_⟩
  show boxyVolume (-10) 1 1 1 6 < 0
  unfold boxyVolume
  norm_num

end Rampack
