import Verif.Shapes.WedgeParts
import Verif.Shapes.WedgeVolume2
import Verif.Shapes.CompositeLemmas
/-
C104: smooth wedges.
-/
namespace Rampack

open Spec Packing Wedge Volume MeasureTheory

namespace Wedge

theorem positions_ok {R r l : ℝ} (h : |R - r| < l) {n : ℕ} (hn : 0 < n) : ∃ rest, positions R r l n = .ok (0 :: rest) ∧ (0 :: rest).Pairwise (· < ·) ∧ (∀ x ∈ (0 : ℝ) :: rest, x ≤ 1) ∧ (0 :: rest).getLast? = some 1 ∧ rest.length = n := by
  obtain ⟨d1, d2⟩ := abs_lt.mp h
  have key : ∀ A : ℝ, 0 < A → ∃ rest, (List.range (n + 1)).map (fun i => unscaled A i / unscaled A n) = 0 :: rest ∧ (0 :: rest).Pairwise (· < ·) ∧ (∀ x ∈ (0 : ℝ) :: rest, x ≤ 1) ∧ (0 :: rest).getLast? = some 1 ∧ rest.length = n := by
    intro A hA
    have hpos : 0 < unscaled A n := by
      have := unscaled_mono hA hn
      simpa [unscaled] using this
    obtain ⟨rest, hrest⟩ : ∃ rest, (List.range (n + 1)).map (fun i => unscaled A i / unscaled A n) = 0 :: rest := by
      rw [List.range_succ_eq_map, List.map_cons]
      exact ⟨_, by rw [show unscaled A 0 = 0 from rfl, zero_div]⟩
    refine ⟨rest, hrest, ?_, ?_, ?_, ?_⟩
    · rw [← hrest, List.pairwise_map]
      refine List.Pairwise.imp ?_ List.pairwise_lt_range
      intro i j hij
      exact div_lt_div_of_pos_right (unscaled_mono hA hij) hpos
    · rw [← hrest]
      intro x hx
      obtain ⟨i, hi, rfl⟩ := List.mem_map.mp hx
      rw [div_le_one hpos]
      exact (strictMono_nat_of_lt_succ (fun n => (unscaled_lt hA n).2)).monotone (by have := List.mem_range.mp hi; omega)
    · rw [← hrest, List.range_succ, List.map_append, List.map_cons, List.map_nil, List.getLast?_concat, div_self hpos.ne']
    · have := congrArg List.length hrest
      simp at this; omega
  unfold positions
  split_ifs with h1 h2
  · obtain ⟨rest, e, h⟩ := key 1 one_pos
    exact ⟨rest, by rw [e], h⟩
  · exfalso; linarith
  · obtain ⟨rest, e, h⟩ := key ((l - r + R) / (l + r - R)) (div_pos (by linarith) (by linarith))
    exact ⟨rest, by rw [e], h⟩

/-- Axes and points of a wedge. -/
theorem wedgeGeometry (secondary : Option (Vec3 ℝ)) (b e : Vec3 ℝ) : Geometry.mkXeno (some ⟨0, 0, 1⟩) secondary 0 [("beg", b), ("end", e)] = .ok ⟨some ⟨0, 0, 1⟩, secondary, 0, [("beg", b), ("end", e)], false⟩ := by
  unfold Geometry.mkXeno
  exact (Composite.register_new ⟨some ⟨0, 0, 1⟩, secondary, 0, [], false⟩ [("beg", b), ("end", e)] (by simp) (by simp) (by simp)).1

theorem smoothPart_iff {R r l : ℝ} : (∃ g, smoothPart R r l = .ok g) ↔ 0 < R ∧ 0 < r ∧ 0 < l := by
  constructor
  · rintro ⟨g, h⟩
    unfold smoothPart at h
    obtain ⟨_, h1, h⟩ := Outcome.bind_eq_ok.mp h
    obtain ⟨_, h2, h⟩ := Outcome.bind_eq_ok.mp h
    obtain ⟨_, h3, h⟩ := Outcome.bind_eq_ok.mp h
    exact ⟨of_decide_eq_true (Outcome.require_eq_ok.mp h1), of_decide_eq_true (Outcome.require_eq_ok.mp h2), of_decide_eq_true (Outcome.require_eq_ok.mp h3)⟩
  · rintro ⟨h1, h2, h3⟩
    exact ⟨_, smoothPart_ok h1 h2 h3⟩

/-- Two first slices are built only between growing positions. -/
theorem slices_grow {R r l a b c : ℝ} {rest : List ℝ} {s : List (XCGeometry × Vec3 ℝ)} (h : smoothSlices R r l (a :: b :: c :: rest) = .ok s) : 0 < (b - a) * l ∧ 0 < (c - b) * l := by
  have one : ∀ {x y : ℝ} {q}, smoothSlice R r l x y = .ok q → 0 < (y - x) * l := by
    intro x y q hq
    unfold smoothSlice at hq
    obtain ⟨g, hg, _⟩ := Outcome.bind_eq_ok.mp hq
    exact (smoothPart_iff.mp ⟨g, hg⟩).2.2
  unfold smoothSlices at h
  obtain ⟨q, hq, h⟩ := Outcome.bind_eq_ok.mp h
  obtain ⟨t, ht, _⟩ := Outcome.bind_eq_ok.mp h
  unfold smoothSlices at ht
  obtain ⟨q', hq', _⟩ := Outcome.bind_eq_ok.mp ht
  exact ⟨one hq, one hq'⟩

/-- When the balls touch from inside there is nothing to divide. -/
theorem no_slices {R r l : ℝ} (h : |R - r| = l) {n : ℕ} (hn : 2 ≤ n) {alphas : List ℝ} (ha : positions R r l n = .ok alphas) (s : List (XCGeometry × Vec3 ℝ)) : smoothSlices R r l alphas ≠ .ok s := by
  intro hs
  obtain ⟨m, rfl⟩ : ∃ m, n = m + 2 := ⟨n - 2, by omega⟩
  unfold positions at ha
  split_ifs at ha with h1 h2
  · have hl : l = 0 := by rw [← h, h1, sub_self, abs_zero]
    obtain rfl := Outcome.ok_inj.mp ha
    rw [show List.range (m + 2 + 1) = 0 :: 1 :: 2 :: (List.range m).map (fun i => i + 1 + 1 + 1) from by
      rw [List.range_succ_eq_map, List.range_succ_eq_map, List.range_succ_eq_map]; simp [Function.comp_def]] at hs
    simp only [List.map_cons] at hs
    have := (slices_grow hs).1
    rw [hl, mul_zero] at this
    exact lt_irrefl _ this
  · have hA : l - r + R = 0 := by
      rcases abs_cases (R - r) with ⟨e, _⟩ | ⟨e, _⟩
      · exfalso; apply h2; linarith
      · linarith
    obtain rfl := Outcome.ok_inj.mp ha
    rw [show List.range (m + 2 + 1) = 0 :: 1 :: 2 :: (List.range m).map (fun i => i + 1 + 1 + 1) from by
      rw [List.range_succ_eq_map, List.range_succ_eq_map, List.range_succ_eq_map]; simp [Function.comp_def]] at hs
    simp only [List.map_cons] at hs
    have := (slices_grow hs).2
    rw [hA, zero_div] at this
    simp [unscaled] at this

theorem smooth_volume_eq {R r l : ℝ} : smoothVolume R r l = Real.pi * (l / 3 * (R * R + R * r + r * r) * (1 + (R - r) / l * ((R - r) / l)) + 2 / 3 * (R * R * R + r * r * r)) := by
  unfold smoothVolume slope
  split_ifs with h
  · rw [h, sub_self, zero_div]; ring
  · ring

end Wedge

/-- C104 for smooth wedges: they are built exactly when radii and the distance are positive, no ball lies inside the other and, if the wedge is to be divided, the balls do not even touch from inside; the bodies which the collision test knows, put in
interaction centres, make exactly the body which joins both balls, with right furthest points and radii; the volume is that of the body; as many parts are made as asked for; ends are at the centres of balls. -/
theorem C104_smooth (R r l : ℝ) (n : ℕ) :
    ((∃ m, smooth R r l n = .ok m) ↔ 0 < R ∧ 0 < r ∧ 0 < l ∧ |R - r| ≤ l ∧ (2 ≤ n → |R - r| < l)) ∧
    ∀ m, smooth R r l n = .ok m → MadeOf m (SmoothWedge R r l) ∧ HasVolume (SmoothWedge R r l) m.volume ∧ m.parts.length = max n 1 ∧
      (∀ s, m.geometry.getPrimaryAxis s = .ok (s.rot.mulVec ⟨0, 0, 1⟩)) ∧ m.geometry.secondary = none ∧ m.geometry.getNamedPoint "o" = .ok 0 ∧
      m.geometry.getNamedPoint "beg" = .ok ⟨0, 0, (R - r - l) / 2⟩ ∧ m.geometry.getNamedPoint "end" = .ok ⟨0, 0, (R - r + l) / 2⟩ := by
  have hreq : ∀ m, smooth R r l n = .ok m → 0 < R ∧ 0 < r ∧ 0 < l ∧ |R - r| ≤ l ∧ (2 ≤ n → |R - r| < l) := by
    intro m hm
    unfold smooth at hm
    rw [wedgeGeometry, Outcome.ok_bind] at hm
    obtain ⟨_, h1, hm⟩ := Outcome.bind_eq_ok.mp hm
    obtain ⟨_, h2, hm⟩ := Outcome.bind_eq_ok.mp hm
    obtain ⟨_, h3, hm⟩ := Outcome.bind_eq_ok.mp hm
    have h1 := of_decide_eq_true (Outcome.require_eq_ok.mp h1)
    have h2 := of_decide_eq_true (Outcome.require_eq_ok.mp h2)
    have h3 : |R - r| ≤ l := of_decide_eq_true (Outcome.require_eq_ok.mp h3)
    split_ifs at hm with hn
    · obtain ⟨g, hg, _⟩ := Outcome.bind_eq_ok.mp hm
      exact ⟨h2, h1, (smoothPart_iff.mp ⟨g, hg⟩).2.2, h3, fun h => by omega⟩
    · obtain ⟨alphas, ha, hm⟩ := Outcome.bind_eq_ok.mp hm
      obtain ⟨s, hs, _⟩ := Outcome.bind_eq_ok.mp hm
      have hlt : |R - r| < l := lt_of_le_of_ne h3 fun e => no_slices e (by omega) ha s hs
      exact ⟨h2, h1, lt_of_le_of_lt (abs_nonneg _) hlt, h3, fun _ => hlt⟩
  have hbuild : 0 < R → 0 < r → 0 < l → |R - r| ≤ l → (2 ≤ n → |R - r| < l) →
      ∃ m, smooth R r l n = .ok m ∧ MadeOf m (SmoothWedge R r l) ∧ m.volume = smoothVolume R r l ∧ m.parts.length = max n 1 ∧ m.geometry = ⟨some ⟨0, 0, 1⟩, none, 0, [("beg", ⟨0, 0, (-l + R - r) / 2⟩), ("end", ⟨0, 0, (l + R - r) / 2⟩)], false⟩ := by
    intro hR hr hl h hn2
    unfold smooth
    rw [wedgeGeometry, Outcome.ok_bind, decide_eq_true hr, decide_eq_true hR, decide_eq_true (show l ≥ |R - r| from h), Outcome.require_true, Outcome.ok_bind, Outcome.require_true, Outcome.ok_bind, Outcome.require_true, Outcome.ok_bind]
    by_cases hn : n = 0 ∨ n = 1
    · rw [if_pos hn, smoothPart_ok hR hr hl, Outcome.ok_bind]
      refine ⟨_, rfl, ⟨[SmoothWedge R r l], .cons (smooth_describes hR hr hl h) .nil, by simp [places], ?_⟩, rfl, ?_, rfl⟩
      · intro p
        have e : movedBy 0 (SmoothWedge R r l) p ↔ SmoothWedge R r l p := by
          unfold movedBy
          rw [show p - 0 = p by ext <;> simp]
        simp only [places, if_true]
        constructor
        · intro hp
          exact ⟨0, _, _, rfl, rfl, e.mpr hp⟩
        · rintro ⟨i, D, c, hD, hc, hm⟩
          match i, hD, hc with
          | 0, hD, hc =>
            simp only [List.getElem?_cons_zero, Option.some.injEq] at hD hc
            subst hD; subst hc
            exact e.mp hm
      · rcases hn with rfl | rfl <;> rfl
    · rw [if_neg hn]
      have hlt := hn2 (by omega)
      obtain ⟨rest, ep, hp, h1, hlast, hlen⟩ := positions_ok hlt (n := n) (by omega)
      obtain ⟨s, bodies, hs, hsl, hd, hb⟩ := slices_body hR hr hl h rest 0 hp (le_refl _) h1
      rw [ep, Outcome.ok_bind, hs, Outcome.ok_bind]
      have hsne : s.map Prod.snd ≠ [] := by
        intro e
        have := congrArg List.length e
        simp at this
        rw [this] at hsl
        simp at hsl
        omega
      refine ⟨_, rfl, ⟨bodies, hd, ?_, ?_⟩, rfl, ?_, rfl⟩
      · rw [← hd.length_eq]; simp only [places, if_neg hsne, List.length_map]
      · intro p
        simp only [places, if_neg hsne]
        rw [hb p]
        unfold SmoothWedge
        rw [join_balls hR hr]
        constructor
        · rintro ⟨t, t0, t1, ht⟩
          refine ⟨?_, 1, hlast, t, t0, t1, ht⟩
          intro e
          rw [e] at hlen
          simp at hlen; omega
        · rintro ⟨_, last, hl', t, t0, t1, ht⟩
          rw [hlast] at hl'
          cases hl'
          exact ⟨t, t0, t1, ht⟩
      · simp only [List.length_map]
        omega
  refine ⟨⟨fun ⟨m, hm⟩ => hreq m hm, fun ⟨h1, h2, h3, h4, h5⟩ => ?_⟩, ?_⟩
  · obtain ⟨m, hm, _⟩ := hbuild h1 h2 h3 h4 h5
    exact ⟨m, hm⟩
  · intro m hm
    obtain ⟨hR, hr, hl, h, hn⟩ := hreq m hm
    obtain ⟨m', hm', hmade, hvol, hlen, hgeo⟩ := hbuild hR hr hl h hn
    obtain rfl : m' = m := Outcome.ok_inj.mp (hm'.symm.trans hm)
    refine ⟨hmade, ⟨?_, ?_⟩, hlen, ?_, ?_, ?_, ?_, ?_⟩
    · rw [hvol, smooth_volume_eq]
      have := Real.pi_pos
      have : 0 ≤ (R - r) / l * ((R - r) / l) := mul_self_nonneg _
      positivity
    · rw [hvol, smooth_volume_eq]
      exact (smooth_volume hR hr hl h).2
    · intro s; rw [hgeo]; rfl
    · rw [hgeo]
    · rw [hgeo]
      unfold Geometry.getNamedPoint Geometry.getGeometricOrigin
      rw [if_pos rfl, Mat3.mulVec_zero]
    · rw [hgeo, show (-l + R - r) / 2 = (R - r - l) / 2 by ring]; rfl
    · rw [hgeo, show (l + R - r) / 2 = (R - r + l) / 2 by ring]; rfl

/-- A wedge in three parts. -/
example : ∃ m, smooth 2 1 (3 / 2) 3 = .ok m := (C104_smooth 2 1 (3 / 2) 3).1.mpr (by norm_num)

/-- The distance of balls equal to the difference of their radii is allowed by the documentation and by the matcher, but such a wedge cannot be divided. -/
theorem C104_divided_violated : (2 : ℝ) ≥ |3 - 1| ∧ (∃ m, smooth 3 1 2 1 = .ok m) ∧ ¬ ∃ m, smooth 3 1 2 2 = .ok m := by
  refine ⟨by norm_num, (C104_smooth 3 1 2 1).1.mpr (by norm_num), ?_⟩
  rw [(C104_smooth 3 1 2 2).1]
  norm_num

end Rampack
