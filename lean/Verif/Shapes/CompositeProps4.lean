import Verif.Shapes.CompositeProps3
/-
C103: the volume of molecules made of balls without common points.
-/
namespace Rampack

open Spec Shapes Composite Volume MeasureTheory

namespace Volume

/-- A moved body. -/
theorem points_moved (B : Vec3 ℝ → Prop) (t : Vec3 ℝ) : points (movedBy t B) = (fun p : (ℝ × ℝ) × ℝ => p + ((-t.x, -t.y), -t.z)) ⁻¹' points B := by
  ext p
  simp only [points, movedBy, Set.mem_setOf_eq, Set.mem_preimage, Prod.fst_add, Prod.snd_add]
  have : (⟨p.1.1, p.1.2, p.2⟩ : Vec3 ℝ) - t = ⟨p.1.1 + -t.x, p.1.2 + -t.y, p.2 + -t.z⟩ := by ext <;> simp [sub_eq_add_neg]
  rw [this]

theorem moved_volume (B : Vec3 ℝ → Prop) (t : Vec3 ℝ) : volume (points (movedBy t B)) = volume (points B) := by
  rw [points_moved]
  have h1 : (volume : Measure ((ℝ × ℝ) × ℝ)) = ((volume : Measure ℝ).prod volume).prod volume := rfl
  rw [h1, show (fun p : (ℝ × ℝ) × ℝ => p + ((-t.x, -t.y), -t.z)) = fun p => ((-t.x, -t.y), -t.z) + p from funext fun p => add_comm _ _]
  haveI : (((volume : Measure ℝ).prod (volume : Measure ℝ)).prod (volume : Measure ℝ)).IsAddLeftInvariant := Measure.prod.instIsAddLeftInvariant
  exact measure_preimage_add _ _ _

theorem moved_measurable {B : Vec3 ℝ → Prop} (h : MeasurableSet (points B)) (t : Vec3 ℝ) : MeasurableSet (points (movedBy t B)) := by
  rw [points_moved]
  exact (measurable_id.add_const _) h

theorem ball_moved (c : Vec3 ℝ) (r : ℝ) : Ball c r = movedBy c (Ball ⟨0, 0, 0⟩ r) := by
  ext p
  unfold movedBy Ball
  rw [show p - c - ⟨0, 0, 0⟩ = p - c by ext <;> simp]

theorem any_ball_volume (c : Vec3 ℝ) {r : ℝ} (hr : 0 < r) : volume (points (Ball c r)) = ENNReal.ofReal (4 / 3 * Real.pi * r ^ 3) := by
  rw [ball_moved, moved_volume, ball_volume 0 hr]

theorem any_ball_measurable (c : Vec3 ℝ) (r : ℝ) : MeasurableSet (points (Ball c r)) := by
  rw [ball_moved]
  exact moved_measurable (measurable_ball 0 r) c

theorem disjoint_volume {data : List SphereData} (hr : PositiveRadii data) (h : data.Pairwise fun d1 d2 => ¬ Meet (SphereData.Inside d1) (SphereData.Inside d2)) :
    0 ≤ (data.map fun d => 4 / 3 * Real.pi * d.radius ^ 3).sum ∧ MeasurableSet (points (Balls3 data)) ∧ volume (points (Balls3 data)) = ENNReal.ofReal (data.map fun d => 4 / 3 * Real.pi * d.radius ^ 3).sum := by
  induction data with
  | nil =>
    have : points (Balls3 []) = ∅ := by ext p; simp [points, Balls3]
    rw [this]
    simp
  | cons d rest ih =>
    rw [List.pairwise_cons] at h
    obtain ⟨h0, hm, hv⟩ := ih (fun d hd => hr d (List.mem_cons_of_mem _ hd)) h.2
    have hd := hr d (by simp)
    have e : points (Balls3 (d :: rest)) = points (Ball d.position d.radius) ∪ points (Balls3 rest) := by
      ext p
      simp only [points, Balls3, List.mem_cons, Set.mem_union, Set.mem_setOf_eq, or_and_right, exists_or, exists_eq_left]
      rfl
    have hpi := Real.pi_pos
    have hb : 0 ≤ 4 / 3 * Real.pi * d.radius ^ 3 := by positivity
    rw [e, List.map_cons, List.sum_cons]
    refine ⟨by linarith, (any_ball_measurable _ _).union hm, ?_⟩
    rw [measure_union _ hm, any_ball_volume _ hd, hv, ENNReal.ofReal_add hb h0]
    rw [Set.disjoint_left]
    rintro p h1 ⟨d2, hd2, h2⟩
    exact h.1 d2 hd2 ⟨_, h1, h2⟩

end Volume

/-- C103 for molecules made of balls without common points: the automatic volume is the volume of the body. -/
theorem C103_polysphere {data : List SphereData} (hr : PositiveRadii data) (h : data.Pairwise fun d1 d2 => ¬ Meet (SphereData.Inside d1) (SphereData.Inside d2)) :
    ∃ v, polysphereVolume data = .ok v ∧ HasVolume (Balls3 data) v := by
  obtain ⟨h0, _, hv⟩ := disjoint_volume hr h
  exact ⟨_, C71_disjoint hr h, h0, hv⟩

end Rampack
