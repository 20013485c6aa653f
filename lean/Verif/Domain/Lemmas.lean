import Verif.Domain.FoldLemmas
import Verif.Packing.WallSpec
import Verif.Box.Props
/-
Helper lemmas: decompositions.
-/
namespace Rampack.Domain

open Rampack.Spec Rampack.Packing

theorem forall_axis {p : Fin 3 → Prop} : (∀ a, p a) ↔ p 0 ∧ p 1 ∧ p 2 := by
  constructor
  · intro h; exact ⟨h 0, h 1, h 2⟩
  · rintro ⟨h0, h1, h2⟩ a
    match a with | 0 => exact h0 | 1 => exact h1 | 2 => exact h2

/-- The relative width of the ghost layer. -/
noncomputable def ghost (b : Box) (I : Interaction) (grid : Vec3 Nat) (a : Fin 3) : ℝ :=
  (I.totalRange - I.range + b.heights.get a / grid.get a) / b.heights.get a

/-- What is known about a decomposition made by the constructor. -/
structure Made (P : Packing) (I : Interaction) (divs grid : Vec3 Nat) (origin : Vec3 ℝ) (D : Decomposition) : Prop where
  box : D.box = P.box
  divs_eq : D.divs = divs
  axis : ∀ a, prepareAxis (P.box.heights.get a) ((P.box.absToRel origin).get a) (divs.get a) (grid.get a) I.range I.totalRange =
    .ok (some (D.bounds.get a))

theorem populate_fields {D D' : Decomposition} {P : Packing} {origin : Vec3 ℝ} (h : D.populate P origin = .ok D') :
    D'.box = D.box ∧ D'.divs = D.divs ∧ D'.bounds = D.bounds := by
  unfold Decomposition.populate at h
  simp only [] at h
  cases hm : (List.range P.size).mapM (fun i => do
    let s ← vget P.shapes i
    let r ← D.particleRegion (D.box.absToRel origin) s.pos
    return (i, r)) with
  | ok idx =>
    rw [hm, Outcome.ok_bind] at h
    cases hf : idx.foldlM pushRegion (List.replicate (D.divs.x * D.divs.y * D.divs.z) []) with
    | ok r => rw [hf, Outcome.ok_bind] at h; injection h with h; subst h; exact ⟨rfl, rfl, rfl⟩
    | throw m => rw [hf] at h; cases h
    | ub => rw [hf] at h; cases h
    | diverge => rw [hf] at h; cases h
  | throw m => rw [hm] at h; cases h
  | ub => rw [hm] at h; cases h
  | diverge => rw [hm] at h; cases h

theorem finish_ok {D D' : Decomposition} {P : Packing} {origin : Vec3 ℝ} (h : D.finish P origin = .ok (.ok D')) :
    D.populate P origin = .ok D' := by
  unfold Decomposition.finish at h
  cases hp : D.populate P origin with
  | ok r => rw [hp, Outcome.ok_bind] at h; injection h with h; injection h with h; rw [h]
  | throw m => rw [hp] at h; cases h
  | ub => rw [hp] at h; cases h
  | diverge => rw [hp] at h; cases h

theorem decompose_made {P : Packing} {I : Interaction} {divs grid : Vec3 Nat} {origin : Vec3 ℝ} {D : Decomposition}
    (h : decompose P I divs grid origin = .ok (.ok D)) : Made P I divs grid origin D ∧
      Decomposition.populate ⟨P.box, divs, D.bounds, []⟩ P origin = .ok D := by
  unfold decompose at h
  simp only [] at h
  cases hx : prepareAxis P.box.heights.x (P.box.absToRel origin).x divs.x grid.x I.range I.totalRange with
  | throw m => rw [hx] at h; cases h
  | ub => rw [hx] at h; cases h
  | diverge => rw [hx] at h; cases h
  | ok bx =>
    rw [hx, Outcome.ok_bind] at h
    cases bx with
    | none => cases h
    | some bx =>
      simp only [] at h
      cases hy : prepareAxis P.box.heights.y (P.box.absToRel origin).y divs.y grid.y I.range I.totalRange with
      | throw m => rw [hy] at h; cases h
      | ub => rw [hy] at h; cases h
      | diverge => rw [hy] at h; cases h
      | ok by' =>
        rw [hy, Outcome.ok_bind] at h
        cases by' with
        | none => cases h
        | some by' =>
          simp only [] at h
          cases hz : prepareAxis P.box.heights.z (P.box.absToRel origin).z divs.z grid.z I.range I.totalRange with
          | throw m => rw [hz] at h; cases h
          | ub => rw [hz] at h; cases h
          | diverge => rw [hz] at h; cases h
          | ok bz =>
            rw [hz, Outcome.ok_bind] at h
            cases bz with
            | none => cases h
            | some bz =>
              have hp := finish_ok h
              obtain ⟨h1, h2, h3⟩ := populate_fields hp
              refine ⟨⟨h1, h2, ?_⟩, ?_⟩
              · rw [forall_axis, h3]; exact ⟨hx, hy, hz⟩
              · rw [h3]; exact hp

namespace Made

variable {P : Packing} {I : Interaction} {divs grid : Vec3 Nat} {origin : Vec3 ℝ} {D : Decomposition}

theorem heights (hb : P.box.WF) (a : Fin 3) : 0 < P.box.heights.get a := by
  obtain ⟨h0, h1, h2⟩ := Box.heights_pos hb
  match a with | 0 => exact h0 | 1 => exact h1 | 2 => exact h2

/-- Facts about one axis. -/
theorem fact (h : Made P I divs grid origin D) (hb : P.box.WF) (hI : I.range ≤ I.totalRange) (a : Fin 3) :
    0 < divs.get a ∧ 0 < grid.get a ∧ (2 ≤ divs.get a → I.range ≤ P.box.heights.get a / grid.get a ∧
      AxisOk ((P.box.absToRel origin).get a) (divs.get a) (grid.get a) (ghost P.box I grid a) ∧
      D.bounds.get a = partialBounds ((P.box.absToRel origin).get a) (divs.get a) (grid.get a) (ghost P.box I grid a) (divs.get a)) := by
  obtain ⟨_, h1, h2, h3⟩ := axisOk_of (heights hb a) hI (h.axis a)
  exact ⟨h1, h2, h3⟩

/-- A position is in the active domain along one axis. -/
def _root_.Rampack.Domain.InAxis (P : Packing) (I : Interaction) (divs grid : Vec3 Nat) (origin : Vec3 ℝ) (c : Vec3 Nat) (r : Vec3 ℝ)
    (a : Fin 3) : Prop :=
  2 ≤ divs.get a → ∃ t : ℤ, InGap ((P.box.absToRel origin).get a) (divs.get a) (grid.get a) (ghost P.box I grid a) (c.get a) (r.get a + t)

theorem unit_get {r : Vec3 ℝ} (h : (0 ≤ r.x ∧ r.x < 1) ∧ (0 ≤ r.y ∧ r.y < 1) ∧ (0 ≤ r.z ∧ r.z < 1)) (a : Fin 3) :
    0 ≤ r.get a ∧ r.get a < 1 := by
  match a with | 0 => exact h.1 | 1 => exact h.2.1 | 2 => exact h.2.2

theorem bounds_get (h : Made P I divs grid origin D) (hb : P.box.WF) (hI : I.range ≤ I.totalRange) (a : Fin 3) {k : Nat}
    (hk : k < divs.get a) (h2 : 2 ≤ divs.get a) : vget (D.bounds.get a) k =
      .ok (finalBounds ((P.box.absToRel origin).get a) (divs.get a) (grid.get a) (ghost P.box I grid a) k) := by
  obtain ⟨_, _, h3⟩ := h.fact hb hI a
  obtain ⟨_, h4, h5⟩ := h3 h2
  rw [h5]
  exact Grid.vget_eq_of_getElem? (final_get h4 hk)

theorem axisBounds_ok (h : Made P I divs grid origin D) (hb : P.box.WF) (hI : I.range ≤ I.totalRange) (a : Fin 3) {k : Nat}
    (hk : k < divs.get a) : axisBounds (divs.get a) (D.bounds.get a) k = .ok (if divs.get a < 2 then none else
      some (finalBounds ((P.box.absToRel origin).get a) (divs.get a) (grid.get a) (ghost P.box I grid a) k)) := by
  unfold axisBounds
  rw [require_true'' hk, Outcome.ok_bind]
  by_cases h2 : divs.get a < 2
  · rw [if_pos h2, if_pos h2]; rfl
  · rw [if_neg h2, if_neg h2, h.bounds_get hb hI a hk (by omega)]; rfl

theorem axisBounds_lt {d k : Nat} {l : List Bounds} {o : Option Bounds} (h : axisBounds d l k = .ok o) : k < d := by
  by_contra hk
  unfold axisBounds at h
  rw [show decide (k < d) = false by simpa using hk] at h
  cases h

theorem coords_lt {c : Vec3 Nat} {A : Active} (hc : D.getActiveDomainBounds c = .ok A) (a : Fin 3) : c.get a < D.divs.get a := by
  unfold Decomposition.getActiveDomainBounds at hc
  cases hx : axisBounds D.divs.x D.bounds.x c.x with
  | throw m => rw [hx] at hc; cases hc
  | ub => rw [hx] at hc; cases hc
  | diverge => rw [hx] at hc; cases hc
  | ok x =>
    rw [hx, Outcome.ok_bind] at hc
    cases hy : axisBounds D.divs.y D.bounds.y c.y with
    | throw m => rw [hy] at hc; cases hc
    | ub => rw [hy] at hc; cases hc
    | diverge => rw [hy] at hc; cases hc
    | ok y =>
      rw [hy, Outcome.ok_bind] at hc
      cases hz : axisBounds D.divs.z D.bounds.z c.z with
      | throw m => rw [hz] at hc; cases hc
      | ub => rw [hz] at hc; cases hc
      | diverge => rw [hz] at hc; cases hc
      | ok z =>
        match a with
        | 0 => exact axisBounds_lt hx
        | 1 => exact axisBounds_lt hy
        | 2 => exact axisBounds_lt hz

theorem active_ok (h : Made P I divs grid origin D) (hb : P.box.WF) (hI : I.range ≤ I.totalRange) {c : Vec3 Nat}
    (hc : ∀ a, c.get a < divs.get a) : ∃ A, D.getActiveDomainBounds c = .ok A ∧ A.box = P.box ∧ ∀ a, A.bounds.get a =
      (if divs.get a < 2 then none else
      some (finalBounds ((P.box.absToRel origin).get a) (divs.get a) (grid.get a) (ghost P.box I grid a) (c.get a))) := by
  have hx := h.axisBounds_ok hb hI 0 (hc 0)
  have hy := h.axisBounds_ok hb hI 1 (hc 1)
  have hz := h.axisBounds_ok hb hI 2 (hc 2)
  simp only [Vec3.get_zero, Vec3.get_one, Vec3.get_two] at hx hy hz
  unfold Decomposition.getActiveDomainBounds
  rw [h.divs_eq, hx, Outcome.ok_bind, hy, Outcome.ok_bind, hz, Outcome.ok_bind]
  refine ⟨_, rfl, h.box, ?_⟩
  rw [forall_axis]
  exact ⟨rfl, rfl, rfl⟩

theorem withinOpt_axis (h : Made P I divs grid origin D) (hb : P.box.WF) (hI : I.range ≤ I.totalRange) {c : Vec3 Nat}
    {r : Vec3 ℝ} (a : Fin 3) (hr : 0 ≤ r.get a ∧ r.get a < 1) : withinOpt (if divs.get a < 2 then none else
      some (finalBounds ((P.box.absToRel origin).get a) (divs.get a) (grid.get a) (ghost P.box I grid a) (c.get a))) (r.get a) = true ↔
      InAxis P I divs grid origin c r a := by
  unfold InAxis
  by_cases h2 : divs.get a < 2
  · rw [if_pos h2]
    constructor
    · intro _ h; omega
    · intro _; rfl
  · rw [if_neg h2]
    obtain ⟨_, _, h3⟩ := h.fact hb hI a
    obtain ⟨_, h4, _⟩ := h3 (by omega)
    have := within_final h4 (c.get a) hr.1 hr.2
    show within _ _ = true ↔ _
    rw [this]
    constructor
    · intro h _; exact h
    · intro h; exact h (by omega)

/-- Being inside an active domain. -/
theorem isInside_iff (h : Made P I divs grid origin D) (hb : P.box.WF) (hI : I.range ≤ I.totalRange) {c : Vec3 Nat} {A : Active}
    (hA : D.getActiveDomainBounds c = .ok A) {p : Vec3 ℝ} (hp : Inside P.box p) :
    A.isInside p = true ↔ ∀ a, InAxis P I divs grid origin c (P.box.absToRel p) a := by
  have hlt : ∀ a, c.get a < divs.get a := fun a => by have := coords_lt hA a; rwa [h.divs_eq] at this
  obtain ⟨A', e, hbx, hbd⟩ := h.active_ok hb hI hlt
  rw [hA] at e
  injection e with e
  subst e
  have hu := unit_get ((Box.inside_iff hb p).mp hp)
  have key : A.isInside p = true ↔ ∀ a, withinOpt (A.bounds.get a) ((P.box.absToRel p).get a) = true := by
    unfold Active.isInside
    rw [hbx, forall_axis]
    simp only [Bool.and_eq_true, Vec3.get_zero, Vec3.get_one, Vec3.get_two, and_assoc]
  rw [key]
  refine forall_congr' fun a => ?_
  rw [hbd a]
  exact h.withinOpt_axis hb hI a (hu a)

end Made

end Rampack.Domain
