import Verif.Domain.ApartLemmas
import Verif.Packing.HistoryLemmas
/-
Helper lemmas: the constructor of decompositions always succeeds or reports a too narrow domain.
-/
namespace Rampack.Domain

open Rampack.Spec Rampack.Packing Rampack.Grid

/-- A domain is too narrow. -/
def Narrow (b : Box) (I : Interaction) (divs grid : Vec3 Nat) (a : Fin 3) : Prop :=
  2 ≤ divs.get a ∧ b.heights.get a / divs.get a - (I.totalRange - I.range + b.heights.get a / grid.get a) ≤ b.heights.get a / grid.get a

theorem mapM_exists {α β : Type} {f : α → Outcome β} : ∀ {l : List α}, (∀ a ∈ l, ∃ b, f a = .ok b) → ∃ bs, l.mapM f = .ok bs
  | [], _ => ⟨[], rfl⟩
  | a :: l, h => by
    obtain ⟨b, hb⟩ := h a (List.mem_cons_self ..)
    obtain ⟨bs, hbs⟩ := mapM_exists (l := l) fun x hx => h x (List.mem_cons_of_mem _ hx)
    exact ⟨b :: bs, by rw [List.mapM_cons, hb, Outcome.ok_bind, hbs]; rfl⟩

theorem populate_exists {P : Packing} {I : Interaction} {divs grid : Vec3 Nat} {origin : Vec3 ℝ} {D : Decomposition}
    (h : Made P I divs grid origin D) (hD : D = ⟨P.box, divs, D.bounds, []⟩) (hb : P.box.WF) (hI : I.range ≤ I.totalRange) (hs : ∀ a, divs.get a < 2 ^ 63)
    (hin : ∀ s ∈ mols P, Inside P.box s.pos) (hsz : P.size ≤ P.shapes.length) : ∃ D', D.populate P origin = .ok D' := by
  rw [hD]
  unfold Decomposition.populate
  simp only []
  have each : ∀ i ∈ List.range P.size, ∃ p : Nat × Option Nat, (do
      let s ← vget P.shapes i
      let r ← Decomposition.particleRegion ⟨P.box, divs, D.bounds, []⟩ (P.box.absToRel origin) s.pos
      return (i, r) : Outcome (Nat × Option Nat)) = .ok p := by
    intro i hi
    have hi' : i < P.size := List.mem_range.mp hi
    have hil : i < P.shapes.length := by omega
    have hm : P.shapes[i] ∈ mols P := by
      unfold mols
      rw [List.mem_take_iff_getElem]
      exact ⟨i, by omega, rfl⟩
    obtain ⟨v, hv, _⟩ := h.particleRegion_ok hb hI hs (hin _ hm)
    exact ⟨(i, v), by rw [vget_ok hil, Outcome.ok_bind, hv]; rfl⟩
  obtain ⟨idx, hidx⟩ := mapM_exists each
  rw [hidx, Outcome.ok_bind]
  obtain ⟨regs', hf, _, _⟩ := push_fold idx (List.replicate (divs.x * divs.y * divs.z) []) (by
    intro p hp r hr
    have hF := mapM_split hidx
    obtain ⟨k, hk, e⟩ := List.getElem_of_mem hp
    have hk' : k < (List.range P.size).length := by rw [hF.length_eq]; exact hk
    have := (List.forall₂_iff_get.mp hF).2 k hk' hk
    simp only [List.get_eq_getElem, List.getElem_range] at this
    rw [e] at this
    have hil : k < P.shapes.length := by have : k < P.size := by simpa using hk'
                                         omega
    rw [vget_ok hil, Outcome.ok_bind] at this
    cases hq : Decomposition.particleRegion ⟨P.box, divs, D.bounds, []⟩ (P.box.absToRel origin) P.shapes[k].pos with
    | throw m => rw [hq] at this; cases this
    | ub => rw [hq] at this; cases this
    | diverge => rw [hq] at this; cases this
    | ok v =>
      rw [hq, Outcome.ok_bind] at this
      cases this
      simp only at hr
      rw [hr] at hq
      rw [List.length_replicate]
      exact Made.particleRegion_lt hq)
  rw [hf, Outcome.ok_bind]
  exact ⟨_, rfl⟩

theorem narrow_rel {b : Box} {I : Interaction} {divs grid : Vec3 Nat} {a : Fin 3} (hh : 0 < b.heights.get a) :
    1 / (divs.get a : ℝ) - (I.totalRange - I.range + b.heights.get a / grid.get a) / b.heights.get a ≤ 1 / (grid.get a : ℝ) ↔
      b.heights.get a / divs.get a - (I.totalRange - I.range + b.heights.get a / grid.get a) ≤ b.heights.get a / grid.get a := by
  rw [← mul_le_mul_iff_of_pos_right hh, sub_mul, div_mul_cancel₀ _ hh.ne']
  rw [show 1 / (divs.get a : ℝ) * b.heights.get a = b.heights.get a / divs.get a by ring,
    show 1 / (grid.get a : ℝ) * b.heights.get a = b.heights.get a / grid.get a by ring]

open Classical in
theorem axis_result {P : Packing} {I : Interaction} {divs grid : Vec3 Nat} {origin : Vec3 ℝ} (hb : P.box.WF) (hI : I.range ≤ I.totalRange)
    (ho : Inside P.box origin) (hd : ∀ a, 0 < divs.get a) (hn : ∀ a, 0 < grid.get a)
    (hr : ∀ a, I.range ≤ P.box.heights.get a / grid.get a) (a : Fin 3) : ∃ l,
    prepareAxis (P.box.heights.get a) ((P.box.absToRel origin).get a) (divs.get a) (grid.get a) I.range I.totalRange =
      .ok (if Narrow P.box I divs grid a then none else some l) := by
  have hu := Made.unit_get ((Box.inside_iff hb origin).mp ho) a
  rw [prepareAxis_ok (Made.heights hb a) hu.1 hu.2 (hd a) (hn a) (hr a) hI]
  by_cases h2 : divs.get a < 2
  · rw [if_pos h2]
    exact ⟨[], by rw [if_neg (show ¬ Narrow P.box I divs grid a from fun h => by have := h.1; omega)]⟩
  · rw [if_neg h2]
    have h2' : 2 ≤ divs.get a := by omega
    have e : Narrow P.box I divs grid a ↔
        1 / (divs.get a : ℝ) - (I.totalRange - I.range + P.box.heights.get a / grid.get a) / P.box.heights.get a ≤ 1 / (grid.get a : ℝ) := by
      rw [narrow_rel (Made.heights hb a)]
      unfold Narrow
      exact ⟨fun h => h.2, fun h => ⟨h2', h⟩⟩
    refine ⟨partialBounds ((P.box.absToRel origin).get a) (divs.get a) (grid.get a) (ghost P.box I grid a) (divs.get a), ?_⟩
    congr 1
    exact if_congr e.symm rfl rfl

theorem decompose_total {P : Packing} {I : Interaction} {divs grid : Vec3 Nat} {origin : Vec3 ℝ} (hb : P.box.WF) (hI : I.range ≤ I.totalRange)
    (ho : Inside P.box origin) (hd : ∀ a, 0 < divs.get a) (hn : ∀ a, 0 < grid.get a) (hr : ∀ a, I.range ≤ P.box.heights.get a / grid.get a)
    (hs : ∀ a, divs.get a < 2 ^ 63) (hin : ∀ s ∈ mols P, Inside P.box s.pos) (hsz : P.size ≤ P.shapes.length) :
    (∃ a, decompose P I divs grid origin = .ok (.tooNarrow a) ∧ Narrow P.box I divs grid a ∧ ∀ a' < a, ¬ Narrow P.box I divs grid a') ∨
      ∃ D, decompose P I divs grid origin = .ok (.ok D) ∧ ∀ a, ¬ Narrow P.box I divs grid a := by
  classical
  obtain ⟨lx, hx⟩ := axis_result hb hI ho hd hn hr 0
  obtain ⟨ly, hy⟩ := axis_result hb hI ho hd hn hr 1
  obtain ⟨lz, hz⟩ := axis_result hb hI ho hd hn hr 2
  unfold decompose
  simp only []
  simp only [Vec3.get_zero, Vec3.get_one, Vec3.get_two] at hx hy hz
  by_cases nx : Narrow P.box I divs grid 0
  · left
    rw [if_pos nx] at hx
    rw [hx]
    exact ⟨0, rfl, nx, fun a' h => absurd h (Fin.not_lt_zero a')⟩
  · rw [if_neg nx] at hx
    simp only [hx, Outcome.ok_bind]
    by_cases ny : Narrow P.box I divs grid 1
    · left
      rw [if_pos ny] at hy
      rw [hy]
      refine ⟨1, rfl, ny, fun a' h => ?_⟩
      have : a' = 0 := by omega
      rw [this]; exact nx
    · rw [if_neg ny] at hy
      simp only [hy, Outcome.ok_bind]
      by_cases nz : Narrow P.box I divs grid 2
      · left
        rw [if_pos nz] at hz
        rw [hz]
        refine ⟨2, rfl, nz, fun a' h => ?_⟩
        have : a' = 0 ∨ a' = 1 := by omega
        rcases this with e | e <;> rw [e] <;> assumption
      · rw [if_neg nz] at hz
        simp only [hz, Outcome.ok_bind]
        right
        have hM : Made P I divs grid origin ⟨P.box, divs, ⟨lx, ly, lz⟩, []⟩ := by
          refine ⟨rfl, rfl, ?_⟩
          rw [forall_axis]
          exact ⟨hx, hy, hz⟩
        obtain ⟨D, hD⟩ := populate_exists hM rfl hb hI hs hin hsz
        refine ⟨D, ?_, ?_⟩
        · unfold Decomposition.finish
          rw [hD, Outcome.ok_bind]; rfl
        · rw [forall_axis]; exact ⟨nx, ny, nz⟩

theorem reachable_box {P : Packing} {I : Interaction} (h : Reachable P I) : P.box.WF ∧ (∀ s ∈ mols P, Inside P.box s.pos) ∧
    P.size ≤ P.shapes.length := by
  obtain ⟨hP, -⟩ := h.inv
  refine ⟨hP.q.core.box, fun s hs => ?_, ?_⟩
  · obtain ⟨i, hi⟩ := List.getElem?_of_mem hs
    have hlt : i < P.size := by
      by_contra hlt
      rw [List.getElem?_eq_none (by rw [mols_length]; omega)] at hi; cases hi
    rw [mols_getElem? hlt] at hi
    exact hP.q.core.inside i s hlt hi
  · exact Nat.sub_le _ _

/-- The packing's own grid is fine enough for the decomposition. -/
theorem own_grid {P : Packing} {I : Interaction} (h : Reachable P I) {g : NG} (hg : P.ng = some g) :
    (∀ a, 0 < g.getCellDivisions.get a) ∧ (∀ a, I.range ≤ P.box.heights.get a / g.getCellDivisions.get a) ∧
      g.getCellDivisions = cellsAlong P.box P.cellSize := by
  obtain ⟨hP, hI⟩ := h.inv
  obtain ⟨cells, cs, hgi, hcs, -, -, -, he⟩ := hP.q.grid g hg
  have hpos : ∀ a, 0 < g.getCellDivisions.get a := by
    have h3 := hgi.wf.d3
    unfold Divs3 at h3
    rw [forall_axis]
    simp only [Vec3.get_zero, Vec3.get_one, Vec3.get_two, NG.getCellDivisions]
    omega
  have hw := hgi.wide
  rw [hP.q.core.range_eq] at hcs
  refine ⟨hpos, ?_, ?_⟩
  · have hgb : g.box = P.box := hgi.box
    unfold Wide at hw
    rw [hgb] at hw
    have key : ∀ a, (g.getCellDivisions.get a : ℝ) * cs ≤ P.box.heights.get a := by
      rw [forall_axis]
      exact hw
    intro a
    have hn : (0 : ℝ) < g.getCellDivisions.get a := by exact_mod_cast hpos a
    rw [le_div_iff₀ hn]
    nlinarith [key a]
  · have := hgi.nreal_eq
    rw [← he]
    exact this

/-- Domains which are not too narrow have points. -/
theorem Made.nonempty {P : Packing} {I : Interaction} {divs grid : Vec3 Nat} {origin : Vec3 ℝ} {D : Decomposition}
    (h : Made P I divs grid origin D) (hb : P.box.WF) (hI : I.range ≤ I.totalRange) (c : Vec3 Nat) :
    ∃ p, Inside P.box p ∧ ∀ a, InAxis P I divs grid origin c (P.box.absToRel p) a := by
  let x : Fin 3 → ℝ := fun a => (mid ((P.box.absToRel origin).get a) (divs.get a) (grid.get a) (c.get a) +
    mid ((P.box.absToRel origin).get a) (divs.get a) (grid.get a) ((c.get a : ℤ) + 1)) / 2
  let r : Vec3 ℝ := ⟨Int.fract (x 0), Int.fract (x 1), Int.fract (x 2)⟩
  have hr : ∀ a, r.get a = Int.fract (x a) := by rw [forall_axis]; exact ⟨rfl, rfl, rfl⟩
  have e : P.box.absToRel (P.box.relToAbs r) = r := Box.absToRel_relToAbs hb r
  refine ⟨P.box.relToAbs r, (Box.inside_iff hb _).mpr ?_, fun a h2 => ?_⟩
  · rw [e]
    exact ⟨⟨Int.fract_nonneg _, Int.fract_lt_one _⟩, ⟨Int.fract_nonneg _, Int.fract_lt_one _⟩, ⟨Int.fract_nonneg _, Int.fract_lt_one _⟩⟩
  · rw [e, hr]
    obtain ⟨_, _, h3⟩ := h.fact hb hI a
    obtain ⟨_, h4, _⟩ := h3 h2
    refine ⟨⌊x a⌋, ?_⟩
    rw [add_comm, Int.floor_add_fract]
    have := h4.mid_step (c.get a)
    constructor <;> simp only [x] <;> linarith

end Rampack.Domain
