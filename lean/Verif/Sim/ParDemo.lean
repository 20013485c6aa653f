import Verif.Sim.ParSeq
import Verif.Sim.Demo
/-
The concrete parallel sweep used in the examples beside the theorems: two hard balls, each in its own domain.
-/
namespace Rampack.Par

open Spec Packing Domain

/-- Two balls far from each other. -/
noncomputable def farShapes : List Shape := [⟨⟨1 / 40, 1 / 2, 1 / 2⟩, 1⟩, ⟨⟨1 / 2, 1 / 2, 1 / 2⟩, 1⟩]

theorem unitBox_absToRel (p : Vec3 ℝ) : unitBox.absToRel p = p := by
  have e : unitBox.relToAbs p = p := by ext <;> simp [Box.relToAbs, unitBox, Mat3.diag, Mat3.mulVec, Vec3.dot]
  conv_lhs => rw [← e]
  exact Box.absToRel_relToAbs unitBox_wf p

theorem far_reachable : ∃ P, Reachable P (ballsI [] (1 / 40) (3 * (1 / 40))) ∧ mols P = farShapes ∧ P.box = unitBox ∧ P.moveThreads = 2 ∧ P.size = 2 := by
  have hI := ballsI_contract [] (r := 1 / 40) (by norm_num) (3 * (1 / 40))
  have hin : ∀ s ∈ farShapes, Inside unitBox s.pos := by
    intro s hs
    simp only [farShapes, List.mem_cons, List.not_mem_nil, or_false] at hs
    rcases hs with rfl | rfl <;> exact unitBox_inside (by norm_num) (by norm_num) (by norm_num)
  have hcap : farShapes.length * max 1 (ballsI [] (1 / 40) (3 * (1 / 40))).centres.length < 2 ^ 50 := by
    simp [farShapes, ballsI]
  obtain ⟨P, e, h, h1, h2, h3, h4, h5⟩ := create_ok hI unitBox_wf (shapes := farShapes) (by simp [farShapes]) hin hcap 2
  exact ⟨P, .create hI unitBox_ok (by simp [farShapes]) hin hcap e, h1, h2, h5, by rw [← mols_length, h1]; rfl⟩

/-- A sweep with two domains begins with two threads which have moves to do. -/
theorem demo_begins : ∃ (S : Sim) (X0 : State), Sim.Live (Sim.demoTraits (1 / 40)) 2 S ∧ S.numDomains = 2 ∧ S.P.overlapCounting = true ∧
    Par.begin (Sim.demoTraits (1 / 40)) S = .ok X0 ∧ X0.workers.length = 2 ∧ ∀ w ∈ X0.workers, ¬ w.Done := by
  obtain ⟨P, h, hm, hb, ht, hs⟩ := far_reachable
  obtain ⟨S, hmake, eP, ed, elog, hr⟩ := Sim.ready_of (r := 1 / 40) (by norm_num) (by norm_num) (.inr ⟨rfl, rfl, rfl⟩) h hb hs ht (by
    intro s hs'
    rw [hm] at hs'
    simp only [farShapes, List.mem_cons, List.not_mem_nil, or_false] at hs'
    rcases hs' with rfl | rfl <;> rfl)
  obtain ⟨S₁, S₂, e1, e2, hl, hm2, hc⟩ := hr.live 0 10 true
  obtain ⟨-, -, -, hb2, -, -⟩ := hr.toBegin.sound e1 e2
  have hd2 : S₂.divs = ⟨2, 1, 1⟩ := by
    obtain ⟨ss₀, -, -, e3⟩ := Sim.start_ok e1
    unfold Sim.prepare Sim.updateThermo at e2
    obtain ⟨S₃, h3, e2⟩ := Outcome.bind_eq_ok.mp e2
    obtain ⟨p, h4, h3⟩ := Outcome.bind_eq_ok.mp h3
    obtain ⟨t, h5, h3⟩ := Outcome.bind_eq_ok.mp h3
    obtain ⟨pr, -, h3⟩ := Outcome.bind_eq_ok.mp h3
    have h3 := Outcome.ok_inj.mp h3
    obtain ⟨P, h6, e2⟩ := Outcome.bind_eq_ok.mp e2
    obtain ⟨P', h7, e2⟩ := Outcome.bind_eq_ok.mp e2
    have e2 := Outcome.ok_inj.mp e2
    rw [← e2, ← h3]
    simp only
    rw [e3]
    exact ed
  rw [eP] at hl hm2 hb2
  rw [hs] at hl
  rw [hb] at hb2
  rw [hm] at hm2
  have hn2 : S₂.numDomains = 2 := by rw [hl.product, hd2]; norm_num
  have hmts : S₂.mts = [Sim.demoTape, Sim.demoTape] := by
    obtain ⟨ss₀, -, -, e3⟩ := Sim.start_ok e1
    unfold Sim.prepare Sim.updateThermo at e2
    obtain ⟨S₃, h3, e2⟩ := Outcome.bind_eq_ok.mp e2
    obtain ⟨p, h4, h3⟩ := Outcome.bind_eq_ok.mp h3
    obtain ⟨t, h5, h3⟩ := Outcome.bind_eq_ok.mp h3
    obtain ⟨pr, -, h3⟩ := Outcome.bind_eq_ok.mp h3
    have h3 := Outcome.ok_inj.mp h3
    obtain ⟨P, h6, e2⟩ := Outcome.bind_eq_ok.mp e2
    obtain ⟨P', h7, e2⟩ := Outcome.bind_eq_ok.mp e2
    have e2 := Outcome.ok_inj.mp e2
    rw [← e2, ← h3]
    simp only
    rw [e3]
    unfold Sim.make at hmake
    obtain ⟨_, -, hmake⟩ := Outcome.bind_eq_ok.mp hmake
    obtain ⟨_, -, hmake⟩ := Outcome.bind_eq_ok.mp hmake
    obtain ⟨_, -, hmake⟩ := Outcome.bind_eq_ok.mp hmake
    have hmake := Outcome.ok_inj.mp hmake
    rw [← hmake]
    rfl
  obtain ⟨hng, -, hT, h63⟩ := hl.narrow.resolve_left (by rw [hn2]; norm_num)
  obtain ⟨g, hg⟩ := Option.isSome_iff_exists.mp hng
  have hre := hl.proper.1.reach
  obtain ⟨hbw, hin, hsz⟩ := reachable_box hre
  obtain ⟨h1, h2, h3⟩ := own_grid hre hg
  have hP := hre.inv.1
  have h5 : 5 ≤ g.getCellDivisions.x := by
    rw [h3, hb2]
    have hc := unitBox_cellSize hP.size_pos hb2 (by rw [hP.q.core.range_eq]; simp only [Sim.demoTraits, ballsI]; norm_num)
    unfold cellsAlong
    simp only [unitBox_heights]
    have hc0 : 0 < S₂.P.cellSize := by
      obtain ⟨cells, cs, _, hcs, _, _, _, he⟩ := hP.q.grid g hg
      rw [← he]
      rw [hP.q.core.range_eq] at hcs
      linarith [hre.inv.2.range_pos]
    have : (5 : ℤ) ≤ ⌊1 / S₂.P.cellSize⌋ := by
      rw [Int.le_floor, le_div_iff₀ hc0]; push_cast; linarith
    omega
  have h5' : (5 : ℝ) ≤ (g.getCellDivisions.x : ℕ) := by exact_mod_cast h5
  have h6 : (1 : ℝ) / (g.getCellDivisions.x : ℕ) ≤ 1 / 5 := one_div_le_one_div_of_le (by norm_num) h5'
  have hrel : S₂.P.box.relToAbs ⟨3 / 4, 3 / 4, 3 / 4⟩ = ⟨3 / 4, 3 / 4, 3 / 4⟩ := by
    rw [hb2]; ext <;> simp [Box.relToAbs, unitBox, Mat3.diag, Mat3.mulVec, Vec3.dot]
  have ho : Inside S₂.P.box ⟨3 / 4, 3 / 4, 3 / 4⟩ := by rw [hb2]; exact unitBox_inside (by norm_num) (by norm_num) (by norm_num)
  have hgh : ghost S₂.P.box (Sim.demoTraits (1 / 40)).I g.getCellDivisions 0 = 1 / (g.getCellDivisions.x : ℕ) := by
    unfold ghost
    rw [hb2, unitBox_heights]
    simp [Sim.demoTraits, ballsI]
  rcases decompose_total (divs := S₂.divs) (grid := g.getCellDivisions) hbw hT.1 ho hl.divs_pos h1 h2 h63 hin hsz with ⟨a, -, hna, -⟩ | ⟨D, hD, -⟩
  · exfalso
    obtain ⟨n1, n2⟩ := hna
    rw [hd2] at n1 n2
    match a, n1, n2 with
    | 0, _, n2 =>
      rw [hb2, unitBox_heights] at n2
      simp only [Vec3.get_zero, Sim.demoTraits, ballsI] at n2
      norm_num at n2 h6
      linarith
    | 1, n1, _ => simp at n1
    | 2, n1, _ => simp at n1
  · obtain ⟨hmol, -⟩ := C21_molecules hre hT ⟨h63 0, h63 1, h63 2⟩ hD
    obtain ⟨hM, -⟩ := decompose_made hD
    have hin2 : ∀ k : ℕ, k < 2 → ∀ (x : ℝ) (t : ℤ), 0 ≤ x → x < 1 → 19 / 20 + k / 2 < x + t → x + t < 21 / 20 + k / 2 →
        ∀ A, D.getActiveDomainBounds ⟨k, 0, 0⟩ = .ok A → A.isInside ⟨x, 1 / 2, 1 / 2⟩ = true := by
      intro k hk x t x0 x1 hx1 hx2 A hA
      have hp : Inside S₂.P.box ⟨x, 1 / 2, 1 / 2⟩ := by rw [hb2]; exact unitBox_inside ⟨x0, x1⟩ (by norm_num) (by norm_num)
      rw [hM.isInside_iff hbw hT.1 hA hp, forall_axis]
      refine ⟨fun _ => ⟨t, ?_⟩, fun h => ?_, fun h => ?_⟩
      · obtain ⟨-, -, h7⟩ := hM.fact hbw hT.1 0
        obtain ⟨-, h8, -⟩ := h7 (by rw [hd2]; simp)
        have n1 := h8.mid_near (k : ℤ)
        have n2 := h8.mid_near ((k : ℤ) + 1)
        rw [hgh, hb2, hd2, unitBox_absToRel] at *
        simp only [Vec3.get_zero] at n1 n2 ⊢
        rw [unitBox_absToRel]
        push_cast at n1 n2
        rw [abs_le] at n1 n2
        constructor <;> simp only <;> linarith
      · rw [hd2] at h; simp at h
      · rw [hd2] at h; simp at h
    obtain ⟨L0, A0, a1, a2, -, a3⟩ := hmol ⟨0, 0, 0⟩ (by rw [hd2]; simp) (by rw [hd2]; simp) (by rw [hd2]; simp)
    obtain ⟨L1, A1, b1, b2, -, b3⟩ := hmol ⟨1, 0, 0⟩ (by rw [hd2]; simp) (by rw [hd2]; simp) (by rw [hd2]; simp)
    have hL0 : 0 ∈ L0 := (a3 0).mpr ⟨⟨⟨1 / 40, 1 / 2, 1 / 2⟩, 1⟩, by rw [hm2]; rfl, hin2 0 (by norm_num) (1 / 40) 1 (by norm_num) (by norm_num) (by norm_num) (by norm_num) A0 a2⟩
    have hL1 : 1 ∈ L1 := (b3 1).mpr ⟨⟨⟨1 / 2, 1 / 2, 1 / 2⟩, 1⟩, by rw [hm2]; rfl, hin2 1 (by norm_num) (1 / 2) 1 (by norm_num) (by norm_num) (by norm_num) (by norm_num) A1 b2⟩
    have hbeg : Par.begin (Sim.demoTraits (1 / 40)) S₂ = Par.start D { S₂ with mts := S₂.mts.set 0 (Sim.demoTape.drop 3) } := by
      unfold Par.begin
      rw [vget_eq_ok.mpr (show S₂.mts[0]? = some Sim.demoTape by rw [hmts]; rfl), Outcome.ok_bind]
      simp only
      unfold Packing.gridDivisions
      rw [hg]
      simp only [Outcome.ok_bind]
      rw [show (⟨Sim.demoTape 0, Sim.demoTape 1, Sim.demoTape 2⟩ : Vec3 ℝ) = ⟨3 / 4, 3 / 4, 3 / 4⟩ from rfl, hrel, hD, Outcome.ok_bind]
    obtain ⟨ws, e⟩ := workers_total (D := D) (S := { S₂ with mts := S₂.mts.set 0 (Sim.demoTape.drop 3) }) hl.groups (by
      intro s hs'; rw [show ({ S₂ with mts := S₂.mts.set 0 (Sim.demoTape.drop 3) } : Sim).P.size = 2 from hl.proper.1.size]; exact hl.usable s hs')
      (l := (loopCells S₂.divs).zipIdx) (by
        rw [hd2]
        rintro ⟨c, i⟩ hc
        have : (loopCells ⟨2, 1, 1⟩).zipIdx = [(⟨0, 0, 0⟩, 0), (⟨1, 0, 0⟩, 1)] := rfl
        rw [this] at hc
        simp only [List.mem_cons, List.not_mem_nil, or_false, Prod.mk.injEq] at hc
        rcases hc with ⟨rfl, rfl⟩ | ⟨rfl, rfl⟩
        · exact ⟨L0, A0, a1, a2⟩
        · exact ⟨L1, A1, b1, b2⟩)
    refine ⟨S₂, ⟨{ S₂ with mts := S₂.mts.set 0 (Sim.demoTape.drop 3) }, ws⟩, hl, hn2, hc, ?_, ?_, ?_⟩
    · rw [hbeg]
      simp only [Par.start]
      rw [e]
      rfl
    · rw [hd2] at e
      have e' : workers D { S₂ with mts := S₂.mts.set 0 (Sim.demoTape.drop 3) } [(⟨0, 0, 0⟩, 0), (⟨1, 0, 0⟩, 1)] = .ok ws := e
      obtain ⟨i0, _, r0, c1, -, c2, c3⟩ := workers_cons e'
      obtain ⟨i1, _, r1, d1, -, d2, d3⟩ := workers_cons c2
      rw [a1] at c1
      rw [b1] at d1
      injection c1 with c1
      injection d1 with d1
      subst c1 d1
      simp only [workers] at d2
      injection d2 with d2
      rcases c3 with ⟨c3, -⟩ | ⟨-, _, _, -, -, -, c3⟩
      · rw [c3] at hL0; cases hL0
      · rcases d3 with ⟨d3, -⟩ | ⟨-, _, _, -, -, -, d3⟩
        · rw [d3] at hL1; cases hL1
        · rw [c3, d3, ← d2]; rfl
    · intro w hw hdone
      obtain ⟨_, -, -, -, -, f5, f6, -⟩ := (workers_mem e).1 w hw
      have hsz2 : S₂.P.size = 2 := hl.proper.1.size
      simp only at f5
      rw [hsz2, hn2] at f5
      have hu := hl.usable
      rw [hn2] at hu
      obtain ⟨accs, k1, -, k3⟩ := accumulations_total (m := 2 / 2) S₂.env.samplers 0 hu
      rw [f5] at k1
      injection k1 with k1
      obtain ⟨last, l1, -, l3, -⟩ := k3 hl.groups
      rw [← k1, f6] at l1
      injection l1 with l1
      have := l3 (by norm_num)
      have h0 : w.left = 0 := hdone.1
      omega

end Rampack.Par
