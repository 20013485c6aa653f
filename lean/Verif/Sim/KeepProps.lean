import Verif.Sim.RunProps
import Verif.Sim.ClearLemmas
import Verif.Sim.OrientLemmas
/-
Theorems on what holds throughout runs: no overlaps (C15), proper orientations (C51), the end of relaxations (C62), and on
completion of runs (C63).
-/
namespace Rampack

open Rampack.Spec Rampack.Packing Rampack.Sim

/-! ### C15 -/

/-- C15, partly: in a run (which is refused if there are overlaps at the beginning), every packing shown or recorded, the one after
each accepted move and the final one are free of overlaps. Assumed here: random numbers are never exactly zero, temperatures are not
negative (both in `Begin`), and the shortcut in scaling (see C18) is not used: scaling is off or the shape does not claim to be
convex. -/
theorem C15_no_overlaps_partial {S S' : Sim} {env : Env} {p : IntegrationParams} {T : Traits} {stop : Nat → Bool} {I₀ : Interaction}
    (hb : Begin T S env I₀) (ho : ProperlyOriented S.P)
    (hc : T.I.isConvex = false ∨ (S.env.combine env).isBoxScalingEnabled = false) (h : S.integrate env p T stop = .ok S') :
    S'.P.countTotalOverlaps T.I false = .ok 0 ∧
      ∃ L, S'.log = S.log ++ .clear :: L ∧ ∀ e ∈ L, Shows (fun P => P.countTotalOverlaps T.I false = .ok 0) e := by
  have hQ : ∀ S₁, Clear T S.P.size S₁ → S₁.P.countTotalOverlaps T.I false = .ok 0 := by
    intro S₁ h1
    obtain ⟨K, e, hK⟩ := count_exact h1.proper.1.inv.1 h1.proper.1.inv.2
    rw [h1.clear] at hK
    have : K = 0 := by exact_mod_cast hK
    rw [e, this]
  have key := (clear_kept T S.P.size).integrate (Q := fun P => P.countTotalOverlaps T.I false = .ok 0) hQ h ?_
  · exact ⟨hQ _ key.1, key.2⟩
  · intro S₁ S₂ h1 h2 h3
    obtain ⟨hs, -, hm, -⟩ := hb.sound h1 h2
    refine ⟨⟨hs, ?_⟩, ?_, ?_⟩
    · unfold ProperlyOriented; rw [hm]; exact ho
    · obtain ⟨K, hK, hk⟩ := count_numTotal hs.inv.1.q hs.inv.2
      obtain ⟨k, e, h4, -⟩ := hk true
      rw [h3] at e
      injection e with e
      have : K = 0 := by omega
      rw [← hK, this]; simp
    · refine hc.imp id fun h0 => ?_
      obtain ⟨ss₀, -, -, e1⟩ := start_ok h1
      obtain ⟨t, pr, P, P₁, -, -, e2⟩ := prepare_ok h2
      have : S₂.env.scaler = (S.env.combine env).scaler := by rw [e2, e1]
      rw [this]
      unfold Env.isBoxScalingEnabled at h0
      unfold scalerKind
      cases hsc : (S.env.combine env).scaler with
      | enabled s => rw [hsc] at h0; simp at h0
      | _ => rfl

/-- Two touching balls in two domains stay so. -/
example : ∃ S S' : Sim, S.integrate Env.empty demoParams (demoTraits (1 / 40)) (fun _ => false) = .ok S' ∧ mols S.P = twoShapes ∧
    S'.P.countTotalOverlaps (demoTraits (1 / 40)).I false = .ok 0 := by
  obtain ⟨P, S, P1, k, -, hmk, hm, hr, h1, h2, h3, -⟩ := demo_ready (r := 1 / 40) (by norm_num) (by norm_num) (.inr ⟨rfl, rfl, rfl⟩)
  obtain ⟨P1', e1, h⟩ := hr.integrate demoParams_legal (fun _ => false)
  rw [h1] at e1
  injection e1 with e1
  subst e1
  rcases h with ⟨k', e2, hk, -⟩ | ⟨-, S', h, -⟩
  · rw [h2] at e2
    injection e2 with e2
    subst e2
    exact absurd (h3.mp hk) (by norm_num)
  · refine ⟨S, S', h, hm, (C15_no_overlaps_partial hr.toBegin hr.oriented (.inr ?_) h).1⟩
    have : S.env = demoEnv (demoSamplers.take 3) .disabled := by
      unfold Sim.make at hmk
      obtain ⟨_, -, hmk⟩ := Outcome.bind_eq_ok.mp hmk
      obtain ⟨_, -, hmk⟩ := Outcome.bind_eq_ok.mp hmk
      obtain ⟨_, -, hmk⟩ := Outcome.bind_eq_ok.mp hmk
      injection hmk with hmk
      rw [← hmk]
    rw [this]
    rfl

/-- An engine which asks for the first kind of moves, moves the first molecule by -1/40 along x and then gives an exact zero. -/
noncomputable def zeroTape : Tape := fun n => if n = 1 then 3 / 8 else if n = 2 ∨ n = 3 then 1 / 2 else 0

/-- The code violates C15 in full: `std::uniform_real_distribution` may give an exact zero, and then a move of infinite energy is
accepted. Two balls which touch overlap after such a move. -/
theorem C15_zero_violated : ∃ (T : Traits) (S S' : Sim) (cs' : List Counter), Reachable S.P T.I ∧ S.P.overlapCounting = false ∧
    0 < S.temperature ∧ (∀ t ∈ S.mts, t.Ok) ∧ S.P.countTotalOverlaps T.I false = .ok 0 ∧
    tryMove T [0, 1] [2] 0 none (S, [⟨0, 0, 0, 0⟩]) = .ok (S', cs') ∧ S'.P.countTotalOverlaps T.I false = .ok 1 := by
  obtain ⟨P, h, hm, hb, hg, hw, hoff, ht, hsz⟩ := two_reachable [] (by simp) (r := 1 / 40) (by norm_num) (by norm_num) (3 * (1 / 40)) 1
  obtain ⟨hP, hI⟩ := h.inv
  have hc := count_two (by norm_num) (by norm_num) h hm hb hg hw
  rw [if_neg (lt_irrefl _)] at hc
  have m0 : (mols P)[0]? = some ⟨⟨1 / 40, 1 / 2, 1 / 2⟩, 1⟩ := by rw [hm]; rfl
  have hs0 : P.shapeFn 0 = ⟨⟨1 / 40, 1 / 2, 1 / 2⟩, 1⟩ := (mem_mols m0).2
  have hin : Inside unitBox ⟨0, 1 / 2, 1 / 2⟩ := unitBox_inside (by norm_num) (by norm_num) (by norm_num)
  have happ : (Kind.translation ⟨-1 / 40, 0, 0⟩).apply P.box (P.shapeFn 0) = ⟨⟨0, 1 / 2, 1 / 2⟩, 1⟩ := by
    rw [hs0, hb]
    have e : (⟨1 / 40, 1 / 2, 1 / 2⟩ + ⟨-1 / 40, 0, 0⟩ : Vec3 ℝ) = ⟨0, 1 / 2, 1 / 2⟩ := by
      ext <;> simp only [Vec3.add_x, Vec3.add_y, Vec3.add_z] <;> norm_num
    simp only [Kind.apply, Shape.translate, wrap]
    rw [e, show PBC.getCorrection unitBox ⟨0, 1 / 2, 1 / 2⟩ = 0 from (C05_correction unitBox_ok _).2.2.1 hin]
    congr 1
    ext <;> simp
  obtain ⟨P1, P2, K0, K1, e1, e2, h1, h2, sm, rp, -, hn, -, q0, q1⟩ := move_pinv hP hI (tid := 0) (i := 0) (k := .translation ⟨-1 / 40, 0, 0⟩)
    (how := .move) (domain := none) (by omega) (by omega) (fun d hd => by cases hd)
    (How.For.fits (k := .translation ⟨-1 / 40, 0, 0⟩) (how := .move) trivial _ _)
  have hwall : ∀ s, wallNum P.box P.hasWall (ballsI [] (1 / 40) (3 * (1 / 40))) s = 0 := wallNum_of_none _ (by simp [hasAnyWalls, hw])
  rw [happ, hwall, single_overlaps hP hI (by omega) (by rw [hb]; exact hin), overlapsOf, hm] at q1
  simp only [twoShapes, List.eraseIdx_zero, List.tail_cons, List.map_cons, List.map_nil, List.sum_cons, List.sum_nil, add_zero] at q1
  have near : pairOverlaps P (ballsI [] (1 / 40) (3 * (1 / 40))) ⟨⟨0, 1 / 2, 1 / 2⟩, 1⟩ ⟨⟨39 / 40, 1 / 2, 1 / 2⟩, 1⟩ = 1 := by
    refine (pairOverlaps_near (by norm_num) (by norm_num) hb hg ?_ ?_ (n := -1) (d := 1 / 40) (by norm_num) ?_).trans (if_pos (by norm_num))
    · rfl
    · rfl
    · norm_num [abs_of_pos]
  rw [near] at q1
  have hK1 : K1 = 1 := by exact_mod_cast q1
  obtain ⟨K, f1, f2⟩ := count_exact hP hI
  rw [hc] at f1
  injection f1 with f1
  rw [hs0, hwall, single_overlaps hP hI (by omega) (by rw [hb]; exact twoShapes_inside _ (by simp [twoShapes])), overlapsOf, hm] at q0
  simp only [twoShapes, List.eraseIdx_zero, List.tail_cons, List.map_cons, List.map_nil, List.sum_cons, List.sum_nil, add_zero] at q0
  have far : pairOverlaps P (ballsI [] (1 / 40) (3 * (1 / 40))) ⟨⟨1 / 40, 1 / 2, 1 / 2⟩, 1⟩ ⟨⟨39 / 40, 1 / 2, 1 / 2⟩, 1⟩ = 0 := by
    refine (pairOverlaps_two (by norm_num) (by norm_num) hb hg ?_ ?_ (.inr ?_)).trans (if_neg (lt_irrefl _))
    · rfl
    · rfl
    · norm_num
  rw [far] at q0
  have hK0 : (K0 : ℝ) = 0 := by exact_mod_cast q0
  rw [happ, hK1] at e1
  simp only [moveChange, hoff, Bool.false_eq_true, if_false, Nat.one_pos, if_true] at e1
  have hhard : (ballsI [] (1 / 40) (3 * (1 / 40))).hasHard = true := rfl
  rw [if_pos hhard] at e1
  have hh : min P.box.heights.x (min P.box.heights.y P.box.heights.z) / 2 = 1 / 2 := by
    rw [hb, unitBox_heights]
    norm_num
  have htr : Sampler.sampleTranslation (1 / 10) (1 / 2) (zeroTape.drop 1) = (⟨-1 / 40, 0, 0⟩, (zeroTape.drop 1).drop 3) := by
    unfold Sampler.sampleTranslation
    simp only [Prod.mk.injEq, and_true]
    ext <;> norm_num [zeroTape, Tape.drop, uniformReal]
  have hpart : Sampler.sampleParticle [0, 1] ((zeroTape.drop 1).drop 3) = .ok (0, ((zeroTape.drop 1).drop 3).drop 1) := by
    unfold Sampler.sampleParticle uniformInt
    simp [zeroTape, Tape.drop]
    rfl
  obtain ⟨K', g1, g2⟩ := count_exact h2 hI
  have hK' : K' = 1 := by
    have : (K' : ℝ) = 1 := by rw [g2, hn, ← f2, ← f1, hK1, hK0]; norm_num
    exact_mod_cast this
  have hu : uniformInt 2 zeroTape = .ok (0, zeroTape.drop 1) := by
    unfold uniformInt
    simp [zeroTape]
  have hsm : (Sampler.translation (1 / 10) 0 true).sampleMove P [0, 1] (zeroTape.drop 1) =
      .ok (⟨0, .translation ⟨-1 / 40, 0, 0⟩⟩, .translation (1 / 10) (1 / 2) true, ((zeroTape.drop 1).drop 3).drop 1) := by
    simp only [Sampler.sampleMove, Sampler.adjustMax, Bool.not_true, Bool.false_eq_true, if_false]
    rw [hh, htr]
    simp only
    rw [hpart]
    rfl
  have hacc : (boltzmann .posInf 1).geNum (((zeroTape.drop 1).drop 3).drop 1 0) = true := by
    simp [boltzmann, EnergyChange.toExt, Ext.neg, Ext.div, Ext.exp, Ext.geNum, zeroTape, Tape.drop]
  obtain ⟨S, hS, hT, hm', h0⟩ : ∃ S : Sim, S.P = P ∧ S.temperature = 1 ∧ S.mts = [zeroTape] ∧ S.env.samplers = [.translation (1 / 10) 0 true] :=
    ⟨⟨1, 1, ⟨some (.const 1), some (.const 1), [.translation (1 / 10) 0 true], .disabled⟩, [false], [⟨0, 0, 0, 0⟩], ⟨0, 0, 0, 0⟩, true, false, 0, 0, 0,
      [zeroTape], P, [0, 1], ⟨1, 1, 1⟩, 1, false, []⟩, rfl, rfl, rfl, rfl⟩
  obtain ⟨S', cs', hrun, hP2⟩ : ∃ (S' : Sim) (cs' : List Counter), Sim.tryMove (demoTraits (1 / 40)) [0, 1] [2] 0 none (S, [⟨0, 0, 0, 0⟩]) = .ok (S', cs') ∧
      S'.P = P2 := by
    rw [← hT] at hacc
    refine ⟨(S.triedState 0 (.translation (1 / 10) (1 / 2) true) 0 ((((zeroTape.drop 1).drop 3).drop 1).drop 1) P1).acceptedState 0 P2, [⟨1, 1, 1, 1⟩], ?_, ?_⟩
    · unfold Sim.tryMove
      simp only [Env.getMoveSamplers, Env.hasMoveSamplers, Outcome.require, List.isEmpty_cons, Bool.not_false, if_true, Outcome.ok_bind,
        pure, List.length_cons, List.length_nil, decide_true, vback, List.getLast?_singleton, vget, h0, hm', hS, List.getElem?_cons_zero]
      rw [hu]
      simp only [Outcome.ok_bind, moveTypeFor, Nat.two_pos, if_true, List.getElem?_cons_zero]
      rw [hsm]
      simp only [Outcome.ok_bind]
      rw [show (demoTraits (1 / 40)).I = ballsI [] (1 / 40) (3 * (1 / 40)) from rfl, e1]
      simp only [Outcome.ok_bind]
      rw [hacc]
      simp only [decideMove, vget, List.getElem?_cons_zero, Outcome.ok_bind, if_true]
      rw [show P1.acceptMove 0 = .ok P2 from e2]
      simp only [triedState, acceptedState, h0, hm']
      rfl
    · rfl
  refine ⟨demoTraits (1 / 40), S, S', cs', by rw [hS]; exact h, by rw [hS, hoff], by rw [hT]; exact one_pos, ?_, by rw [hS]; exact hc, hrun, ?_⟩
  · intro t ht n
    rw [hm'] at ht
    rw [List.mem_singleton.mp ht]
    unfold zeroTape
    split_ifs <;> norm_num
  · rw [hP2, ← hK']
    exact g1

/-! ### C51 -/

/-- C51: the matrix of a rotation about a unit axis by an angle is a proper rotation, and about that axis by that angle. -/
theorem C51_rotation {n : Vec3 ℝ} (hn : n.norm2 = 1) (a : ℝ) : IsRotation (axisRotation n a) ∧ RotatesAbout (axisRotation n a) n a :=
  ⟨axisRotation_isRotation hn a, axisRotation_about hn a⟩

example : IsRotation (axisRotation ⟨0, 3 / 5, 4 / 5⟩ (Real.pi / 3)) ∧ RotatesAbout (axisRotation ⟨0, 3 / 5, 4 / 5⟩ (Real.pi / 3)) ⟨0, 3 / 5, 4 / 5⟩ (Real.pi / 3) :=
  C51_rotation (by norm_num [Vec3.norm2, Vec3.dot]) _

/-- C51: a sampled move either leaves the orientation, or turns the molecule about some unit axis. -/
theorem C51_moves {P : Packing} {idxs : List Nat} {t t' : Tape} {s s' : Sampler} {mv : MoveData}
    (h : s.sampleMove P idxs t = .ok (mv, s', t')) (b : Box) (sh : Shape) :
    (mv.kind.apply b sh).rot = sh.rot ∨ ∃ axis angle R, axis.norm2 = 1 ∧ RotatesAbout R axis angle ∧ IsRotation R ∧
      (mv.kind.apply b sh).rot = R * sh.rot := by
  have := Sampler.sampleMove_rotation h
  cases hk : mv.kind with
  | translation v => exact .inl rfl
  | rotation R =>
    rw [hk] at this
    obtain ⟨n, a, h1, rfl⟩ := this
    exact .inr ⟨n, a, _, h1, axisRotation_about h1 a, axisRotation_isRotation h1 a, rfl⟩
  | move v R =>
    rw [hk] at this
    obtain ⟨n, a, h1, rfl⟩ := this
    exact .inr ⟨n, a, _, h1, axisRotation_about h1 a, axisRotation_isRotation h1 a, rfl⟩

example : ∃ (P : Packing) (mv : MoveData) (s' : Sampler) (t' : Tape), (Sampler.rotation (1 / 10)).sampleMove P [0, 1] demoTape = .ok (mv, s', t') := by
  obtain ⟨P, h, hm, -, -, -, -, -, hsz⟩ := two_reachable [] (by simp) (r := 1 / 40) (by norm_num) (by norm_num) 1 1
  have hp : ProperlyOriented P := by
    obtain ⟨P₂, S, P1, k, -, -, hm', hr, -⟩ := demo_ready (r := 1 / 30) (by norm_num) (by norm_num) (.inl ⟨rfl, rfl, rfl⟩)
    unfold ProperlyOriented
    rw [hm, ← hm']
    exact hr.oriented
  obtain ⟨mv, s', k, e⟩ := Sampler.sampleMove_total (s := .rotation (1 / 10)) (P := P) (idxs := [0, 1]) (t := demoTape) (m := 2) trivial (by simp)
    (by rw [hsz]; simp) hp (by unfold Packing.size; omega) demoTape_positive demoTape_fair
  exact ⟨P, mv, s', _, e⟩

/-- C51, whole runs: if all molecules are properly oriented at the beginning, they are so in every packing shown or recorded, after
each accepted move, and at the end. -/
theorem C51_run {S S' : Sim} {env : Env} {p : IntegrationParams} {T : Traits} {stop : Nat → Bool} {I₀ : Interaction}
    (hb : Begin T S env I₀) (ho : ProperlyOriented S.P) (h : S.integrate env p T stop = .ok S') :
    ProperlyOriented S'.P ∧ ∃ L, S'.log = S.log ++ .clear :: L ∧ ∀ e ∈ L, Shows ProperlyOriented e := by
  have key := (proper_kept T S.P.size).integrate (Q := ProperlyOriented) (fun S h => h.2) h ?_
  · exact ⟨key.1.2, key.2⟩
  · intro S₁ S₂ h1 h2 _
    obtain ⟨hs, -, hm, -⟩ := hb.sound h1 h2
    exact ⟨hs, by unfold ProperlyOriented; rw [hm]; exact ho⟩

/-- C51 for overlap relaxation. -/
theorem C51_relaxation {S S' : Sim} {env : Env} {p : RunParams} {T : Traits} {stop : Nat → Bool} {fuel : Nat} {I₀ : Interaction}
    (hb : Begin T S env I₀) (ho : ProperlyOriented S.P) (h : S.relaxOverlaps env p T stop fuel = .ok S') :
    ProperlyOriented S'.P ∧ ∃ L, S'.log = S.log ++ .clear :: L ∧ ∀ e ∈ L, Shows ProperlyOriented e := by
  have key := (proper_kept T S.P.size).relaxOverlaps (Q := ProperlyOriented) (fun S h => h.2) h ?_
  · exact ⟨key.1.2, key.2⟩
  · intro S₁ S₂ h1 h2
    obtain ⟨hs, -, hm, -⟩ := hb.sound h1 h2
    exact ⟨hs, by unfold ProperlyOriented; rw [hm]; exact ho⟩

example : ∃ (S S' : Sim), S.relaxOverlaps Env.empty demoParams.toRunParams (demoTraits (1 / 30)) (fun n => n == 14) 10 = .ok S' ∧
    mols S.P = twoShapes ∧ ProperlyOriented S'.P := by
  obtain ⟨P, S, P1, k, -, -, hm, hr, h1, h2, h3, -⟩ := demo_ready (r := 1 / 30) (by norm_num) (by norm_num) (.inl ⟨rfl, rfl, rfl⟩)
  obtain ⟨S', h⟩ := hr.relaxOverlaps (p := demoParams.toRunParams) (stop := fun n => n == 14) (j := 3) (fuel := 10) (by decide)
    (by decide) (by decide) (by decide) (by decide)
  exact ⟨S, S', h, hm, (C51_relaxation hr.toBegin hr.oriented h).1⟩

example : ∃ (S S' : Sim), S.integrate Env.empty demoParams (demoTraits (1 / 40)) (fun _ => false) = .ok S' ∧
    mols S.P = twoShapes ∧ ProperlyOriented S'.P := by
  obtain ⟨P, S, P1, k, -, -, hm, hr, h1, h2, h3, -⟩ := demo_ready (r := 1 / 40) (by norm_num) (by norm_num) (.inl ⟨rfl, rfl, rfl⟩)
  obtain ⟨P1', e1, h⟩ := hr.integrate demoParams_legal (fun _ => false)
  rw [h1] at e1
  injection e1 with e1
  subst e1
  rcases h with ⟨k', e2, hk, -⟩ | ⟨-, S', h, -⟩
  · rw [h2] at e2
    injection e2 with e2
    subst e2
    exact absurd (h3.mp hk) (by norm_num)
  · exact ⟨S, S', h, hm, (C51_run hr.toBegin hr.oriented h).1⟩

/-! ### C62 -/

/-- C62: an overlap relaxation which was not interrupted leaves a packing in which no overlap can be found by counting them afresh.
If the packing had none at the beginning, no cycle is done. -/
theorem C62_relaxation_end {S S' : Sim} {env : Env} {p : RunParams} {T : Traits} {stop : Nat → Bool} {fuel : Nat} {I₀ : Interaction}
    (hb : Begin T S env I₀) (ho : ProperlyOriented S.P) (h : S.relaxOverlaps env p T stop fuel = .ok S') :
    (S'.interrupted = false → S'.P.countTotalOverlaps T.I false = .ok 0) ∧
    (∀ P1, S.P.setupForInteraction T.I = .ok P1 → P1.countTotalOverlaps T.I false = .ok 0 → S'.performed = 0) := by
  have key := (counted_kept T S.P.size true).relaxOverlaps (Q := fun _ => True) (fun S h => trivial) h ?_
  · obtain ⟨ss₀, L, k, S'', b, -, hp, e0, -, h5, h6⟩ := relax_progress h
    refine ⟨fun hi => ?_, fun P1 hP1 h0 => ?_⟩
    · rcases h5 with ⟨rfl, -⟩ | ⟨-, -, n, hn, hn0⟩
      · rw [e0] at hi; cases hi
      · obtain ⟨K, e, hK⟩ := cached_exact key.1.1.1.inv.1 key.1.1.1.inv.2 key.1.2
        unfold Packing.getCachedNumberOfOverlaps at hn
        rw [key.1.2, if_pos rfl] at hn
        injection hn with hn
        rw [e]
        congr 1
        omega
    · have hk : k = 0 := by
        unfold Sim.relaxOverlaps at h
        obtain ⟨_, -, ha⟩ := Outcome.bind_eq_ok.mp h
        obtain ⟨S₁, h1, hb'⟩ := Outcome.bind_eq_ok.mp ha
        obtain ⟨S₂, h2, -⟩ := Outcome.bind_eq_ok.mp hb'
        obtain ⟨ss₁, -, -, e1⟩ := start_ok h1
        obtain ⟨t, pr, P2, P1', f1, f2, e2⟩ := prepare_ok h2
        have a1 : S₁.P = S.P := by rw [e1]
        rw [a1, hP1] at f1
        injection f1 with f1
        subst f1
        have r1 : Reachable P1 T.I := by
          refine .step (.setup T.I) hb.reach hb.setup ?_
          simp only [Op.run]
          rw [hP1]
          rfl
        obtain ⟨n2, g1, g2⟩ := toggle_ok r1.inv.1 r1.inv.2 true
        rw [f2] at g1
        injection g1 with g1
        obtain ⟨hs, hcount, -⟩ := hb.sound h1 h2
        have a2 : S₂.P = { P1 with overlapCounting := true, numOverlaps := n2 } := by rw [← g1, e2]
        have hoc : S₂.P.overlapCounting = true := by rw [a2]
        obtain ⟨K, e, hK⟩ := cached_exact hs.inv.1 hs.inv.2 hoc
        have : S₂.P.countTotalOverlaps T.I false = P1.countTotalOverlaps T.I false := by rw [a2]; rfl
        rw [this, h0] at e
        injection e with e
        refine h6 S₁ S₂ h1 h2 S₂.P.numOverlaps ?_ (by omega)
        unfold Packing.getCachedNumberOfOverlaps
        rw [hoc, if_pos rfl]
      rw [e0]
      show S''.performed = 0
      rw [hp.performed, hk]
  · intro S₁ S₂ h1 h2
    obtain ⟨hs, hcount, hm, -⟩ := hb.sound h1 h2
    exact ⟨⟨hs, by unfold ProperlyOriented; rw [hm]; exact ho⟩, by rw [hs.counted, hcount]⟩

/-- Two overlapping balls. -/
example : ∃ (S S' : Sim), S.relaxOverlaps Env.empty demoParams.toRunParams (demoTraits (1 / 30)) (fun n => n == 14) 10 = .ok S' ∧
    mols S.P = twoShapes ∧ (S'.interrupted = false → S'.P.countTotalOverlaps (demoTraits (1 / 30)).I false = .ok 0) := by
  obtain ⟨P, S, P1, k, -, -, hm, hr, h1, h2, h3, -⟩ := demo_ready (r := 1 / 30) (by norm_num) (by norm_num) (.inl ⟨rfl, rfl, rfl⟩)
  obtain ⟨S', h⟩ := hr.relaxOverlaps (p := demoParams.toRunParams) (stop := fun n => n == 14) (j := 3) (fuel := 10) (by decide)
    (by decide) (by decide) (by decide) (by decide)
  exact ⟨S, S', h, hm, (C62_relaxation_end hr.toBegin hr.oriented h).1⟩

/-! ### C63 -/

/-- C63: a run with legal parameters of a simulation which is ready (`Ready`: a complete environment, samplers which suit the number
of molecules, random numbers which do not keep missing the unit ball, a scaler which always finds a box) completes, or is refused with
the message about overlaps, and the latter exactly if there are overlaps. It never goes wrong, whatever the random numbers. -/
theorem C63_completes {T : Traits} {S : Sim} {env : Env} {I₀ : Interaction} (h : Ready T S env I₀) {p : IntegrationParams}
    (hp : Legal p) (stop : Nat → Bool) : ∃ P1 k, S.P.setupForInteraction T.I = .ok P1 ∧ P1.countTotalOverlaps T.I false = .ok k ∧
      ((0 < k ∧ S.integrate env p T stop = .throw "Overlaps are present at the start of integration. Perform overlap reduction beforehand.") ∨
      (k = 0 ∧ ∃ S', S.integrate env p T stop = .ok S')) := by
  obtain ⟨P1, e1, h1⟩ := h.integrate hp stop
  have r1 : Reachable P1 T.I := by
    refine .step (.setup T.I) h.reach h.setup ?_
    simp only [Op.run]
    rw [e1]
    rfl
  obtain ⟨K, -, hk⟩ := count_numTotal r1.inv.1.q r1.inv.2
  obtain ⟨k1, f1, g1, -⟩ := hk true
  obtain ⟨k2, f2, g2, -⟩ := hk false
  refine ⟨P1, k2, e1, f2, ?_⟩
  rcases h1 with ⟨k', e2, h0, h1⟩ | ⟨e2, S', h1, -⟩
  · left
    rw [f1] at e2
    injection e2 with e2
    exact ⟨by omega, h1⟩
  · right
    rw [f1] at e2
    injection e2 with e2
    exact ⟨by omega, S', h1⟩

/-- C63 for overlap relaxation, which has no bound on the number of cycles: if it is asked to stop after some cycle, it ends then at the
latest. -/
theorem C63_relaxation_completes {T : Traits} {S : Sim} {env : Env} {I₀ : Interaction} (h : Ready T S env I₀) {p : RunParams}
    (h1 : 0 < p.rotationMatrixFixEvery) (h2 : 0 < p.snapshotEvery) (h3 : 0 < p.inlineInfoEvery) {stop : Nat → Bool} {j fuel : Nat}
    (hs : stop (p.cycleOffset + j) = true) (hj : 0 < j) (hf : j ≤ fuel) :
    ∃ S', S.relaxOverlaps env p T stop fuel = .ok S' ∧ S'.performed ≤ j := by
  obtain ⟨S', e⟩ := h.relaxOverlaps h1 h2 h3 (stop := stop) (j := j - 1) (fuel := fuel) (by rw [← hs]; congr 1; omega) (by omega)
  refine ⟨S', e, ?_⟩
  obtain ⟨L, k, -, -, -, -, -, e1, -, e3, -⟩ := C25_relaxation e
  rw [e1]
  by_contra hlt
  have := e3 j hj (by omega)
  rw [hs] at this
  cases this

/-- Two touching balls: the run completes; two overlapping ones: it is refused. -/
example : (∃ S S' : Sim, Ready (demoTraits (1 / 40)) S Env.empty (demoTraits (1 / 40)).I ∧
      S.integrate Env.empty demoParams (demoTraits (1 / 40)) (fun _ => false) = .ok S') ∧
    ∃ S : Sim, Ready (demoTraits (1 / 30)) S Env.empty (demoTraits (1 / 30)).I ∧
      ∃ m, S.integrate Env.empty demoParams (demoTraits (1 / 30)) (fun _ => false) = .throw m := by
  constructor
  · obtain ⟨P, S, P1, k, -, -, hm, hr, h1, h2, h3, -⟩ := demo_ready (r := 1 / 40) (by norm_num) (by norm_num) (.inl ⟨rfl, rfl, rfl⟩)
    obtain ⟨P1', e1, h⟩ := hr.integrate demoParams_legal (fun _ => false)
    rw [h1] at e1
    injection e1 with e1
    subst e1
    rcases h with ⟨k', e2, hk, -⟩ | ⟨-, S', h, -⟩
    · rw [h2] at e2
      injection e2 with e2
      subst e2
      exact absurd (h3.mp hk) (by norm_num)
    · exact ⟨S, S', hr, h⟩
  · obtain ⟨P, S, P1, k, -, -, hm, hr, h1, h2, h3, -⟩ := demo_ready (r := 1 / 30) (by norm_num) (by norm_num) (.inl ⟨rfl, rfl, rfl⟩)
    obtain ⟨P1', e1, h⟩ := hr.integrate demoParams_legal (fun _ => false)
    rw [h1] at e1
    injection e1 with e1
    subst e1
    rcases h with ⟨k', e2, hk, h⟩ | ⟨e2, -⟩
    · exact ⟨S, hr, _, h⟩
    · rw [h2] at e2
      injection e2 with e2
      have := h3.mpr (by norm_num)
      omega

example : ∃ S S' : Sim, S.relaxOverlaps Env.empty demoParams.toRunParams (demoTraits (1 / 30)) (fun n => n == 14) 10 = .ok S' ∧ S'.performed ≤ 4 := by
  obtain ⟨P, S, P1, k, -, -, hm, hr, h1, h2, h3, -⟩ := demo_ready (r := 1 / 30) (by norm_num) (by norm_num) (.inl ⟨rfl, rfl, rfl⟩)
  obtain ⟨S', h, h'⟩ := C63_relaxation_completes hr (p := demoParams.toRunParams) (stop := fun n => n == 14) (j := 4) (fuel := 10) (by decide)
    (by decide) (by decide) (by decide) (by decide) (by decide)
  exact ⟨S, S', h, h'⟩

end Rampack
