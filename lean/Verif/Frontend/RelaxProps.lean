import Verif.Frontend.CasinoEnv
import Verif.Sim.KeepProps
/-
Relaxation runs of the casino mode (C62).
-/
namespace Rampack.Input

open Rampack.Spec Rampack.Packing Rampack.Sim

variable {X : Type}

/-- **C62** A relaxation run of an input file, when it is not interrupted, ends with no overlaps of molecules made with the helper shape of the run. -/
theorem C62_run {traits : Option X → Traits} {stop : Nat → Bool} {fuel offset : Nat} {env : Env} {r : RelaxationRun X} {S S' : Sim} {I₀ : Interaction}
    (hb : Begin (traits r.helperShape) S env I₀) (ho : ProperlyOriented S.P) (h : performRun traits stop fuel env (.relaxation r) offset S = .ok S')
    (hi : S'.interrupted = false) : S'.P.countTotalOverlaps (traits r.helperShape).I false = .ok 0 :=
  (C62_relaxation_end hb ho h).1 hi

/-- Two overlapping balls, with a helper shape which is larger than the shape. -/
example (x : RecorderOut) : ∃ (r : RelaxationRun ℝ) (S S' : Sim), r.helperShape = some (1 / 30) ∧
    performRun (fun X : Option ℝ => demoTraits (X.getD (1 / 40))) (fun n => n == 14) 10 Env.empty (.relaxation r) 10 S = .ok S' ∧ mols S.P = twoShapes ∧
    (S'.interrupted = false → S'.P.countTotalOverlaps (demoTraits (1 / 30)).I false = .ok 0) := by
  obtain ⟨P, S, P1, k, -, -, hm, hr, h1, h2, h3, -⟩ := demo_ready (r := 1 / 30) (by norm_num) (by norm_num) (.inl ⟨rfl, rfl, rfl⟩)
  obtain ⟨S', h⟩ := hr.relaxOverlaps (p := demoParams.toRunParams) (stop := fun n => n == 14) (j := 3) (fuel := 10) (by decide)
    (by decide) (by decide) (by decide) (by decide)
  obtain ⟨r, h4, h5⟩ : ∃ r : RelaxationRun ℝ, r.helperShape = some (1 / 30) ∧ r.params 10 = demoParams.toRunParams :=
    ⟨⟨[], Env.empty, 2, 1, 3, some (1 / 30), [], none, [x, x], none, [], none⟩, rfl, rfl⟩
  have h6 : demoTraits (r.helperShape.getD (1 / 40)) = demoTraits (1 / 30) := by rw [h4]; rfl
  have h7 : performRun (fun X : Option ℝ => demoTraits (X.getD (1 / 40))) (fun n => n == 14) 10 Env.empty (.relaxation r) 10 S = .ok S' := by
    unfold performRun
    simp only []
    rw [h6, h5]
    exact h
  refine ⟨r, S, S', h4, h7, hm, fun hi => ?_⟩
  have h8 := C62_run (by rw [h6]; exact hr.toBegin) hr.oriented h7 hi
  rwa [h6] at h8

end Rampack.Input
