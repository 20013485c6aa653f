import Verif.Packing.RenormLemmas
import Verif.Packing.SchedLemmas
/-
Helper lemmas: the invariant holds in all reachable packings.
-/
namespace Rampack.Packing

open Rampack.Spec Rampack.Grid

theorem How.For.fits {k : Kind} {how : How} (h : how.For k) (b : Box) (s : Shape) : how.Fits s (k.apply b s) := by
  cases k <;> cases how <;> first | trivial | exact h.elim | rfl

theorem mem_mols {P : Packing} {i : Nat} {s : Shape} (h : (mols P)[i]? = some s) : i < P.size ∧ P.shapeFn i = s := by
  have hi : i < P.size := by
    rw [← mols_length]
    exact (List.getElem?_eq_some_iff.mp h).1
  refine ⟨hi, ?_⟩
  rw [mols_getElem? hi, shape_some hi] at h
  exact Option.some.inj h

/-- An allowed operation succeeds and keeps the invariant. -/
theorem run_ok {P : Packing} {I : Interaction} (hP : PInv P I) (hI : Contract I) {op : Op} (ha : op.Allowed P I) :
    ∃ P' I', op.run P I = .ok (P', I') ∧ PInv P' I' ∧ Contract I' := by
  cases op with
  | trial tid i k domain =>
    obtain ⟨P1, e, e1, -, h1⟩ := trial_any hP hI (k := k) (domain := domain) ha.1 ha.2
    exact ⟨P1, I, by simp only [Op.run]; rw [e1]; rfl, h1, hI⟩
  | move tid i k domain how =>
    obtain ⟨ht, hfor, s, hs, hd⟩ := ha
    obtain ⟨hi, rfl⟩ := mem_mols hs
    obtain ⟨P1, P2, K0, K1, e1, e2, -, h2, -⟩ := move_pinv hP hI (how := how) ht hi hd (hfor.fits _ _)
    refine ⟨P2, I, ?_, h2, hI⟩
    simp only [Op.run]
    rw [e1, Outcome.ok_bind, e2]; rfl
  | scale b keep =>
    obtain ⟨M, hM⟩ := ha
    have hb := (Box.make_wf hM).1
    obtain ⟨as, og, n, K1, e1, h1, -⟩ := tryScaling_ok hP hI hb
    cases keep with
    | true => exact ⟨_, I, by simp only [Op.run]; rw [e1]; rfl, h1, hI⟩
    | false =>
      obtain ⟨as', e2, -, h2⟩ := revert_ok hP h1
      refine ⟨_, I, ?_, h2, hI⟩
      simp only [Op.run]
      rw [e1, Outcome.ok_bind, e2]; rfl
  | counting on =>
    obtain ⟨n, e1, h1⟩ := toggle_ok hP hI on
    exact ⟨_, I, by simp only [Op.run]; rw [e1]; rfl, h1, hI⟩
  | walls w => exact ⟨_, I, rfl, walls_ok hP w ha, hI⟩
  | reset shapes b I' =>
    obtain ⟨hI', ⟨M, hM⟩, hne, hin, hcap, hg, hz⟩ := ha
    have hb := (Box.make_wf hM).1
    have hg' : GridsHave P (shapes.length * max 1 I'.centres.length) := by
      rcases hg with hg | ⟨h1, h2⟩
      · apply hP.gridsHave.mono
        unfold cap; rw [hP.q.core.m_eq]; exact hg
      · exact ⟨fun g h => (by rw [h1] at h; cases h), fun g h => (by rw [h2] at h; cases h)⟩
    obtain ⟨P', e1, h1, -⟩ := reset_ok (P := P) hI' hb hne hin hg' hcap (fun h => hP.noHard (hz h))
    exact ⟨P', I', by simp only [Op.run]; rw [e1]; rfl, h1, hI'⟩
  | setup I' =>
    obtain ⟨hI', hcap, hg, hz⟩ := ha
    have hg' : GridsHave P (P.size * max 1 I'.centres.length) := by
      rcases hg with hg | ⟨h1, h2⟩
      · apply hP.gridsHave.mono
        unfold cap; rw [hP.q.core.m_eq]; exact hg
      · exact ⟨fun g h => (by rw [h1] at h; cases h), fun g h => (by rw [h2] at h; cases h)⟩
    obtain ⟨P', e1, h1, -⟩ := setup_ok hP hI' hg' hcap (fun h => hP.noHard (hz h))
    exact ⟨P', I', by simp only [Op.run]; rw [e1]; rfl, h1, hI'⟩
  | renormalize tid allow =>
    cases allow with
    | true =>
      obtain ⟨P', e1, h1, -⟩ := renormalizeAllow_ok hI tid hP
      exact ⟨P', I, by simp only [Op.run]; rw [e1]; rfl, h1, hI⟩
    | false =>
      obtain ⟨P', bs, e1, h1, -⟩ := renormalize_ok hI hP ha
      exact ⟨P', I, by simp only [Op.run]; rw [e1]; rfl, h1, hI⟩

theorem Reachable.inv {P : Packing} {I : Interaction} (h : Reachable P I) : PInv P I ∧ Contract I := by
  induction h with
  | create hI hb hne hin hcap hP =>
    obtain ⟨P', e, h, -⟩ := create_ok hI (Box.make_wf hb).1 hne hin hcap _
    rw [e] at hP; cases hP
    exact ⟨h, hI⟩
  | step op _ ha hr ih =>
    obtain ⟨P', I', e, h1, h2⟩ := run_ok ih.1 ih.2 ha
    rw [e] at hr; cases hr
    exact ⟨h1, h2⟩

end Rampack.Packing
