import Verif.Packing.OrthoLemmas
import Verif.Packing.Violations
/-
C20: renormalisation of orientations.
-/
namespace Rampack

open Rampack.Spec Rampack.Grid Rampack.Packing

namespace Packing

theorem sameFrame_grid {P Q : Packing} {I : Interaction} (hP : PInv P I) (hQ : PInv Q I) (h : SameFrame P Q) :
    Q.ng.isSome = P.ng.isSome := by
  rw [Bool.eq_iff_iff, hQ.used, hP.used]
  exact usesGrid_congr h.box h.size (by rw [hQ.q.core.range_eq, hP.q.core.range_eq])

theorem pairOverlaps_frame {P Q : Packing} {I : Interaction} (hP : PInv P I) (hQ : PInv Q I) (h : SameFrame P Q) :
    pairOverlaps Q I = pairOverlaps P I := by
  funext s t
  unfold pairOverlaps
  rw [sameFrame_grid hP hQ h, h.box]

end Packing

/-- C20 without permission for overlaps: with no walls, orientations are considered one after another. Each gets a candidate,
which is at least as close to orthogonal (if the orientation does not stretch too much; and much closer if it was
already close). The candidate is taken unless it would bring more overlaps of this molecule (with overlap counting off: any
overlaps). Everything else about the molecules stays the same, the number of overlaps does not increase, and the number of
molecules which have not got their candidates is returned.
Missing: renormalisation with overlaps allowed, which does nothing (`C20_allow_overlaps_violated`). -/
theorem C20_renormalize_partial {P : Packing} {I : Interaction} (h : Reachable P I) {tid : Nat} (ht : tid < P.moveThreads) :
    ∃ (P' : Packing) (left : Nat) (taken : List Bool) (cand : Shape → Mat3),
      P.renormalizeOrientations I tid false = .ok (P', left) ∧
      taken.length = P.size ∧ left = taken.count false ∧ (mols P').length = (mols P).length ∧ P'.box = P.box ∧
      (∀ s, StretchesLittle s.rot → defect (cand s) ≤ defect s.rot) ∧
      (∀ s, defect s.rot ≤ 1 → defect (cand s) ≤ defect s.rot ^ 8) ∧
      (∀ i s, (mols P)[i]? = some s → ∃ t, taken[i]? = some t ∧
        (mols P')[i]? = some { s with rot := if t then cand s else s.rot } ∧
        (P.hasWall = ⟨false, false, false⟩ → I.hasHard = true → (t = false ↔
          (if P.overlapCounting then overlapsAmong P I ((mols P').take i ++ (mols P).drop i) i s else 0) <
            overlapsAmong P I ((mols P').take i ++ (mols P).drop i) i { s with rot := cand s }))) ∧
      ∃ k k', P.countTotalOverlaps I false = .ok k ∧ P'.countTotalOverlaps I false = .ok k' ∧ k' ≤ k := by
  obtain ⟨hP, hI⟩ := h.inv
  obtain ⟨P', bs, e, hP', hf, hl, hm, hn, hr⟩ := renormalize_ok hI hP ht
  have hlen : (mols P').length = (mols P).length := by rw [mols_length, mols_length, hf.size]
  refine ⟨P', _, bs, fun s => fixRotationMatrix s.rot, e, hl, rfl, hlen, hf.box, fun s hs => Ortho.fix_defect hs,
    fun s hs => Ortho.fix_rate hs, ?_, ?_⟩
  · intro i s hs
    obtain ⟨hi, rfl⟩ := mem_mols hs
    have hbi : bs[i]? = some (bs[i]'(by omega)) := List.getElem?_eq_getElem (by omega)
    refine ⟨bs[i]'(by omega), hbi, ?_, ?_⟩
    · rw [hm, fixSome, List.getElem?_zipWith, hbi, hs]
      simp only
      split_ifs <;> rfl
    · intro hw hh
      obtain ⟨Q, hQ, fQ, mQ, rQ⟩ := hr i hi
      have hiQ : i < Q.size := by rw [fQ.size]; exact hi
      have mQ' : mols Q = (mols P').take i ++ (mols P).drop i := by
        rw [mQ, hm]
        congr 1
        unfold fixSome
        rw [List.take_zipWith]
      have hQs : Q.shapeFn i = P.shapeFn i := by
        have h1 := mols_getElem? hiQ
        rw [shape_some hiQ, mQ', List.getElem?_append_right (by rw [List.length_take]; omega), List.length_take, hlen, mols_length,
          Nat.min_eq_left hi.le, Nat.sub_self, List.getElem?_drop, Nat.add_zero, hs] at h1
        exact (Option.some.inj h1).symm
      have e1 : ∀ t : Shape, Inside P.box t.pos → single Q I (ind I) i t =
          (overlapsAmong P I ((mols P').take i ++ (mols P).drop i) i t : ℕ) := by
        intro t hin
        rw [single_overlaps hQ hI hiQ (by rw [fQ.box]; exact hin), overlapsOf, pairOverlaps_frame hP hQ fQ, mQ']
        rfl
      have hin := (hP.q.core.shapeFn hi).2
      have hw' : ∀ t, wallNum Q.box Q.hasWall I t = 0 := fun t => by
        rw [wallNum_of_none I (by simp [hasAnyWalls, fQ.hasWall, hw])]
      have : bs[i]'(by omega) = false ↔ Refused Q I i (Q.shapeFn i).fixed := by rw [← rQ, hbi]; simp
      rw [this]
      unfold Refused
      rw [hQs, e1 _ hin, e1 (P.shapeFn i).fixed hin, hw', hw', fQ.overlapCounting, and_iff_right hh]
      cases P.overlapCounting <;> simp [Shape.fixed]
  · obtain ⟨K, hK, hk⟩ := count_numTotal hP.q hI
    obtain ⟨K', hK', hk'⟩ := count_numTotal hP'.q hI
    obtain ⟨k, ek, -, q⟩ := hk false
    obtain ⟨k', ek', -, q'⟩ := hk' false
    refine ⟨k, k', ek, ek', ?_⟩
    rw [q rfl, q' rfl]
    rw [← hK, ← hK'] at hn
    exact_mod_cast hn

/-- A slightly stretched orientation. -/
noncomputable def stretched : Mat3 := Mat3.diag (11 / 10) 1 1

theorem stretched_defect : 0 < defect stretched ∧ defect stretched < 1 := by
  simp only [defect, stretched, Mat3.diag, Mat3.c0, Mat3.c1, Mat3.c2, Vec3.dot]; norm_num

theorem stretched_little : StretchesLittle stretched := by
  intro v
  simp only [stretched, Mat3.diag, Mat3.mulVec, Vec3.norm2, Vec3.dot]
  nlinarith [mul_self_nonneg v.x, mul_self_nonneg v.y, mul_self_nonneg v.z]

/-- One molecule with a stretched orientation in the unit cube. -/
theorem stretched_reachable : ∃ P, Reachable P (ballsI [] (1 / 20) 1) ∧ mols P = [⟨⟨1 / 2, 1 / 2, 1 / 2⟩, stretched⟩] ∧
    0 < P.moveThreads ∧ P.hasWall = ⟨false, false, false⟩ := by
  have hI := ballsI_contract [] (r := 1 / 20) (by norm_num) 1
  have hin : ∀ s ∈ [(⟨⟨1 / 2, 1 / 2, 1 / 2⟩, stretched⟩ : Shape)], Inside unitBox s.pos := by
    intro s hs
    rw [List.mem_singleton] at hs
    subst hs
    exact unitBox_inside (by norm_num) (by norm_num) (by norm_num)
  have hcap : [(⟨⟨1 / 2, 1 / 2, 1 / 2⟩, stretched⟩ : Shape)].length * max 1 (ballsI [] (1 / 20) 1).centres.length < 2 ^ 50 := by simp [ballsI]
  obtain ⟨P, e, h, h1, h2, h3, h4, h5⟩ := create_ok hI unitBox_wf (by simp) hin hcap 1
  exact ⟨P, .create hI unitBox_ok (by simp) hin hcap e, h1, by omega, h3⟩

/-- The hypotheses of C20 and of its parts are met, by an orientation which is not orthogonal. -/
example : ∃ P I tid s, Reachable P I ∧ tid < P.moveThreads ∧ mols P = [s] ∧ StretchesLittle s.rot ∧ defect s.rot ≤ 1 ∧ 0 < defect s.rot ∧
    P.hasWall = ⟨false, false, false⟩ ∧ I.hasHard = true := by
  obtain ⟨P, h, hm, ht, hw⟩ := stretched_reachable
  exact ⟨P, _, 0, _, h, ht, hm, stretched_little, stretched_defect.2.le, stretched_defect.1, hw, rfl⟩

/-- The condition on stretching is needed: an orientation three times too long gets further from orthogonal. -/
example : defect (Mat3.diag 3 3 3) < defect (fixRotationMatrix (Mat3.diag 3 3 3)) := by
  have e : ∀ a : ℝ, fixRotationStep (Mat3.diag a a a) = Mat3.diag (3 / 2 * a - 1 / 2 * a * a * a) (3 / 2 * a - 1 / 2 * a * a * a) (3 / 2 * a - 1 / 2 * a * a * a) := by
    intro a
    simp only [fixRotationStep, Mat3.mul_def]
    ext <;> simp [Mat3.diag, Mat3.mul, Mat3.transpose, Mat3.c0, Mat3.c1, Mat3.c2, Vec3.dot]
  rw [fixRotationMatrix, e, e, e]
  simp only [defect, Mat3.diag, Mat3.c0, Mat3.c1, Mat3.c2, Vec3.dot]
  norm_num

/-- Renormalisation with overlaps allowed never changes any molecule and always returns 0. -/
theorem C20_allow_overlaps_no_effect {P : Packing} {I : Interaction} (h : Reachable P I) (tid : Nat) :
    ∃ P', P.renormalizeOrientations I tid true = .ok (P', 0) ∧ mols P' = mols P := by
  obtain ⟨P', e, -, -, hm⟩ := renormalizeAllow_ok h.inv.2 tid h.inv.1
  exact ⟨P', e, hm⟩

/-- C20 does not hold with overlaps allowed: an orientation which is not orthogonal is left unfixed, although fixing it is
possible (it is fixed if overlaps are not allowed), and 0 molecules are reported as unfixed. -/
theorem C20_allow_overlaps_violated : ∃ P I s, Reachable P I ∧ mols P = [s] ∧ 0 < defect s.rot ∧
    (∃ P', P.renormalizeOrientations I 0 true = .ok (P', 0) ∧ mols P' = [s]) ∧
    ∃ P' s', P.renormalizeOrientations I 0 false = .ok (P', 0) ∧ mols P' = [s'] ∧ defect s'.rot < defect s.rot := by
  obtain ⟨P, h, hm, ht, hw⟩ := stretched_reachable
  obtain ⟨P1, e1, m1⟩ := C20_allow_overlaps_no_effect h 0
  refine ⟨P, _, _, h, hm, stretched_defect.1, ⟨P1, e1, by rw [m1, hm]⟩, ?_⟩
  obtain ⟨P', left, taken, cand, e, hl, hleft, hlen, -, -, hrate, hall, -⟩ := C20_renormalize_partial h ht
  have hs : P.size = 1 := by rw [← mols_length, hm]; rfl
  obtain ⟨t, h1, h2, h3⟩ := hall 0 _ (by rw [hm]; rfl)
  have ht : t = true := by
    by_contra hc
    have := (h3 hw rfl).mp (by simpa using hc)
    rw [hm] at this
    simp [overlapsAmong] at this
  subst ht
  have htk : taken = [true] := by
    rw [hs] at hl
    obtain ⟨x, rfl⟩ := List.length_eq_one_iff.mp hl
    simpa using h1
  rw [hm] at hlen
  obtain ⟨x, hx⟩ := List.length_eq_one_iff.mp hlen
  refine ⟨P', x, by rw [e, hleft, htk]; rfl, hx, ?_⟩
  rw [hx] at h2
  have h2 : x.rot = cand ⟨⟨1 / 2, 1 / 2, 1 / 2⟩, stretched⟩ := by
    rw [Option.some.inj h2]; rfl
  rw [h2]
  refine lt_of_le_of_lt (hrate ⟨⟨1 / 2, 1 / 2, 1 / 2⟩, stretched⟩ stretched_defect.2.le) ?_
  have := stretched_defect
  show defect stretched ^ 8 < defect stretched
  exact pow_lt_self_of_lt_one₀ this.1 this.2 (by norm_num)

end Rampack
