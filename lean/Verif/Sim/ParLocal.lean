import Verif.Sim.Par
import Verif.Sim.LiveLemmas
import Verif.Sim.MirrorLemmas
/-
Lemmas: what a step of a thread depends on and what it changes.
-/
namespace Rampack

open Spec Packing

/-- The sampler after it was used in the box. -/
noncomputable def Sampler.adjusted (b : Box) : Sampler → Sampler
  | .translation step max implicit => .translation step (adjustMax b max implicit) implicit
  | .rototranslation step rot max implicit => .rototranslation step rot (adjustMax b max implicit) implicit
  | s => s

theorem Sampler.adjusted_again (b : Box) (s : Sampler) : (s.adjusted b).adjusted b = s.adjusted b := by
  cases s <;> simp [Sampler.adjusted, adjustMax_again]

theorem Sampler.adjusted_requested (b : Box) (s : Sampler) (n : Nat) : (s.adjusted b).requested n = s.requested n := by
  cases s <;> rfl

theorem Sampler.adjusted_usable (b : Box) {s : Sampler} {n : Nat} (h : Usable n s) : Usable n (s.adjusted b) := by
  cases s <;> exact h

theorem Sampler.sampleMove_adjusted {P : Packing} {idxs : List Nat} {t t' : Tape} {s s' : Sampler} {mv : MoveData}
    (h : s.sampleMove P idxs t = .ok (mv, s', t')) : s' = s.adjusted P.box := by
  rcases s with x | ⟨x, m, i⟩ | ⟨x, _ | y, m, i⟩ | ⟨e, a, o, z⟩
  · unfold sampleMove at h
    obtain ⟨⟨R, t1⟩, h1, h⟩ := Outcome.bind_eq_ok.mp h
    simp only at h
    obtain ⟨⟨j, t2⟩, h2, h⟩ := Outcome.bind_eq_ok.mp h
    injection h with h
    injection h with h6 h7
    injection h7 with h7 h8
    exact h7.symm
  · unfold sampleMove at h
    simp only [sampleTranslation] at h
    obtain ⟨⟨j, t2⟩, h2, h⟩ := Outcome.bind_eq_ok.mp h
    injection h with h
    injection h with h6 h7
    injection h7 with h7 h8
    exact h7.symm
  · cases h
  · unfold sampleMove at h
    simp only [sampleTranslation] at h
    obtain ⟨⟨R, t1⟩, h1, h⟩ := Outcome.bind_eq_ok.mp h
    simp only at h
    obtain ⟨⟨j, t2⟩, h2, h⟩ := Outcome.bind_eq_ok.mp h
    injection h with h
    injection h with h6 h7
    injection h7 with h7 h8
    exact h7.symm
  · unfold sampleMove at h
    obtain ⟨⟨j, t2⟩, h2, h⟩ := Outcome.bind_eq_ok.mp h
    simp only at h
    obtain ⟨sh, h3, h⟩ := Outcome.bind_eq_ok.mp h
    obtain ⟨kd, h4, h⟩ := Outcome.bind_eq_ok.mp h
    injection h with h
    injection h with h7 h8
    injection h8 with h8 h9
    exact h8.symm

theorem Sampler.adjusted_sampleMove (P : Packing) (idxs : List Nat) (t : Tape) (s : Sampler) :
    (s.adjusted P.box).sampleMove P idxs t = s.sampleMove P idxs t := by
  rcases s with x | ⟨x, m, i⟩ | ⟨x, _ | y, m, i⟩ | ⟨e, a, o, z⟩
  · rfl
  · simp only [Sampler.adjusted, sampleMove, adjustMax_again]
  · rfl
  · simp only [Sampler.adjusted, sampleMove, adjustMax_again]
  · rfl

/-- Sampling depends only on the box and on the given molecules. -/
theorem Sampler.sampleMove_congr {P Q : Packing} {idxs : List Nat} (hb : Q.box = P.box) (h : ∀ i ∈ idxs, Q.shapes[i]? = P.shapes[i]?)
    (t : Tape) (s : Sampler) : s.sampleMove Q idxs t = s.sampleMove P idxs t := by
  rcases s with x | ⟨x, m, i⟩ | ⟨x, _ | y, m, i⟩ | ⟨e, a, o, z⟩
  · rfl
  · simp only [sampleMove, hb]
  · rfl
  · simp only [sampleMove, hb]
  · simp only [sampleMove]
    cases hs : sampleParticle idxs t with
    | ok r =>
      obtain ⟨j, t'⟩ := r
      have hj := (sampleParticle_ok hs).1
      have : vget Q.shapes j = vget P.shapes j := by unfold vget; rw [h j hj]
      simp only [Outcome.ok_bind, this]
    | _ => rfl

namespace Packing

/-- The things of the thread `tid` are the same. -/
structure Untouched (P P' : Packing) (I : Interaction) (tid : Nat) : Prop where
  altered : P'.lastAltered[tid]? = P.lastAltered[tid]?
  delta : P'.lastDeltas.getD tid 0 = P.lastDeltas.getD tid 0
  slot : ∀ t, SlotOk P I (P.size + tid) t → SlotOk P' I (P'.size + tid) t

theorem Untouched.refl (P : Packing) (I : Interaction) (tid : Nat) : Untouched P P I tid := ⟨rfl, rfl, fun _ h => h⟩

theorem newDeltas_other {P : Packing} {I : Interaction} {tid tid' K0 K1 : Nat} (h : tid' ≠ tid) :
    (P.newDeltas I tid K0 K1).getD tid' 0 = P.lastDeltas.getD tid' 0 := by
  unfold newDeltas
  split
  · rw [List.getD_eq_getElem?_getD, List.getD_eq_getElem?_getD, List.getElem?_set, if_neg (Ne.symm h)]
  · rfl

/-- What a trial does, everything known. -/
theorem trial_full {P : Packing} {I : Interaction} (hP : PInv P I) (hI : Contract I) {tid i : Nat} {k : Kind}
    {domain : Option (Vec3 ℝ → Bool)} (ht : tid < P.moveThreads) (hi : i < P.size) : ∃ P1 dE,
      P.tryKind I tid i k domain = .ok (P1, dE) ∧ SameMols P P1 ∧ PInv P1 I ∧ (∀ tid', tid' ≠ tid → Untouched P P1 I tid') ∧
      ((¬ InDomain k domain (k.apply P.box (P.shapeFn i)).pos ∧ dE = .posInf) ∨
        (InDomain k domain (k.apply P.box (P.shapeFn i)).pos ∧ ∃ K0 K1 : Nat,
          dE = moveChange I.hasHard P.overlapCounting K0 K1 (P.soft I i (P.shapeFn i)) (P.soft I i (k.apply P.box (P.shapeFn i))) ∧
          P1.lastAltered[tid]? = some i ∧ SlotOk P1 I (P1.size + tid) (k.apply P.box (P.shapeFn i)) ∧
          P1.lastDeltas = P.newDeltas I tid K0 K1 ∧
          ((K0 : Nat) : ℝ) = single P I (ind I) i (P.shapeFn i) + wallNum P.box P.hasWall I (P.shapeFn i) ∧
          ((K1 : Nat) : ℝ) = single P I (ind I) i (k.apply P.box (P.shapeFn i)) + wallNum P.box P.hasWall I (k.apply P.box (P.shapeFn i)))) := by
  have hm := hP.q.core.m_eq
  by_cases hd : InDomain k domain (k.apply P.box (P.shapeFn i)).pos
  · obtain ⟨P1, K0, K1, hp, h0, h1, e⟩ := try_ok hP.q hI ht hi (shape_some hi) hd
    have hl : (P.newDeltas I tid K0 K1).length = P1.lastDeltas.length := by rw [newDeltas_length, hp.deltas]
    have same : SameMols P { P1 with lastDeltas := P.newDeltas I tid K0 K1 } := hp.same.trans (deltas_qinv hl)
    refine ⟨_, _, e, same, same.pinv hP (fun h => newDeltas_noHard _ _ _ _ _ h), ?_, Or.inr ⟨hd, K0, K1, rfl, hp.altered, ?_, rfl, h0, h1⟩⟩
    · intro tid' hne
      have hne' : P.size + tid' ≠ P.size + tid := by omega
      refine ⟨hp.others _ hne, newDeltas_other hne, fun t hs => ?_⟩
      rw [same.size]
      refine ⟨(hp.otherShapes _ hne').trans hs.shape, fun c hc => ?_, fun c hc => ?_⟩
      · rw [← hm] at hc ⊢
        refine ((hp.otherCentres _ c hne' hc).1).trans ?_
        rw [hm] at hc ⊢; exact hs.centre c hc
      · show P1.absCentres[_]? = some (wrap P1.box _)
        rw [hp.same.box]
        rw [← hm] at hc ⊢
        refine ((hp.otherCentres _ c hne' hc).2).trans ?_
        rw [hm] at hc ⊢; exact hs.abs c hc
    · rw [same.size]
      exact ⟨hp.slot.shape, hp.slot.centre, hp.slot.abs⟩
  · refine ⟨_, _, try_out hP.q ht hi (shape_some hi) hd, putTemp_same, putTemp_same.pinv hP (fun _ => rfl), ?_, Or.inl ⟨hd, rfl⟩⟩
    intro tid' hne
    refine ⟨?_, rfl, fun t hs => ?_⟩
    · show (P.lastAltered.set tid i)[tid']? = _
      rw [List.getElem?_set, if_neg (Ne.symm hne)]
    · rw [putTemp_size]
      refine ⟨?_, hs.centre, hs.abs⟩
      show (P.shapes.set (P.size + tid) _)[P.size + tid']? = _
      rw [List.getElem?_set, if_neg (by omega)]
      exact hs.shape

theorem Replaced.untouched {P P' : Packing} {I : Interaction} {i : Nat} {t : Shape} (h : Replaced P P' I i t) (hm : P.m = I.centres.length)
    (hi : i < P.size) (tid : Nat) : Untouched P P' I tid := by
  have hne : P.size + tid ≠ i := by omega
  refine ⟨by rw [h.la], by rw [h.ld], fun s hs => ?_⟩
  rw [h.size]
  refine ⟨?_, fun c hc => ?_, fun c hc => ?_⟩
  · rw [h.shapes, List.getElem?_set, if_neg hne.symm]; exact hs.shape
  · rw [← hm] at hc ⊢
    refine ((h.others _ c hne hc).1).trans ?_
    rw [hm] at hc ⊢; exact hs.centre c hc
  · rw [h.box]
    rw [← hm] at hc ⊢
    refine ((h.others _ c hne hc).2).trans ?_
    rw [hm] at hc ⊢; exact hs.abs c hc

/-- Molecules which do not interact with a shape are not seen by it. -/
theorem single_local {P Q : Packing} {I : Interaction} {φ : Site → Site → BC → ℝ} {i : Nat} {s : Shape} (hb : Q.box = P.box)
    (hsz : Q.size = P.size) (hg : Q.ng.isSome = P.ng.isSome)
    (h : ∀ j < P.size, Q.shapeFn j = P.shapeFn j ∨ (molW P I φ s (P.shapeFn j) = 0 ∧ molW P I φ s (Q.shapeFn j) = 0)) :
    single Q I φ i s = single P I φ i s := by
  unfold Packing.single
  rw [hsz]
  apply sum_congr'
  intro j hj
  rw [List.mem_filter, List.mem_range] at hj
  have e : molW Q I φ s (Q.shapeFn j) = molW P I φ s (Q.shapeFn j) := by unfold molW; rw [hb, hg]
  rw [e]
  rcases h j hj.1 with h | ⟨h1, h2⟩
  · rw [h]
  · rw [h1, h2]

theorem molW_zero {P : Packing} {I : Interaction} {φ : Site → Site → BC → ℝ} {s t : Shape} (hg : P.ng.isSome = true)
    (h : ∀ x ∈ molSites P.box I s, ∀ y ∈ molSites P.box I t, ∀ n : Vec3 ℤ, φ x y (BC.hard (lattice P.box n)) = 0) : molW P I φ s t = 0 := by
  unfold molW sitePairs pairW
  rw [hg]
  simp only [if_true]
  rw [List.sum_eq_zero]
  intro a ha
  rw [List.mem_map] at ha
  obtain ⟨x, hx, rfl⟩ := ha
  apply List.sum_eq_zero
  intro b hb
  rw [List.mem_map] at hb
  obtain ⟨y, hy, rfl⟩ := hb
  apply Finset.sum_eq_zero
  intro n _
  exact h x hx y hy n

end Packing

end Rampack
