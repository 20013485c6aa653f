import Verif.Sim.MirrorLemmas
import Verif.Sim.MetroProps
import Verif.Packing.UpscaleProps
/-
C65: proposed moves are symmetric.
-/
namespace Rampack

open Spec Packing Sim

private theorem mirror_in {J : Finset ℕ} {u : Tape} {k : ℕ} (h : k ∈ J) : mirror J u k = 1 - u k := if_pos h

private theorem mirror_out {J : Finset ℕ} {u : Tape} {k : ℕ} (h : k ∉ J) : mirror J u k = u k := if_neg h

private theorem st_snd (s m : ℝ) (u : Tape) : (Sampler.sampleTranslation s m u).2 = Tape.drop u 3 := rfl

private theorem st_mirror {J : Finset ℕ} (h0 : 0 ∈ J) (h1 : 1 ∈ J) (h2 : 2 ∈ J) (s m : ℝ) (u : Tape) :
    (Sampler.sampleTranslation s m (mirror J u)).1 = -(Sampler.sampleTranslation s m u).1 := by
  unfold Sampler.sampleTranslation
  simp only [mirror_in h0, mirror_in h1, mirror_in h2, uniformReal_mirror]
  rfl

/-- C65: let a move be sampled with the numbers `t`, of which `n` are used. There is a set `J` of places at which these numbers may be
changed freely, with the same molecule chosen and the same count of numbers used: for whatever numbers `u` equal to `t` elsewhere, the
proposed move from the state `P` to a state `P'` is taken back by the move proposed in the state `P'` with the numbers mirrored at these
places. Mirroring is an involution of sequences of equal probability, so both moves are equally probable. -/
theorem C65_reverse {P : Packing} {I : Interaction} {s s' : Sampler} {idxs : List Nat} {t t' : Tape} {mv : MoveData} (hr : Reachable P I)
    (h : s.sampleMove P idxs t = .ok (mv, s', t')) :
    ∃ (J : Finset ℕ) (n : ℕ), t' = t.drop n ∧ ∀ u : Tape, (∀ k, k ∉ J → u k = t k) →
      ∃ (mv1 : MoveData), s.sampleMove P idxs u = .ok (mv1, s', Tape.drop u n) ∧ mv1.idx = mv.idx ∧
        ∀ (sh : Shape) (P' : Packing), (mols P)[mv.idx]? = some sh → P'.box = P.box →
          mols P' = (mols P).set mv.idx (mv1.kind.apply P.box sh) →
          ∃ (mv2 : MoveData), s'.sampleMove P' idxs (mirror J u) = .ok (mv2, s', Tape.drop (mirror J u) n) ∧ mv2.idx = mv.idx ∧
            mv2.kind.apply P.box (mv1.kind.apply P.box sh) = sh := by
  obtain ⟨hP, -⟩ := hr.inv
  have hb := hP.q.core.box
  have hin : ∀ {i : ℕ} {sh : Shape}, (mols P)[i]? = some sh → Inside P.box sh.pos := by
    intro i sh hs
    obtain ⟨h1, h2⟩ := mem_mols hs
    rw [← h2]
    exact (hP.q.core.shapeFn h1).2
  rcases s with x | ⟨x, m, im⟩ | ⟨x, _ | y, m, im⟩ | ⟨e, a, o, z⟩
  · simp only [Sampler.sampleMove] at h
    obtain ⟨⟨R, t1⟩, h1, h⟩ := Outcome.bind_eq_ok.mp h
    simp only at h
    obtain ⟨⟨j, t2⟩, h2, h⟩ := Outcome.bind_eq_ok.mp h
    obtain ⟨n, k, hn, ht1, hu1⟩ := sampleRotation_local h1
    obtain ⟨-, h3⟩ := Sampler.sampleParticle_ok h2
    have hp := sampleParticle_local h2
    have h := Outcome.ok_inj.mp h
    injection h with h4 h5
    injection h5 with h5 h6
    subst h4 h5 h6 h3 ht1
    refine ⟨{k}, k + 1 + 1, Tape.drop_drop _ _ _, fun u hu => ⟨⟨j, .rotation (axisRotation n (uniformReal (-x) x (u k)))⟩, ?_, rfl, ?_⟩⟩
    · simp only [Sampler.sampleMove]
      rw [hu1 u (fun i hi => hu i (by simp; omega)), Outcome.ok_bind]
      simp only
      rw [hp (Tape.drop u (k + 1)) (hu _ (by simp)), Outcome.ok_bind, Tape.drop_drop]
      rfl
    · intro sh P' hs hbx hm
      refine ⟨⟨j, .rotation (axisRotation n (uniformReal (-x) x (1 - u k)))⟩, ?_, rfl, ?_⟩
      · simp only [Sampler.sampleMove]
        rw [hu1 (mirror {k} u) (fun i hi => by rw [mirror_out (by simp; omega)]; exact hu i (by simp; omega)), Outcome.ok_bind,
          mirror_in (by simp)]
        simp only
        rw [hp (Tape.drop (mirror {k} u) (k + 1)) (by
          show mirror {k} u (k + 1 + 0) = _
          rw [mirror_out (by simp)]
          exact hu _ (by simp)), Outcome.ok_bind, Tape.drop_drop]
        rfl
      · simp only [Kind.apply, Shape.rotate]
        rw [uniformReal_mirror, ← Mat3.mul_assoc, axisRotation_back hn, Mat3.one_mul]
  · simp only [Sampler.sampleMove] at h
    obtain ⟨⟨j, t2⟩, h2, h⟩ := Outcome.bind_eq_ok.mp h
    obtain ⟨-, h3⟩ := Sampler.sampleParticle_ok h2
    have hp := sampleParticle_local h2
    have h := Outcome.ok_inj.mp h
    injection h with h4 h5
    injection h5 with h5 h6
    subst h4 h5 h6 h3
    refine ⟨{0, 1, 2}, 4, Tape.drop_drop _ _ _, fun u hu => ⟨⟨j, .translation (Sampler.sampleTranslation x (Sampler.adjustMax P.box m im) u).1⟩, ?_, rfl, ?_⟩⟩
    · simp only [Sampler.sampleMove, st_snd]
      rw [hp (Tape.drop u 3) (hu _ (by simp)), Outcome.ok_bind, Tape.drop_drop]
      rfl
    · intro sh P' hs hbx hm
      refine ⟨⟨j, .translation (-(Sampler.sampleTranslation x (Sampler.adjustMax P.box m im) u).1)⟩, ?_, rfl, ?_⟩
      · simp only [Sampler.sampleMove, st_snd]
        rw [hp (Tape.drop (mirror {0, 1, 2} u) 3) (by
          show mirror {0, 1, 2} u (3 + 0) = _
          rw [mirror_out (by simp)]
          exact hu _ (by simp)), Outcome.ok_bind, Tape.drop_drop, hbx, adjustMax_again,
          st_mirror (by simp) (by simp) (by simp)]
        rfl
      · simp only [Kind.apply, Shape.translate]
        rw [wrap_back hb (hin hs) _ _ rfl]
  · cases h
  · simp only [Sampler.sampleMove] at h
    obtain ⟨⟨R, t1⟩, h1, h⟩ := Outcome.bind_eq_ok.mp h
    simp only at h
    obtain ⟨⟨j, t2⟩, h2, h⟩ := Outcome.bind_eq_ok.mp h
    obtain ⟨n, k, hn, ht1, hu1⟩ := sampleRotation_local h1
    obtain ⟨-, h3⟩ := Sampler.sampleParticle_ok h2
    have hp := sampleParticle_local h2
    have h := Outcome.ok_inj.mp h
    injection h with h4 h5
    injection h5 with h5 h6
    subst h4 h5 h6 h3 ht1
    refine ⟨{0, 1, 2, 3 + k}, 3 + (k + 1) + 1, by simp only [Tape.drop_drop, st_snd], fun u hu =>
      ⟨⟨j, .move (Sampler.sampleTranslation x (Sampler.adjustMax P.box m im) u).1 (axisRotation n (uniformReal (-(min y Real.pi)) (min y Real.pi) (u (3 + k))))⟩, ?_, rfl, ?_⟩⟩
    · simp only [Sampler.sampleMove, st_snd]
      rw [hu1 (Tape.drop u 3) (fun i hi => hu (3 + i) (by simp; omega)), Outcome.ok_bind]
      simp only
      rw [hp (Tape.drop (Tape.drop u 3) (k + 1)) (hu _ (by simp; omega)), Outcome.ok_bind, Tape.drop_drop, Tape.drop_drop]
      rfl
    · intro sh P' hs hbx hm
      refine ⟨⟨j, .move (-(Sampler.sampleTranslation x (Sampler.adjustMax P.box m im) u).1) (axisRotation n (uniformReal (-(min y Real.pi)) (min y Real.pi) (1 - u (3 + k))))⟩, ?_, rfl, ?_⟩
      · simp only [Sampler.sampleMove, st_snd]
        rw [hu1 (Tape.drop (mirror {0, 1, 2, 3 + k} u) 3) (fun i hi => by
          show mirror _ u (3 + i) = _
          rw [mirror_out (by simp; omega)]
          exact hu (3 + i) (by simp; omega)), Outcome.ok_bind]
        simp only
        rw [hp (Tape.drop (Tape.drop (mirror {0, 1, 2, 3 + k} u) 3) (k + 1)) (by
          show mirror _ u (3 + (k + 1 + 0)) = _
          rw [mirror_out (by simp; omega)]
          exact hu _ (by simp; omega)), Outcome.ok_bind, Tape.drop_drop, Tape.drop_drop, hbx, adjustMax_again,
          st_mirror (by simp) (by simp) (by simp)]
        show Outcome.ok _ = _
        rw [show Tape.drop (mirror {0, 1, 2, 3 + k} u) 3 k = 1 - u (3 + k) from mirror_in (by simp)]
        rfl
      · simp only [Kind.apply, Shape.translate, Shape.rotate]
        rw [wrap_back hb (hin hs) _ _ rfl, uniformReal_mirror, ← Mat3.mul_assoc, axisRotation_back hn, Mat3.one_mul]
  · simp only [Sampler.sampleMove] at h
    obtain ⟨⟨j, t2⟩, h2, h⟩ := Outcome.bind_eq_ok.mp h
    simp only at h
    obtain ⟨sh0, h3, h⟩ := Outcome.bind_eq_ok.mp h
    obtain ⟨kd, h4, h⟩ := Outcome.bind_eq_ok.mp h
    obtain ⟨-, h5⟩ := Sampler.sampleParticle_ok h2
    have hp := sampleParticle_local h2
    injection h with h
    injection h with h6 h7
    injection h7 with h7 h8
    subst h6 h7 h8 h5
    rw [vget_eq_ok] at h3
    refine ⟨∅, 1, rfl, fun u hu => ⟨⟨j, kd⟩, ?_, rfl, ?_⟩⟩
    · simp only [Sampler.sampleMove]
      rw [hp u (hu _ (by simp)), Outcome.ok_bind]
      simp only
      rw [vget_eq_ok.mpr h3, Outcome.ok_bind, h4, Outcome.ok_bind]
      rfl
    · intro sh P' hs hbx hm
      obtain ⟨hj, hsf⟩ := mem_mols hs
      rw [shape_some hj, hsf] at h3
      injection h3 with h3
      subst h3
      obtain ⟨k2, e1, e2⟩ := flipMove_again hb (hin hs) h4
      have hs2 : (mols P')[j]? = some (kd.apply P.box sh) := by
        rw [hm, List.getElem?_set_self (by rw [mols_length]; exact hj)]
      obtain ⟨hj2, hsf2⟩ := mem_mols hs2
      refine ⟨⟨j, k2⟩, ?_, rfl, e2⟩
      simp only [Sampler.sampleMove]
      rw [hp (mirror ∅ u) (by rw [mirror_out (by simp)]; exact hu _ (by simp)), Outcome.ok_bind]
      simp only
      rw [vget_eq_ok.mpr (shape_some hj2), Outcome.ok_bind, hsf2, e1, Outcome.ok_bind]
      rfl

/-- The hypotheses are met by a move of each kind. -/
example : ∃ (P : Packing), Reachable P (demoTraits (1 / 40)).I ∧
    ∀ s ∈ [Sampler.translation (1 / 10) 0 true, .rotation (1 / 10), .rototranslation (1 / 10) (some 1) (1 / 2) false,
      .flip 1 ⟨0, 0, 1⟩ ⟨1, 0, 0⟩ false], ∃ mv s' t', s.sampleMove P (List.range P.size) demoTape = .ok (mv, s', t') := by
  obtain ⟨S, h, -, -⟩ := demo_state
  refine ⟨S.P, h.proper.1.reach, fun s hs => ?_⟩
  refine Sampler.sampleMove_total (m := 2) ?_ ?_ ?_ h.proper.2 ?_ demoTape_positive demoTape_fair
  · simp only [List.mem_cons, List.not_mem_nil, or_false] at hs
    rcases hs with rfl | rfl | rfl | rfl <;> simp [Usable]
    intro e
    have := congrArg Vec3.z e
    norm_num at this
  · have := h.size_pos
    intro e
    rw [List.range_eq_nil] at e
    omega
  · intro i hi
    exact List.mem_range.mp hi
  · unfold Packing.size
    omega

/-- C65, flips: a flip turns the molecule about its flip axis by a half-turn, so that directions perpendicular to the axis are reversed,
and keeps its geometric origin at the same place (up to periodic boundaries, and up to 2·10⁻¹⁴ if the origin is closer than that to the
centre). -/
theorem C65_flip {P : Packing} {I : Interaction} {T : Traits} {every : Nat} {axis0 origin0 : Vec3 ℝ} {zero0 : Bool} {s s' : Sampler}
    {idxs : List Nat} {t t' : Tape} {mv : MoveData} {sh : Shape} {axis : Vec3 ℝ} (hr : Reachable P I) (ho : ProperlyOriented P)
    (ha : T.flipAxis = .ok axis)
    (hs : (Sampler.flip every axis0 origin0 zero0).setup T = .ok s) (h : s.sampleMove P idxs t = .ok (mv, s', t'))
    (hsh : (mols P)[mv.idx]? = some sh) :
    (mv.kind.apply P.box sh).rot.mulVec axis = sh.rot.mulVec axis ∧
    (∀ v, axis.dot v = 0 → (mv.kind.apply P.box sh).rot.mulVec v = -sh.rot.mulVec v) ∧
    (∃ q, SamePlace P.box ((mv.kind.apply P.box sh).pos + (mv.kind.apply P.box sh).rot.mulVec T.geometricOrigin) q ∧
      (q - (sh.pos + sh.rot.mulVec T.geometricOrigin)).norm ≤ 2 / 10 ^ 14 ∧
      (1 / 10 ^ 14 ≤ T.geometricOrigin.norm ∨ T.geometricOrigin = 0 → q = sh.pos + sh.rot.mulVec T.geometricOrigin)) := by
  simp only [Sampler.setup] at hs
  obtain ⟨_, -, hs⟩ := Outcome.bind_eq_ok.mp hs
  rw [ha, Outcome.ok_bind] at hs
  injection hs with hs
  subst hs
  obtain ⟨hP, -⟩ := hr.inv
  have hb := hP.q.core.box
  have hrot : IsRotation sh.rot := ho sh (List.mem_of_getElem? hsh)
  simp only [Sampler.sampleMove] at h
  obtain ⟨⟨j, t2⟩, h2, h⟩ := Outcome.bind_eq_ok.mp h
  simp only at h
  obtain ⟨sh0, h3, h⟩ := Outcome.bind_eq_ok.mp h
  obtain ⟨kd, h4, h⟩ := Outcome.bind_eq_ok.mp h
  injection h with h
  injection h with h6 h7
  subst h6
  simp only at hsh ⊢
  obtain ⟨hj, hsf⟩ := mem_mols hsh
  rw [vget_eq_ok, shape_some hj, hsf] at h3
  injection h3 with h3
  subst h3
  obtain ⟨n, e1, e2, e3, e4⟩ := flipMove_ok h4
  have hkr : (kd.apply P.box sh).rot = axisRotation n Real.pi * sh.rot := by
    rcases e4 with ⟨-, rfl⟩ | ⟨-, rfl⟩ <;> rfl
  have hnorm : ∀ {A : Mat3}, IsRotation A → ∀ v, (A.mulVec v).norm = v.norm := by
    intro A hA v
    unfold Vec3.norm
    rw [orthogonal_norm2 hA.1]
  have hdot : ∀ v w, (sh.rot.mulVec v).dot (sh.rot.mulVec w) = v.dot w := by
    intro v w
    have h1 := orthogonal_norm2 hrot.1 (v + w)
    have h2 := orthogonal_norm2 hrot.1 v
    have h3 := orthogonal_norm2 hrot.1 w
    rw [Mat3.mulVec_add] at h1
    simp only [Vec3.norm2, Vec3.dot, Vec3.add_x, Vec3.add_y, Vec3.add_z] at *
    linarith
  have hhalf : ∀ v, axis.dot v = 0 → (axisRotation n Real.pi).mulVec (sh.rot.mulVec v) = -sh.rot.mulVec v := by
    intro v hv
    have h0 : n.dot (sh.rot.mulVec v) = 0 := by
      have h1 := hdot axis v
      rw [hv, normalize_eq e1] at h1
      have h2 : (sh.rot.mulVec axis).norm ≠ 0 := by
        intro h0
        unfold normalize at e1
        rw [if_pos h0] at e1
        cases e1
      have : (sh.rot.mulVec axis).norm * n.dot (sh.rot.mulVec v) = 0 := by
        rw [← h1]
        simp only [Vec3.dot, Vec3.smul_x, Vec3.smul_y, Vec3.smul_z]
        ring
      rcases mul_eq_zero.mp this with h | h
      · exact absurd h h2
      · exact h
    rw [(axisRotation_about e2 Real.pi).2 _ h0]
    ext <;> simp
  refine ⟨by rw [hkr, ← Mat3.mulVec_mulVec, e3], fun v hv => by rw [hkr, ← Mat3.mulVec_mulVec]; exact hhalf v hv, ?_⟩
  have hcor : ∀ p, ∃ k, wrap P.box p = p + lattice P.box k := by
    intro p
    obtain ⟨-, ⟨k, hk⟩, -⟩ := C05_correction (make_of_wf hb) p
    exact ⟨k, by unfold wrap; rw [hk]⟩
  rcases e4 with ⟨hz, rfl⟩ | ⟨hz, rfl⟩
  · have hz : T.geometricOrigin.norm2 < (1 / 10 ^ 14) * (1 / 10 ^ 14) := by simpa using hz
    have hl : T.geometricOrigin.norm < 1 / 10 ^ 14 := by
      have h1 := T.geometricOrigin.norm_sq
      have h2 := T.geometricOrigin.norm_nonneg
      nlinarith
    refine ⟨sh.pos + (axisRotation n Real.pi * sh.rot).mulVec T.geometricOrigin, ⟨0, ?_⟩, ?_, ?_⟩
    · have : lattice P.box 0 = 0 := by ext <;> simp [lattice, combo, Vec3.map]
      rw [this, add_zero]
      rfl
    · have e : sh.pos + (axisRotation n Real.pi * sh.rot).mulVec T.geometricOrigin - (sh.pos + sh.rot.mulVec T.geometricOrigin) =
          (axisRotation n Real.pi).mulVec (sh.rot.mulVec T.geometricOrigin) - sh.rot.mulVec T.geometricOrigin := by
        rw [Mat3.mulVec_mulVec]; abel
      rw [e]
      have h1 := hnorm (axisRotation_isRotation e2 Real.pi) (sh.rot.mulVec T.geometricOrigin)
      have h2 := hnorm hrot T.geometricOrigin
      have h3 : ∀ a b : Vec3 ℝ, (a - b).norm ≤ a.norm + b.norm := by
        intro a b
        have ha := a.norm_nonneg
        have hb := b.norm_nonneg
        have h1 := (a - b).norm_sq
        have h2 := a.norm_sq
        have h3 := b.norm_sq
        have h4 := Vec3.abs_dot_le a b
        have h5 : (a - b).norm2 = a.norm2 + b.norm2 - 2 * a.dot b := by
          simp only [Vec3.norm2, Vec3.dot, Vec3.sub_x, Vec3.sub_y, Vec3.sub_z]; ring
        have h6 := neg_abs_le (a.dot b)
        refine abs_le_of_sq_le_sq' (a := (a - b).norm) ?_ (by positivity) |>.2
        nlinarith
      have := h3 ((axisRotation n Real.pi).mulVec (sh.rot.mulVec T.geometricOrigin)) (sh.rot.mulVec T.geometricOrigin)
      rw [h1, h2] at this
      linarith
    · rintro (h | h)
      · linarith
      · rw [h, Mat3.mulVec_zero, Mat3.mulVec_zero]
  · refine ⟨sh.pos + sh.rot.mulVec T.geometricOrigin, ?_, ?_, fun _ => rfl⟩
    · obtain ⟨k, hk⟩ := hcor (sh.pos + (sh.rot.mulVec T.geometricOrigin - (axisRotation n Real.pi).mulVec (sh.rot.mulVec T.geometricOrigin)))
      refine ⟨k, ?_⟩
      simp only [Kind.apply, Shape.translate, Shape.rotate]
      rw [hk, ← Mat3.mulVec_mulVec]
      abel
    · rw [sub_self]
      have : (0 : Vec3 ℝ).norm = 0 := by simp [Vec3.norm, Vec3.norm2, Vec3.dot]
      rw [this]
      positivity

/-- The hypotheses are met by a shape whose geometric origin is not its centre. -/
example : ∃ (P : Packing) (T : Traits) (s s' : Sampler) (t' : Tape) (mv : MoveData) (sh : Shape),
    Reachable P (demoTraits (1 / 40)).I ∧ ProperlyOriented P ∧ T.flipAxis = .ok ⟨0, 1, 0⟩ ∧ T.geometricOrigin = ⟨0, 0, 1⟩ ∧
    (Sampler.flip 1 0 0 false).setup T = .ok s ∧ s.sampleMove P (List.range P.size) demoTape = .ok (mv, s', t') ∧
    (mols P)[mv.idx]? = some sh := by
  obtain ⟨S, h, -, -⟩ := demo_state
  have ha : (⟨0, 1, 0⟩ : Vec3 ℝ) ≠ 0 := by
    intro e
    have := congrArg Vec3.y e
    norm_num at this
  obtain ⟨mv, s', t', e⟩ := Sampler.sampleMove_total (s := .flip 1 ⟨0, 1, 0⟩ ⟨0, 0, 1⟩ false) (P := S.P) (idxs := List.range S.P.size)
    (t := demoTape) (m := 2) (by simp [Usable, ha]) (by have := h.size_pos; intro e; rw [List.range_eq_nil] at e; omega)
    (fun i hi => List.mem_range.mp hi) h.proper.2 (by unfold Packing.size; omega) demoTape_positive demoTape_fair
  have hi := List.mem_range.mp (Sampler.sampleMove_ok e).1
  refine ⟨S.P, ⟨(demoTraits (1 / 40)).I, true, ⟨0, 0, 1⟩, .ok ⟨0, 1, 0⟩⟩, _, s', t', mv, _, h.proper.1.reach, h.proper.2, rfl, rfl, ?_, e,
    (mols_getElem? hi).trans (shape_some hi)⟩
  simp only [Sampler.setup, Outcome.require, if_true, Outcome.ok_bind]
  rw [decide_eq_false (by norm_num [Vec3.norm2, Vec3.dot])]
  rfl

end Rampack
