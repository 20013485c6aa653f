import Verif.Packing.ScaleLemmas
/-
Helper lemmas: renormalisation of orientations.
-/
namespace Rampack.Packing

open Rampack.Spec Rampack.Grid

theorem fixedCentres_ok {P : Packing} {I : Interaction} (hP : Core P I) {tid i : Nat} {s : Shape}
    (ht : tid < P.moveThreads) (hi : i < P.size) :
    ∃ P', (P.putTemp tid i s.fixed).fixedCentres I tid s.fixed.rot = .ok P' ∧ SameMols P P' ∧
      P'.lastAltered[tid]? = some i ∧ SlotOk P' I (P.size + tid) s.fixed ∧ P'.lastDeltas = P.lastDeltas := by
  set t := s.fixed with htdef
  have hlt := size_add_lt hP ht
  have hQs : (P.putTemp tid i t).size = P.size := putTemp_size _ _ _ _
  have hsh : (P.putTemp tid i t).shapes[P.size + tid]? = some t := by
    simp only [putTemp]; rw [List.getElem?_set, if_pos rfl, if_pos hlt]
  have la : (P.putTemp tid i t).lastAltered[tid]? = some i := by
    simp only [putTemp]; rw [List.getElem?_set, if_pos rfl, if_pos (by rw [hP.la]; exact ht)]
  have hm : (P.putTemp tid i t).m = P.m := rfl
  unfold fixedCentres
  by_cases h0 : P.m = 0
  · rw [if_neg (show ¬ (P.putTemp tid i t).m > 0 by rw [hm]; omega)]
    refine ⟨_, rfl, putTemp_same, la, ⟨hsh, ?_, ?_⟩, rfl⟩
    · intro c hc; rw [← hP.m_eq] at hc; omega
    · intro c hc; rw [← hP.m_eq] at hc; omega
  · rw [if_pos (show (P.putTemp tid i t).m > 0 by rw [hm]; omega)]
    have hblock : (P.size + tid) * P.m + P.m ≤ P.shapes.length * P.m := by
      have := Nat.mul_le_mul_right P.m (show P.size + tid + 1 ≤ P.shapes.length from hlt)
      rw [Nat.add_mul, Nat.one_mul] at this; exact this
    obtain ⟨cs, e1, l1, v1, o1⟩ := storeLoop_ok (base := (P.size + tid) * P.m) (m := P.m) (l := P.centres)
      (f := fun _ k => do let v ← vget I.centres k; return t.rot.mulVec v) (v := fun c => t.rot.mulVec (I.centres.getD c 0))
      (by rw [hP.clen]; exact hblock) (by
        intro c hc l' _ _
        have hc' : c < I.centres.length := by rw [← hP.m_eq]; exact hc
        rw [vget_eq_of_getElem? (List.getElem?_eq_getElem hc'), Outcome.ok_bind, List.getD_eq_getElem?_getD,
          List.getElem?_eq_getElem hc']
        rfl)
    obtain ⟨as, e3, l3, s3, o3⟩ := recalcAbs_ok (P := { P.putTemp tid i t with centres := cs }) (I := I) (a := P.size + tid) (t := t)
      hP.m_eq (by
        change (P.size + tid) * P.m + P.m ≤ P.absCentres.length
        rw [hP.alen]; exact hblock) hsh v1
    have hsame := putTemp_same (P := P) (tid := tid) (i := i) (t := t)
    refine ⟨{ P.putTemp tid i t with centres := cs, absCentres := as }, ?_, ⟨rfl, rfl, rfl, rfl, rfl, rfl, rfl, rfl, rfl,
      hsame.slen, l1, l3, hsame.la, rfl, hsame.shapes, ?_, ?_⟩, la, s3, rfl⟩
    · rw [hQs, ← hP.m_eq, hm, show (P.putTemp tid i t).centres = P.centres from rfl, e1, Outcome.ok_bind]
      exact e3
    · intro j hj
      exact o1 j (Or.inl (lt_of_lt_of_le hj (Nat.mul_le_mul_right _ (by omega))))
    · intro j hj
      exact o3 j (Or.inl (lt_of_lt_of_le hj (Nat.mul_le_mul_right _ (by omega))))

theorem tryFix_ok {P : Packing} {I : Interaction} (hP : Core P I) {tid i : Nat} (ht : tid < P.moveThreads) (hi : i < P.size) :
    ∃ P', P.tryOrientationFix I tid i = .ok P' ∧ SameMols P P' ∧
      P'.lastAltered[tid]? = some i ∧ SlotOk P' I (P.size + tid) (P.shapeFn i).fixed ∧ P'.lastDeltas = P.lastDeltas := by
  obtain ⟨P', e, h⟩ := fixedCentres_ok hP (s := P.shapeFn i) ht hi
  refine ⟨P', ?_, h⟩
  rw [tryOrientationFix, startTry_ok hP ht (shape_some hi), Outcome.ok_bind]
  simp only [setTemp_ok hP ht, Outcome.ok_bind]
  exact e

theorem moveOverlap_ok {P : Packing} {I : Interaction} (hP : QInv P I) (hI : Contract I) {tid i temp : Nat} {s t : Shape}
    (htid : tid < P.moveThreads) (hs : SlotOk P I i s) (hsi : Inside P.box s.pos) (ht : SlotOk P I temp t)
    (hti : Inside P.box t.pos) : ∃ K0 K1 : Nat,
      (K0 : ℝ) = single P I (ind I) i s + wallNum P.box P.hasWall I s ∧
      (K1 : ℝ) = single P I (ind I) i t + wallNum P.box P.hasWall I t ∧
      P.moveOverlapEnergy I tid i temp = .ok ({ P with lastDeltas := P.newDeltas I tid K0 K1 },
        moveChange I.hasHard P.overlapCounting K0 K1 0 0) := by
  obtain ⟨K0, h0, c0⟩ := countParticle_ok hP hI hs hsi i
  obtain ⟨K1, h1, c1⟩ := countParticle_ok hP hI ht hti i
  refine ⟨K0, K1, h0, h1, ?_⟩
  unfold moveOverlapEnergy newDeltas moveChange
  by_cases hh : I.hasHard = true
  · by_cases hc : P.overlapCounting = true
    · obtain ⟨k0, e0, -, q0⟩ := c0 false
      obtain ⟨k1, e1, -, q1⟩ := c1 false
      have hb : (I.hasHard && P.overlapCounting) = true := by simp [hh, hc]
      rw [if_pos hh, if_pos hc, e0, Outcome.ok_bind, e1, Outcome.ok_bind, q0 rfl, q1 rfl, if_pos hb, if_pos hh, if_pos hc]
      simp only []
      rw [vset_ok (by rw [hP.core.ld]; exact htid), Outcome.ok_bind]
      by_cases hlt : K1 < K0
      · rw [if_pos (by omega), if_pos hlt]; rfl
      · rw [if_neg (by omega), if_neg hlt]
        by_cases hgt : K0 < K1
        · rw [if_pos (by omega), if_pos hgt]; rfl
        · rw [if_neg (by omega), if_neg hgt, sub_zero]; rfl
    · obtain ⟨k1, e1, q1, -⟩ := c1 true
      have hb : ¬ (I.hasHard && P.overlapCounting) = true := by simp [hh, hc]
      rw [if_pos hh, if_neg hc, e1, Outcome.ok_bind, if_neg hb, if_pos hh, if_neg hc]
      by_cases hk : 0 < K1
      · rw [if_pos (q1.mpr hk), if_pos hk]; rfl
      · rw [if_neg (fun h => hk (q1.mp h)), if_neg hk, sub_zero]; rfl
  · have hb : ¬ (I.hasHard && P.overlapCounting) = true := by simp [hh]
    rw [if_neg hh, if_neg hb, if_neg hh, sub_zero]

theorem SameMols.mols {P P' : Packing} (h : SameMols P P') : mols P' = mols P := by
  unfold Spec.mols
  rw [h.size]
  apply List.ext_getElem?
  intro j
  rw [List.getElem?_take, List.getElem?_take]
  by_cases hj : j < P.size
  · rw [if_pos hj, if_pos hj, h.shapes j hj]
  · rw [if_neg hj, if_neg hj]

theorem Replaced.mols {P P' : Packing} {I : Interaction} {i : Nat} {t : Shape} (h : Replaced P P' I i t) :
    mols P' = (mols P).set i t := by
  unfold Spec.mols
  rw [h.size, h.shapes, List.take_set]

theorem mols_length {P : Packing} : (mols P).length = P.size := by
  unfold mols; rw [List.length_take]; unfold size; omega

theorem mols_getElem? {P : Packing} {i : Nat} (hi : i < P.size) : (mols P)[i]? = P.shapes[i]? := by
  unfold mols; rw [List.getElem?_take, if_pos hi]

/-- What stays the same during renormalisation. -/
structure SameFrame (P P' : Packing) : Prop where
  box : P'.box = P.box
  size : P'.size = P.size
  hasWall : P'.hasWall = P.hasWall
  overlapCounting : P'.overlapCounting = P.overlapCounting
  moveThreads : P'.moveThreads = P.moveThreads

theorem SameMols.frame {P P' : Packing} (h : SameMols P P') : SameFrame P P' :=
  ⟨h.box, h.size, h.hasWall, h.overlapCounting, h.moveThreads⟩

theorem Replaced.frame {P P' : Packing} {I : Interaction} {i : Nat} {t : Shape} (h : Replaced P P' I i t) : SameFrame P P' :=
  ⟨h.box, h.size, h.hasWall, h.overlapCounting, h.moveThreads⟩

theorem SameFrame.trans {P P' P'' : Packing} (h : SameFrame P P') (h' : SameFrame P' P'') : SameFrame P P'' :=
  ⟨h'.box.trans h.box, h'.size.trans h.size, h'.hasWall.trans h.hasWall, h'.overlapCounting.trans h.overlapCounting,
    h'.moveThreads.trans h.moveThreads⟩

/-- The orientation fix of the molecule `i` is refused. -/
def Refused (P : Packing) (I : Interaction) (i : Nat) (t : Shape) : Prop := I.hasHard = true ∧
  if P.overlapCounting then single P I (ind I) i (P.shapeFn i) + wallNum P.box P.hasWall I (P.shapeFn i) <
    single P I (ind I) i t + wallNum P.box P.hasWall I t
  else 0 < single P I (ind I) i t + wallNum P.box P.hasWall I t

theorem positive_moveChange {hard counting : Bool} {K0 K1 : Nat} :
    (moveChange hard counting K0 K1 0 0).positive = true ↔ hard = true ∧ if counting then K0 < K1 else 0 < K1 := by
  unfold moveChange
  cases hard <;> cases counting <;> simp [EnergyChange.positive] <;> split_ifs <;> simp_all <;> omega

theorem renormalizeOne_ok {P : Packing} {I : Interaction} (hP : PInv P I) (hI : Contract I) {tid i rej : Nat}
    (ht : tid < P.moveThreads) (hi : i < P.size) : ∃ (P' : Packing) (b : Bool),
      renormalizeOne I tid (P, rej) i = .ok (P', if b then rej else rej + 1) ∧ PInv P' I ∧ SameFrame P P' ∧
      mols P' = (if b then (mols P).set i (P.shapeFn i).fixed else mols P) ∧ numTotal P' I ≤ numTotal P I ∧
      (b = false ↔ Refused P I i (P.shapeFn i).fixed) := by
  obtain ⟨P1, e1, same, hla, hslot, hld⟩ := tryFix_ok hP.q.core ht hi
  have hP1 : PInv P1 I := same.pinv hP (fun _ => hld)
  have hi1 : i < P1.size := by rw [same.size]; exact hi
  have hs1 : P1.shapeFn i = P.shapeFn i := same.shapeFn hi
  have hin : Inside P1.box (P.shapeFn i).fixed.pos := by rw [same.box]; exact (hP.q.core.shapeFn hi).2
  obtain ⟨K0, K1, h0, h1, e2⟩ := moveOverlap_ok hP1.q hI (tid := tid) (by rw [same.moveThreads]; exact ht)
    (hP1.q.core.slots i _ hi1 (shape_some hi1)) (hP1.q.core.shapeFn hi1).2 hslot hin
  have same2 : SameMols P1 { P1 with lastDeltas := P1.newDeltas I tid K0 K1 } := deltas_qinv (newDeltas_length _ _ _ _ _)
  have hP2 := same2.pinv hP1 (fun h => newDeltas_noHard _ _ _ _ _ h)
  have run : renormalizeOne I tid (P, rej) i =
      decideFix { P1 with lastDeltas := P1.newDeltas I tid K0 K1 } tid rej (moveChange I.hasHard P1.overlapCounting K0 K1 0 0) := by
    rw [renormalizeOne]
    simp only []
    rw [e1, Outcome.ok_bind, same.size, e2, Outcome.ok_bind]
  rw [run]
  unfold decideFix
  have href : (moveChange I.hasHard P1.overlapCounting K0 K1 0 0).positive = true ↔ Refused P I i (P.shapeFn i).fixed := by
    rw [positive_moveChange]
    unfold Refused
    rw [← same.single, ← same.single, ← hs1, ← same.box, ← same.hasWall, ← same.overlapCounting, ← h0, hs1, ← h1]
    norm_cast
  by_cases hpos : (moveChange I.hasHard P1.overlapCounting K0 K1 0 0).positive = true
  · rw [if_pos hpos]
    refine ⟨_, false, rfl, hP2, (same.trans same2).frame, by rw [(same.trans same2).mols]; rfl,
      ((same.trans same2).numTotal I).le, by simp [← href, hpos]⟩
  · rw [if_neg hpos]
    obtain ⟨P', e3, h3, rep, hsome⟩ := accept_pinv hP2 hI (tid := tid) (i := i) (t := (P.shapeFn i).fixed) (how := .rotation)
      (by show tid < P1.moveThreads; rw [same.moveThreads]; exact ht) hi1 hla
      (by rw [show Packing.size _ = P1.size from same2.size, same.size]; exact ⟨hslot.shape, hslot.centre, hslot.abs⟩) hin
      (by show (P.shapeFn i).fixed.pos = (P1.shapeFn i).pos; rw [hs1]; rfl)
      (by
        intro hh hc
        rw [same2.single, same2.single, same2.shapeFn hi1, same2.box, same2.hasWall, ← h0, ← h1]
        have hb : (I.hasHard && P1.overlapCounting) = true := by simp only [hh, Bool.true_and]; exact hc
        simp only [newDeltas]
        rw [if_pos hb, List.getD_eq_getElem?_getD, List.getElem?_set, if_pos rfl,
          if_pos (by rw [hP1.q.core.ld, same.moveThreads]; exact ht)]
        simp)
    have e3 : acceptRotation { P1 with lastDeltas := P1.newDeltas I tid K0 K1 } tid = .ok P' := e3
    rw [e3, Outcome.ok_bind]
    refine ⟨P', true, rfl, h3, (same.trans same2).frame.trans rep.frame, ?_, ?_, by simp [← href, hpos]⟩
    · rw [rep.mols, (same.trans same2).mols]; rfl
    · have hn := rep.numTotal hP2.q.core hI hi1 (shape_some hi1) hsome
      rw [same2.single, same2.single, same2.shapeFn hi1, same2.box, same2.hasWall, ← h0, ← h1, (same.trans same2).numTotal] at hn
      by_cases hh : I.hasHard = true
      · rw [hn]
        have : K1 ≤ K0 := by
          by_contra hlt
          apply hpos
          unfold moveChange
          rw [if_pos hh]
          by_cases hc : P1.overlapCounting = true
          · rw [if_pos hc, if_neg (by omega), if_pos (by omega)]; rfl
          · rw [if_neg hc, if_pos (by omega)]; rfl
        have : (K1 : ℝ) ≤ K0 := by exact_mod_cast this
        linarith
      · simp only [Bool.not_eq_true] at hh
        rw [numTotal_noHard h3.q hI hh, numTotal_noHard hP.q hI hh]

/-- Molecules with some of them fixed. -/
noncomputable def fixSome (bs : List Bool) (ss : List Shape) : List Shape :=
  List.zipWith (fun b s => if b then s.fixed else s) bs ss

theorem renormalizeMany_ok {I : Interaction} (hI : Contract I) {tid : Nat} {P : Packing} (hP : PInv P I) (ht : tid < P.moveThreads) :
    ∀ n ≤ P.size, ∃ P' bs, (List.range n).foldlM (renormalizeOne I tid) (P, 0) = .ok (P', bs.count false) ∧ PInv P' I ∧ SameFrame P P' ∧
      bs.length = n ∧ mols P' = fixSome bs ((mols P).take n) ++ (mols P).drop n ∧ numTotal P' I ≤ numTotal P I ∧
      ∀ j < n, ∃ Q, PInv Q I ∧ SameFrame P Q ∧ mols Q = fixSome (bs.take j) ((mols P).take j) ++ (mols P).drop j ∧
        (bs[j]? = some false ↔ Refused Q I j (Q.shapeFn j).fixed)
  | 0, _ => ⟨P, [], rfl, hP, (SameMols.refl P).frame, rfl, by simp [fixSome], le_rfl, by simp⟩
  | n + 1, hn => by
    obtain ⟨P1, bs, e1, h1, f1, l1, m1, n1, r1⟩ := renormalizeMany_ok hI hP ht n (by omega)
    obtain ⟨P2, b, e2, h2, f2, m2, n2, r2⟩ := renormalizeOne_ok h1 hI (tid := tid) (i := n) (rej := bs.count false)
      (by rw [f1.moveThreads]; exact ht) (by rw [f1.size]; omega)
    have hlen : n < (mols P).length := by rw [mols_length]; omega
    have hfl : (fixSome bs ((mols P).take n)).length = n := by
      unfold fixSome; rw [List.length_zipWith, List.length_take, l1]; omega
    have hsh : P1.shapeFn n = (mols P)[n] := by
      have h := shape_some (P := P1) (i := n) (by rw [f1.size]; omega)
      rw [← mols_getElem? (by rw [f1.size]; omega), m1, List.getElem?_append_right (by omega), hfl, Nat.sub_self,
        List.getElem?_drop, Nat.add_zero, List.getElem?_eq_getElem hlen] at h
      exact (Option.some.inj h).symm
    refine ⟨P2, bs ++ [b], ?_, h2, f1.trans f2, by simp [l1], ?_, n2.trans n1, ?_⟩
    · rw [List.range_succ, List.foldlM_append, e1, Outcome.ok_bind, List.foldlM_cons, e2, Outcome.ok_bind]
      cases b <;> simp [List.count_append] <;> rfl
    · rw [m2, m1, List.take_succ, List.getElem?_eq_getElem hlen]
      have hz : fixSome (bs ++ [b]) ((mols P).take n ++ [(mols P)[n]]) =
          fixSome bs ((mols P).take n) ++ [if b then (mols P)[n].fixed else (mols P)[n]] := by
        unfold fixSome
        rw [List.zipWith_append (by rw [l1, List.length_take]; omega)]; rfl
      simp only [Option.toList_some]
      rw [hz, List.drop_eq_getElem_cons hlen]
      cases b with
      | false => simp
      | true =>
        simp only [if_true]
        rw [List.set_append_right _ _ (by omega), hfl, Nat.sub_self, hsh, List.set_cons_zero, List.append_assoc, List.singleton_append]
    · intro j hj
      rcases Nat.lt_succ_iff_lt_or_eq.mp hj with hj | rfl
      · obtain ⟨Q, q1, q2, q3, q4⟩ := r1 j hj
        refine ⟨Q, q1, q2, ?_, ?_⟩
        · rw [q3, List.take_append_of_le_length (by omega)]
        · rw [← q4, List.getElem?_append_left (by omega)]
      · refine ⟨P1, h1, f1, ?_, ?_⟩
        · rw [m1, List.take_append_of_le_length (by omega), List.take_of_length_le (i := j) (l := bs) (by omega)]
        · rw [← r2, List.getElem?_append_right (by omega), l1]; simp

theorem renormalize_ok {I : Interaction} (hI : Contract I) {tid : Nat} {P : Packing} (hP : PInv P I) (ht : tid < P.moveThreads) :
    ∃ P' bs, P.renormalizeOrientations I tid false = .ok (P', bs.count false) ∧ PInv P' I ∧ SameFrame P P' ∧
      bs.length = P.size ∧ mols P' = fixSome bs (mols P) ∧ numTotal P' I ≤ numTotal P I ∧
      ∀ j < P.size, ∃ Q, PInv Q I ∧ SameFrame P Q ∧ mols Q = fixSome (bs.take j) ((mols P).take j) ++ (mols P).drop j ∧
        (bs[j]? = some false ↔ Refused Q I j (Q.shapeFn j).fixed) := by
  obtain ⟨P', bs, e, h1, h2, h3, h4, h5, h6⟩ := renormalizeMany_ok hI hP ht P.size le_rfl
  refine ⟨P', bs, e, h1, h2, h3, ?_, h5, h6⟩
  have hl := mols_length (P := P)
  rw [h4, List.take_of_length_le (by omega), List.drop_of_length_le (by omega), List.append_nil]

theorem renormalizeAllow_ok {I : Interaction} (hI : Contract I) (tid : Nat) {P : Packing} (hP : PInv P I) :
    ∃ P', P.renormalizeOrientations I tid true = .ok (P', 0) ∧ PInv P' I ∧ SameFrame P P' ∧ mols P' = mols P := by
  have hcap : (mols P).length * max 1 I.centres.length = P.cap := by
    unfold cap; rw [mols_length, hP.q.core.m_eq]
  obtain ⟨P', e, h1, h2, h3, h4, h5, h6, -⟩ := reset_ok hI (P := { P with shapes := (P.shapes.take P.size).map Shape.fixed ++ P.shapes.drop P.size })
    (shapes := mols P) hP.q.core.box (by
      intro h
      have := mols_length (P := P)
      rw [h] at this
      have := hP.size_pos
      simp at *; omega) (by
      intro s hs
      obtain ⟨i, hi, rfl⟩ := List.getElem_of_mem hs
      rw [mols_length] at hi
      apply hP.q.core.inside i _ hi
      rw [← mols_getElem? hi, List.getElem?_eq_getElem])
    ⟨fun g hg => by rw [hcap]; exact hP.gridsHave.ng g hg, fun g hg => by rw [hcap]; exact hP.gridsHave.tmp g hg⟩
    (by rw [hcap]; exact hP.bound) hP.noHard
  refine ⟨P', ?_, h1, ⟨h3, ?_, h4, h5, h6⟩, h2⟩
  · rw [renormalizeOrientations, if_pos rfl]
    exact (bind_of e _).trans rfl
  · rw [← mols_length, h2, mols_length]

end Rampack.Packing
