import Verif.Packing.StateLemmas
/-
Helper lemmas: what trial moves compute.
-/
namespace Rampack.Packing

open Rampack.Spec Rampack.Grid

/-- Storage after a shape has been put into the temporary slot of a thread. -/
def putTemp (P : Packing) (tid i : Nat) (t : Shape) : Packing :=
  { P with lastAltered := P.lastAltered.set tid i, shapes := P.shapes.set (P.size + tid) t }

theorem putTemp_size (P : Packing) (tid i : Nat) (t : Shape) : (P.putTemp tid i t).size = P.size := by
  simp [putTemp, size]

theorem startTry_ok {P : Packing} {I : Interaction} (hP : Core P I) {tid i : Nat} {s : Shape} (ht : tid < P.moveThreads)
    (hs : P.shapes[i]? = some s) : P.startTry tid i = .ok (P.putTemp tid i s, s) := by
  rw [startTry, vset_ok (by rw [hP.la]; exact ht), Outcome.ok_bind, vget_eq_of_getElem? hs, Outcome.ok_bind,
    vset_ok (size_add_lt hP ht), Outcome.ok_bind]
  rfl

theorem setTemp_ok {P : Packing} {I : Interaction} (hP : Core P I) {tid i : Nat} {s t : Shape} (ht : tid < P.moveThreads) :
    (P.putTemp tid i s).setTemp tid t = .ok (P.putTemp tid i t) := by
  rw [setTemp, putTemp_size, vset_ok (by simp only [putTemp, List.length_set]; exact size_add_lt hP ht), Outcome.ok_bind]
  simp [putTemp, List.set_set]

theorem putTemp_same {P : Packing} {tid i : Nat} {t : Shape} : SameMols P (P.putTemp tid i t) where
  box := rfl
  ng := rfl
  tempNg := rfl
  range := rfl
  m := rfl
  moveThreads := rfl
  hasWall := rfl
  overlapCounting := rfl
  numOverlaps := rfl
  slen := by simp [putTemp]
  clen := rfl
  alen := rfl
  la := by simp [putTemp]
  ld := rfl
  shapes := fun j hj => by
    simp only [putTemp]
    rw [List.getElem?_set, if_neg (by omega)]
  centres := fun _ _ => rfl
  abs := fun _ _ => rfl

theorem recalcAbs_ok {P : Packing} {I : Interaction} {a : Nat} {t : Shape} (hm : P.m = I.centres.length)
    (hlen : a * P.m + P.m ≤ P.absCentres.length) (ht : P.shapes[a]? = some t)
    (hc : ∀ c < P.m, P.centres[a * P.m + c]? = some (t.rot.mulVec (I.centres.getD c 0))) :
    ∃ as, P.recalcAbs a = .ok { P with absCentres := as } ∧ as.length = P.absCentres.length ∧
      SlotOk { P with absCentres := as } I a t ∧
      ∀ j, j < a * P.m ∨ a * P.m + P.m ≤ j → as[j]? = P.absCentres[j]? := by
  obtain ⟨as, e, h1, h2, h3⟩ := storeLoop_ok (base := a * P.m) (m := P.m) (l := P.absCentres)
    (f := fun _ c => do
      let s ← vget P.shapes a
      let centre ← vget P.centres (a * P.m + c)
      return wrap P.box (s.pos + centre))
    (v := fun c => wrap P.box (t.pos + t.rot.mulVec (I.centres.getD c 0))) hlen (by
      intro c hcm l' _ _
      rw [vget_eq_of_getElem? ht, Outcome.ok_bind, vget_eq_of_getElem? (hc c hcm)]
      rfl)
  refine ⟨as, by rw [recalcAbs, e]; rfl, h1, ⟨ht, ?_, ?_⟩, h3⟩
  · intro c hcm; rw [← hm] at hcm ⊢; exact hc c hcm
  · intro c hcm; rw [← hm] at hcm ⊢; exact h2 c hcm

/-- The rotation applied to interaction centres. -/
noncomputable def Kind.rotCentres (P : Packing) (tid : Nat) : Kind → Outcome Packing
  | .translation _ => .ok P
  | .rotation R => P.rotateTempCentres tid R
  | .move _ R => P.rotateTempCentres tid R

/-- The preparation of interaction centres in the trial moves. -/
noncomputable def prepCentres (P : Packing) (tid i : Nat) (k : Kind) : Outcome Packing :=
  if P.m ≠ 0 then (do
    let P ← P.prepareTempCentres tid i
    let P ← k.rotCentres P tid
    P.recalcAbs (P.size + tid))
  else .ok P

theorem prepCentres_translation (P : Packing) (tid i : Nat) (v : Vec3 ℝ) :
    P.prepCentres tid i (.translation v) = P.translatedCentres tid i := rfl

theorem prepCentres_rotation (P : Packing) (tid i : Nat) (R : Mat3) :
    P.prepCentres tid i (.rotation R) = P.rotatedCentres tid i R := rfl

theorem prepCentres_move (P : Packing) (tid i : Nat) (v : Vec3 ℝ) (R : Mat3) :
    P.prepCentres tid i (.move v R) = P.rotatedCentres tid i R := rfl

theorem Mat3.mul_mulVec (A B : Mat3) (v : Vec3 ℝ) : (A * B).mulVec v = A.mulVec (B.mulVec v) := by
  rw [Mat3.mulVec_mulVec]

theorem prepCentres_ok {P : Packing} {I : Interaction} (hP : Core P I) {tid i : Nat} {s : Shape} {k : Kind}
    (ht : tid < P.moveThreads) (hi : i < P.size) (hs : P.shapes[i]? = some s) :
    ∃ P', (P.putTemp tid i (k.apply P.box s)).prepCentres tid i k = .ok P' ∧ Prepared P P' I tid i (k.apply P.box s) := by
  set t := k.apply P.box s with htdef
  have hslot := hP.slots i s hi hs
  have hlt := size_add_lt hP ht
  have hQs : (P.putTemp tid i t).size = P.size := putTemp_size _ _ _ _
  have hsh : (P.putTemp tid i t).shapes[P.size + tid]? = some t := by
    simp only [putTemp]; rw [List.getElem?_set, if_pos rfl, if_pos hlt]
  have oshapes : ∀ a, a ≠ P.size + tid → (P.putTemp tid i t).shapes[a]? = P.shapes[a]? := by
    intro a ha
    simp only [putTemp]; rw [List.getElem?_set, if_neg (Ne.symm ha)]
  have ola : ∀ a, a ≠ tid → (P.putTemp tid i t).lastAltered[a]? = P.lastAltered[a]? := by
    intro a ha
    simp only [putTemp]; rw [List.getElem?_set, if_neg (Ne.symm ha)]
  have la : (P.putTemp tid i t).lastAltered[tid]? = some i := by
    simp only [putTemp]; rw [List.getElem?_set, if_pos rfl, if_pos (by rw [hP.la]; exact ht)]
  by_cases h0 : P.m = 0
  · refine ⟨P.putTemp tid i t, by rw [prepCentres, if_neg (not_not.mpr (show (P.putTemp tid i t).m = 0 from h0))], putTemp_same, la, ?_, rfl, rfl, rfl, ola, oshapes,
      fun a c _ hc => by omega⟩
    refine ⟨hsh, ?_, ?_⟩
    · intro c hc; rw [← hP.m_eq] at hc; omega
    · intro c hc; rw [← hP.m_eq] at hc; omega
  · have hm : (P.putTemp tid i t).m = P.m := rfl
    have hblock : (P.size + tid) * P.m + P.m ≤ P.shapes.length * P.m := by
      have := Nat.mul_le_mul_right P.m (show P.size + tid + 1 ≤ P.shapes.length from hlt)
      rw [Nat.add_mul, Nat.one_mul] at this; exact this
    have hne : i ≠ P.size + tid := by omega
    -- copying
    obtain ⟨cs, e1, l1, v1, o1⟩ := storeLoop_ok (base := (P.size + tid) * P.m) (m := P.m) (l := P.centres)
      (f := fun l k => vget l (i * P.m + k)) (v := fun c => s.rot.mulVec (I.centres.getD c 0))
      (by rw [hP.clen]; exact hblock) (by
        intro c hc l' _ hl'
        apply vget_eq_of_getElem?
        rw [hl' _ (by rcases slot_disj hne hc with h | h <;> omega)]
        have := hslot.centre c (by rw [← hP.m_eq]; exact hc)
        rw [← hP.m_eq] at this; exact this)
    have ep : (P.putTemp tid i t).prepareTempCentres tid i = .ok { P.putTemp tid i t with centres := cs } := by
      rw [prepareTempCentres, hQs]
      simp only [hm]
      rw [show (P.putTemp tid i t).centres = P.centres from rfl, e1]; rfl
    -- rotating
    have hrot : ∃ cs', k.rotCentres { P.putTemp tid i t with centres := cs } tid =
        .ok { P.putTemp tid i t with centres := cs' } ∧ cs'.length = P.centres.length ∧
        (∀ c < P.m, cs'[(P.size + tid) * P.m + c]? = some (t.rot.mulVec (I.centres.getD c 0))) ∧
        (∀ j, j < (P.size + tid) * P.m ∨ (P.size + tid) * P.m + P.m ≤ j → cs'[j]? = P.centres[j]?) := by
      have rotR : ∀ R : Mat3, t.rot = R * s.rot → ∃ cs', rotateTempCentres { P.putTemp tid i t with centres := cs } tid R =
        .ok { P.putTemp tid i t with centres := cs' } ∧ cs'.length = P.centres.length ∧
        (∀ c < P.m, cs'[(P.size + tid) * P.m + c]? = some (t.rot.mulVec (I.centres.getD c 0))) ∧
        (∀ j, j < (P.size + tid) * P.m ∨ (P.size + tid) * P.m + P.m ≤ j → cs'[j]? = P.centres[j]?) := by
        intro R hR
        obtain ⟨cs', e2, l2, v2, o2⟩ := storeLoop_ok (base := (P.size + tid) * P.m) (m := P.m) (l := cs)
          (f := fun l k => do let v ← vget l ((P.size + tid) * P.m + k); return R.mulVec v)
          (v := fun c => t.rot.mulVec (I.centres.getD c 0))
          (by rw [l1, hP.clen]; exact hblock) (by
            intro c hc l' _ hl'
            rw [vget_eq_of_getElem? (a := s.rot.mulVec (I.centres.getD c 0)) (by rw [hl' _ (by omega)]; exact v1 c hc), hR,
              Mat3.mul_mulVec]
            rfl)
        refine ⟨cs', ?_, by rw [l2, l1], v2, fun j hj => by rw [o2 j hj, o1 j hj]⟩
        unfold rotateTempCentres
        have hsz : ({ P.putTemp tid i t with centres := cs } : Packing).size = P.size := hQs
        rw [hsz]
        simp only [hm]
        rw [e2]; rfl
      cases k with
      | translation v => exact ⟨cs, rfl, l1, v1, o1⟩
      | rotation R => exact rotR R rfl
      | move v R => exact rotR R rfl
    obtain ⟨cs', e2, l2, v2, o2⟩ := hrot
    obtain ⟨as, e3, l3, s3, o3⟩ := recalcAbs_ok (P := { P.putTemp tid i t with centres := cs' }) (I := I) (a := P.size + tid) (t := t)
      hP.m_eq (by
        change (P.size + tid) * P.m + P.m ≤ P.absCentres.length
        rw [hP.alen]; exact hblock) hsh v2
    refine ⟨{ P.putTemp tid i t with centres := cs', absCentres := as }, ?_, ?_⟩
    · rw [prepCentres, if_pos (show (P.putTemp tid i t).m ≠ 0 from h0), ep, Outcome.ok_bind, e2, Outcome.ok_bind]
      have hsz : ({ P.putTemp tid i t with centres := cs' } : Packing).size = P.size := hQs
      rw [hsz, e3]
    · have hsame := putTemp_same (P := P) (tid := tid) (i := i) (t := t)
      refine ⟨⟨rfl, rfl, rfl, rfl, rfl, rfl, rfl, rfl, rfl, hsame.slen, l2, l3, hsame.la, rfl, hsame.shapes, ?_, ?_⟩, la, s3, rfl, rfl,
        rfl, ola, oshapes, ?_⟩
      · intro j hj
        exact o2 j (Or.inl (lt_of_lt_of_le hj (Nat.mul_le_mul_right _ (by omega))))
      · intro j hj
        exact o3 j (Or.inl (lt_of_lt_of_le hj (Nat.mul_le_mul_right _ (by omega))))
      · intro a c ha hc
        exact ⟨o2 _ (slot_disj ha hc), o3 _ (slot_disj ha hc)⟩

/-! ### The energy change -/

/-- The reported change, from overlap counts and energies before and after. -/
noncomputable def moveChange (hard counting : Bool) (K0 K1 : Nat) (e0 e1 : ℝ) : EnergyChange :=
  if hard then
    if counting then
      if K1 < K0 then .negInf else if K0 < K1 then .posInf else .fin (e1 - e0)
    else if 0 < K1 then .posInf else .fin (e1 - e0)
  else .fin (e1 - e0)

/-- The stored differences of overlap counts after a trial. -/
def newDeltas (P : Packing) (I : Interaction) (tid K0 K1 : Nat) : List Int :=
  if I.hasHard && P.overlapCounting then P.lastDeltas.set tid ((K1 : Int) - K0) else P.lastDeltas

/-- The energy of a molecule (0 without soft interactions). -/
noncomputable def soft (P : Packing) (I : Interaction) (orig : Nat) (s : Shape) : ℝ :=
  if I.hasSoft then single P I I.energy orig s else 0

theorem deltas_qinv {P : Packing} {ds : List Int} (h : ds.length = P.lastDeltas.length) :
    SameMols P { P with lastDeltas := ds } :=
  ⟨rfl, rfl, rfl, rfl, rfl, rfl, rfl, rfl, rfl, rfl, rfl, rfl, rfl, h, fun _ _ => rfl, fun _ _ => rfl, fun _ _ => rfl⟩

theorem finishTry_ok {P : Packing} {I : Interaction} (hP : QInv P I) (hI : Contract I) {tid i temp : Nat} {s t : Shape}
    (htid : tid < P.moveThreads) (hi : i < P.size) (hs : SlotOk P I i s) (hsi : Inside P.box s.pos) (ht : SlotOk P I temp t)
    (hti : Inside P.box t.pos) : ∃ K0 K1 : Nat,
      (K0 : ℝ) = single P I (ind I) i s + wallNum P.box P.hasWall I s ∧
      (K1 : ℝ) = single P I (ind I) i t + wallNum P.box P.hasWall I t ∧
      P.finishTry I tid i temp = .ok ({ P with lastDeltas := P.newDeltas I tid K0 K1 },
        moveChange I.hasHard P.overlapCounting K0 K1 (P.soft I i s) (P.soft I i t)) := by
  obtain ⟨K0, h0, c0⟩ := countParticle_ok hP hI hs hsi i
  obtain ⟨K1, h1, c1⟩ := countParticle_ok hP hI ht hti i
  refine ⟨K0, K1, h0, h1, ?_⟩
  have fin : ∀ ds : List Int, ds.length = P.lastDeltas.length →
      (do
        let e0 ← particleEnergy { P with lastDeltas := ds } I i i
        let e1 ← particleEnergy { P with lastDeltas := ds } I i temp
        return (({ P with lastDeltas := ds } : Packing), EnergyChange.fin (e1 - e0))) =
      Outcome.ok ({ P with lastDeltas := ds }, EnergyChange.fin (P.soft I i t - P.soft I i s)) := by
    intro ds hd
    have same := deltas_qinv hd
    have hq := same.qinv hP
    have hslot : SlotOk { P with lastDeltas := ds } I i s := ⟨hs.shape, hs.centre, hs.abs⟩
    have tslot : SlotOk { P with lastDeltas := ds } I temp t := ⟨ht.shape, ht.centre, ht.abs⟩
    have hi' : i < ({ P with lastDeltas := ds } : Packing).size := hi
    rw [particleEnergy_ok hq hI hslot hsi hi', Outcome.ok_bind, particleEnergy_ok hq hI tslot hti hi', Outcome.ok_bind]
    rw [same.single, same.single]
    rfl
  unfold finishTry moveOverlapEnergy newDeltas moveChange
  by_cases hh : I.hasHard = true
  · by_cases hc : P.overlapCounting = true
    · obtain ⟨k0, e0, -, q0⟩ := c0 false
      obtain ⟨k1, e1, -, q1⟩ := c1 false
      have hb : (I.hasHard && P.overlapCounting) = true := by simp [hh, hc]
      rw [if_pos hh, if_pos hc, e0, Outcome.ok_bind, e1, Outcome.ok_bind, q0 rfl, q1 rfl, if_pos hb, if_pos hh, if_pos hc]
      simp only []
      rw [vset_ok (by rw [hP.core.ld]; exact htid), Outcome.ok_bind]
      by_cases hlt : K1 < K0
      · rw [if_pos (by omega), if_pos hlt]; rfl
      · rw [if_neg (by omega), if_neg hlt]
        by_cases hgt : K0 < K1
        · rw [if_pos (by omega), if_pos hgt]; rfl
        · rw [if_neg (by omega), if_neg hgt]
          exact fin _ List.length_set
    · obtain ⟨k1, e1, q1, -⟩ := c1 true
      have hb : ¬ (I.hasHard && P.overlapCounting) = true := by simp [hh, hc]
      rw [if_pos hh, if_neg hc, e1, Outcome.ok_bind, if_neg hb, if_pos hh, if_neg hc]
      by_cases hk : 0 < K1
      · rw [if_pos (q1.mpr hk), if_pos hk]; rfl
      · rw [if_neg (fun h => hk (q1.mp h)), if_neg hk]
        exact fin _ rfl
  · have hb : ¬ (I.hasHard && P.overlapCounting) = true := by simp [hh]
    rw [if_neg hh, if_neg hb, if_neg hh]
    exact fin _ rfl

/-! ### Trial moves -/

theorem Kind.apply_inside {b : Box} (hb : b.WF) {s : Shape} (hs : Inside b s.pos) (k : Kind) : Inside b (k.apply b s).pos := by
  cases k with
  | translation v => exact wrap_inside hb _
  | rotation R => exact hs
  | move v R => exact wrap_inside hb _

theorem domain_pass {d : Option (Vec3 ℝ → Bool)} {p : Vec3 ℝ} (h : ∀ f, d = some f → f p = true) : outOfDomain d p = false := by
  cases d with
  | none => rfl
  | some f => simp [outOfDomain, h f rfl]

theorem domain_fail {d : Option (Vec3 ℝ → Bool)} {p : Vec3 ℝ} (h : ¬ ∀ f, d = some f → f p = true) :
    outOfDomain d p = true := by
  cases d with
  | none => exact absurd (fun f hf => by cases hf) h
  | some f =>
    simp only [outOfDomain, Bool.not_eq_true']
    by_contra hc
    exact h (fun g hg => by cases hg; simpa using hc)

/-- Everything before the comparison of energies. -/
theorem tryKind_eq {P : Packing} {I : Interaction} (hP : QInv P I) {tid i : Nat} {s : Shape} {k : Kind}
    {domain : Option (Vec3 ℝ → Bool)} (ht : tid < P.moveThreads) (hi : i < P.size) (hs : P.shapes[i]? = some s)
    (hd : InDomain k domain (k.apply P.box s).pos) :
    P.tryKind I tid i k domain = (do
      let P ← (P.putTemp tid i (k.apply P.box s)).prepCentres tid i k
      P.finishTry I tid i (P.size + tid)) := by
  have hr : I.range ≤ P.range := by rw [hP.core.range_eq]
  have hb : ∀ t, (P.putTemp tid i t).box = P.box := fun _ => rfl
  cases k with
  | translation v =>
    simp only [tryKind]
    rw [tryTranslation, require_true'' hi, Outcome.ok_bind, require_true'' hr, Outcome.ok_bind, startTry_ok hP.core ht hs,
      Outcome.ok_bind]
    simp only [setTemp_ok hP.core ht, Outcome.ok_bind, hb]
    have hd' : ∀ f, domain = some f → f (s.translate P.box v).pos = true := hd
    rw [domain_pass hd', if_neg (by simp)]
    rfl
  | rotation R =>
    simp only [tryKind]
    rw [tryRotation, require_true'' hi, Outcome.ok_bind, require_true'' hr, Outcome.ok_bind, startTry_ok hP.core ht hs,
      Outcome.ok_bind]
    simp only [setTemp_ok hP.core ht, Outcome.ok_bind]
    rfl
  | move v R =>
    simp only [tryKind]
    rw [tryMove, require_true'' hi, Outcome.ok_bind, require_true'' hr, Outcome.ok_bind, startTry_ok hP.core ht hs,
      Outcome.ok_bind]
    simp only [setTemp_ok hP.core ht, Outcome.ok_bind, hb]
    have hd' : ∀ f, domain = some f → f (s.translate P.box v).pos = true := hd
    rw [domain_pass hd', if_neg (by simp)]
    rfl

theorem try_ok {P : Packing} {I : Interaction} (hP : QInv P I) (hI : Contract I) {tid i : Nat} {s : Shape} {k : Kind}
    {domain : Option (Vec3 ℝ → Bool)} (ht : tid < P.moveThreads) (hi : i < P.size) (hs : P.shapes[i]? = some s)
    (hd : InDomain k domain (k.apply P.box s).pos) : ∃ P1 K0 K1, Prepared P P1 I tid i (k.apply P.box s) ∧
      ((K0 : Nat) : ℝ) = single P I (ind I) i s + wallNum P.box P.hasWall I s ∧
      ((K1 : Nat) : ℝ) = single P I (ind I) i (k.apply P.box s) + wallNum P.box P.hasWall I (k.apply P.box s) ∧
      P.tryKind I tid i k domain = .ok ({ P1 with lastDeltas := P.newDeltas I tid K0 K1 },
        moveChange I.hasHard P.overlapCounting K0 K1 (P.soft I i s) (P.soft I i (k.apply P.box s))) := by
  obtain ⟨P1, e1, hp⟩ := prepCentres_ok hP.core (k := k) ht hi hs
  have same := hp.same
  have hsi := hP.core.inside i s hi hs
  obtain ⟨K0, K1, h0, h1, e2⟩ := finishTry_ok (P := P1) (tid := tid) (same.qinv hP) hI (by rw [same.moveThreads]; exact ht)
    (by rw [same.size]; exact hi) (same.slot hP.core.m_eq hi (hP.core.slots i s hi hs)) (by rw [same.box]; exact hsi)
    (temp := P.size + tid) hp.slot (by rw [same.box]; exact Kind.apply_inside hP.core.box hsi k)
  refine ⟨P1, K0, K1, hp, by rw [h0, same.single, same.box, same.hasWall], by rw [h1, same.single, same.box, same.hasWall], ?_⟩
  rw [tryKind_eq hP ht hi hs hd, e1, Outcome.ok_bind, same.size, e2]
  simp only [newDeltas, soft, same.overlapCounting, hp.deltas, same.single]

/-- The shape left in the temporary slot by a trial which leaves the domain. -/
noncomputable def Kind.leftover (b : Box) (s : Shape) : Kind → Shape
  | .translation v => s.translate b v
  | .rotation R => s.rotate R
  | .move v _ => s.translate b v

theorem try_out {P : Packing} {I : Interaction} (hP : QInv P I) {tid i : Nat} {s : Shape} {k : Kind}
    {domain : Option (Vec3 ℝ → Bool)} (ht : tid < P.moveThreads) (hi : i < P.size) (hs : P.shapes[i]? = some s)
    (hd : ¬ InDomain k domain (k.apply P.box s).pos) :
    P.tryKind I tid i k domain = .ok (P.putTemp tid i (k.leftover P.box s), .posInf) := by
  have hr : I.range ≤ P.range := by rw [hP.core.range_eq]
  have hb : ∀ t, (P.putTemp tid i t).box = P.box := fun _ => rfl
  cases k with
  | translation v =>
    simp only [tryKind]
    rw [tryTranslation, require_true'' hi, Outcome.ok_bind, require_true'' hr, Outcome.ok_bind, startTry_ok hP.core ht hs,
      Outcome.ok_bind]
    simp only [setTemp_ok hP.core ht, Outcome.ok_bind, hb]
    have hd' : ¬ ∀ f, domain = some f → f (s.translate P.box v).pos = true := hd
    rw [domain_fail hd', if_pos rfl]
    rfl
  | rotation R => exact absurd trivial hd
  | move v R =>
    simp only [tryKind]
    rw [tryMove, require_true'' hi, Outcome.ok_bind, require_true'' hr, Outcome.ok_bind, startTry_ok hP.core ht hs,
      Outcome.ok_bind]
    simp only [setTemp_ok hP.core ht, Outcome.ok_bind, hb]
    have hd' : ¬ ∀ f, domain = some f → f (s.translate P.box v).pos = true := hd
    rw [domain_fail hd', if_pos rfl]
    rfl

end Rampack.Packing
