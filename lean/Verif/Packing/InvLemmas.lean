import Verif.Packing.RebuildLemmas
/-
Helper lemmas: the invariant of packings and what each operation does to it.
-/
namespace Rampack.Packing

open Rampack.Spec Rampack.Grid

/-- The total number of overlaps as a function of the shapes. -/
noncomputable def numTotal (P : Packing) (I : Interaction) : ℝ :=
  double P I (ind I) / 2 + (((List.range P.size).map fun i => wallNum P.box P.hasWall I (P.shapeFn i)).sum : ℕ)

/-- The total energy as a function of the shapes. -/
noncomputable def softTotal (P : Packing) (I : Interaction) : ℝ := if I.hasSoft then double P I I.energy / 2 else 0

structure PInv (P : Packing) (I : Interaction) : Prop where
  q : QInv P I
  size_pos : 0 < P.size
  bound : P.cap < 2 ^ 50
  ngCap : ∀ g, P.ng = some g → P.cap ≤ g.succ.length
  tmp : ∀ g, P.tempNg = some g → GridHas P g
  cached : P.overlapCounting = true → (P.numOverlaps : ℝ) = numTotal P I
  noHard : I.hasHard = false → ∀ d ∈ P.lastDeltas, d = 0
  used : P.ng.isSome = true ↔ P.UsesGrid

theorem count_numTotal {P : Packing} {I : Interaction} (hP : QInv P I) (hI : Contract I) :
    ∃ K : Nat, (K : ℝ) = numTotal P I ∧ ∀ e, ∃ k, P.countTotalOverlaps I e = .ok k ∧ (0 < k ↔ 0 < K) ∧ (e = false → k = K) := by
  obtain ⟨K, hK, h⟩ := countTotal_ok hP hI
  exact ⟨K, by unfold numTotal; linarith, h⟩

theorem wallNum_noHard {I : Interaction} (hI : Contract I) (h : I.hasHard = false) (b : Box) (hw : Vec3 Bool) (s : Shape) :
    wallNum b hw I s = 0 := by
  have key : ∀ has u v, true ∉ wallAxis b I s has u v := by
    intro has u v hm
    unfold wallAxis at hm
    simp only [hI.noHard_wall h] at hm
    split_ifs at hm <;> simp at hm
  unfold wallNum
  rw [List.count_eq_zero]
  simp only [List.mem_append, not_or]
  exact ⟨⟨key _ _ _, key _ _ _⟩, key _ _ _⟩

theorem ind_noHard {I : Interaction} (hI : Contract I) (h : I.hasHard = false) (s1 s2 : Site) (bc : BC) : ind I s1 s2 bc = 0 := by
  simp [ind, hI.noHard_overlap h]

theorem sum_zero {α : Type} {l : List α} {f : α → ℝ} (h : ∀ a ∈ l, f a = 0) : (l.map f).sum = 0 := by
  rw [sum_congr' h]; simp

theorem numTotal_nonneg {P : Packing} {I : Interaction} (hP : QInv P I) (hI : Contract I) : 0 ≤ numTotal P I := by
  obtain ⟨K, hK, -⟩ := count_numTotal hP hI
  rw [← hK]; positivity

theorem numTotal_noHard {P : Packing} {I : Interaction} (hP : QInv P I) (hI : Contract I) (h : I.hasHard = false) :
    numTotal P I = 0 := by
  have hd : double P I (ind I) = 0 := by
    have hchk : ∀ l : List Check, (l.map (P.val (ind I))).sum = 0 := fun l => sum_zero fun c _ => by
      simp only [val]; exact ind_noHard hI h _ _ _
    cases e : P.ng with
    | none =>
      obtain ⟨-, h2⟩ := totalNoNG_sum hP.core e (ind_symm hI)
      rw [← h2, hchk]; simp
    | some g =>
      obtain ⟨L, h1, h2⟩ := totalNG_sum hP.core hI.range_pos (hP.grid g e) e
      rw [← h2 _ (ind_inRange hI) (ind_symm hI)]
      simp [hchk]
  unfold numTotal
  rw [hd]
  simp only [wallNum_noHard hI h]
  simp

/-! ### Trial moves -/

theorem SameMols.cap {P P' : Packing} (h : SameMols P P') : P'.cap = P.cap := by
  unfold Packing.cap; rw [h.size, h.m]

theorem SameMols.numTotal {P P' : Packing} (h : SameMols P P') (I : Interaction) : numTotal P' I = numTotal P I := by
  unfold Packing.numTotal
  rw [h.double, h.size, h.box, h.hasWall]
  congr 3
  apply List.map_congr_left
  intro i hi
  rw [h.shapeFn (List.mem_range.mp hi)]

theorem SameMols.softTotal {P P' : Packing} (h : SameMols P P') (I : Interaction) : softTotal P' I = softTotal P I := by
  unfold Packing.softTotal; rw [h.double]

theorem gridHas_congr {P P' : Packing} (h : P'.cap = P.cap) {g : NG} (hg : GridHas P g) : GridHas P' g := by
  unfold GridHas at *; rw [h]; exact hg

theorem SameMols.pinv {P P' : Packing} {I : Interaction} (h : SameMols P P') (hP : PInv P I)
    (hd : I.hasHard = false → P'.lastDeltas = P.lastDeltas) : PInv P' I where
  q := h.qinv hP.q
  size_pos := by rw [h.size]; exact hP.size_pos
  bound := by rw [h.cap]; exact hP.bound
  ngCap := fun g hg => by rw [h.cap]; rw [h.ng] at hg; exact hP.ngCap g hg
  tmp := fun g hg => by rw [h.tempNg] at hg; exact gridHas_congr h.cap (hP.tmp g hg)
  cached := fun hc => by rw [h.numOverlaps, h.numTotal]; rw [h.overlapCounting] at hc; exact hP.cached hc
  noHard := fun hh => by rw [hd hh]; exact hP.noHard hh
  used := by rw [h.ng, usesGrid_congr h.box h.size h.range]; exact hP.used

theorem newDeltas_length (P : Packing) (I : Interaction) (tid K0 K1 : Nat) :
    (P.newDeltas I tid K0 K1).length = P.lastDeltas.length := by
  unfold newDeltas; split <;> simp

theorem newDeltas_noHard (P : Packing) (I : Interaction) (tid K0 K1 : Nat) (h : I.hasHard = false) :
    P.newDeltas I tid K0 K1 = P.lastDeltas := by
  unfold newDeltas; simp [h]

theorem shape_some {P : Packing} {i : Nat} (hi : i < P.size) : P.shapes[i]? = some (P.shapeFn i) := by
  have : i < P.shapes.length := by unfold size at hi; omega
  unfold shapeFn
  rw [List.getD_eq_getElem?_getD, List.getElem?_eq_getElem this]; rfl

/-- A trial in the domain: only temporary storage changes, and everything is ready for acceptance. -/
theorem trial_in {P : Packing} {I : Interaction} (hP : PInv P I) (hI : Contract I) {tid i : Nat} {k : Kind}
    {domain : Option (Vec3 ℝ → Bool)} (ht : tid < P.moveThreads) (hi : i < P.size)
    (hd : InDomain k domain (k.apply P.box (P.shapeFn i)).pos) : ∃ P1 K0 K1,
      P.tryKind I tid i k domain = .ok (P1, moveChange I.hasHard P.overlapCounting K0 K1 (P.soft I i (P.shapeFn i))
        (P.soft I i (k.apply P.box (P.shapeFn i)))) ∧
      SameMols P P1 ∧ PInv P1 I ∧ P1.lastAltered[tid]? = some i ∧ SlotOk P1 I (P1.size + tid) (k.apply P.box (P.shapeFn i)) ∧
      P1.lastDeltas = P.newDeltas I tid K0 K1 ∧
      ((K0 : Nat) : ℝ) = single P I (ind I) i (P.shapeFn i) + wallNum P.box P.hasWall I (P.shapeFn i) ∧
      ((K1 : Nat) : ℝ) = single P I (ind I) i (k.apply P.box (P.shapeFn i)) + wallNum P.box P.hasWall I (k.apply P.box (P.shapeFn i)) := by
  obtain ⟨P1, K0, K1, hp, h0, h1, e⟩ := try_ok hP.q hI ht hi (shape_some hi) hd
  have hl : (P.newDeltas I tid K0 K1).length = P1.lastDeltas.length := by rw [newDeltas_length, hp.deltas]
  have same : SameMols P { P1 with lastDeltas := P.newDeltas I tid K0 K1 } := hp.same.trans (deltas_qinv hl)
  refine ⟨_, K0, K1, e, same, same.pinv hP (fun h => newDeltas_noHard _ _ _ _ _ h), hp.altered, ?_, rfl, h0, h1⟩
  rw [same.size]
  exact ⟨hp.slot.shape, hp.slot.centre, hp.slot.abs⟩

theorem trial_out {P : Packing} {I : Interaction} (hP : PInv P I) {tid i : Nat} {k : Kind}
    {domain : Option (Vec3 ℝ → Bool)} (ht : tid < P.moveThreads) (hi : i < P.size)
    (hd : ¬ InDomain k domain (k.apply P.box (P.shapeFn i)).pos) : ∃ P1, P.tryKind I tid i k domain = .ok (P1, .posInf) ∧
      SameMols P P1 ∧ PInv P1 I := by
  refine ⟨_, try_out hP.q ht hi (shape_some hi) hd, putTemp_same, putTemp_same.pinv hP (fun _ => rfl)⟩

/-- Any trial. -/
theorem trial_any {P : Packing} {I : Interaction} (hP : PInv P I) (hI : Contract I) {tid i : Nat} {k : Kind}
    {domain : Option (Vec3 ℝ → Bool)} (ht : tid < P.moveThreads) (hi : i < P.size) : ∃ P1 e,
      P.tryKind I tid i k domain = .ok (P1, e) ∧ SameMols P P1 ∧ PInv P1 I := by
  by_cases hd : InDomain k domain (k.apply P.box (P.shapeFn i)).pos
  · obtain ⟨P1, K0, K1, e, h1, h2, -⟩ := trial_in hP hI ht hi hd
    exact ⟨P1, _, e, h1, h2⟩
  · obtain ⟨P1, e, h1, h2⟩ := trial_out hP ht hi hd
    exact ⟨P1, _, e, h1, h2⟩

/-! ### Acceptance -/

theorem isSome_of_map {P P' : Packing} (h : P'.ng.map (fun g => g.succ.length) = P.ng.map (fun g => g.succ.length)) :
    P'.ng.isSome = P.ng.isSome := by
  cases e : P.ng <;> cases e' : P'.ng <;> simp_all

theorem Replaced.numTotal {P P' : Packing} {I : Interaction} {i : Nat} {s t : Shape} (h : Replaced P P' I i t) (hP : Core P I)
    (hI : Contract I) (hi : i < P.size) (hs : P.shapes[i]? = some s) (hn : P'.ng.isSome = P.ng.isSome) :
    Packing.numTotal P' I = Packing.numTotal P I +
      ((single P I (ind I) i t + wallNum P.box P.hasWall I t) - (single P I (ind I) i s + wallNum P.box P.hasWall I s)) := by
  have h1 := h.double hP hi hs hn (ind_symm hI)
  have h2 := h.walls hi hs (wallNum P.box P.hasWall I)
  have h3 : ((((List.range P'.size).map fun j => wallNum P.box P.hasWall I (P'.shapeFn j)).sum : ℕ) : ℝ) + wallNum P.box P.hasWall I s =
      (((List.range P.size).map fun j => wallNum P.box P.hasWall I (P.shapeFn j)).sum : ℕ) + wallNum P.box P.hasWall I t := by
    exact_mod_cast h2
  unfold Packing.numTotal
  rw [h.box, h.hasWall]
  linarith

theorem Replaced.softTotal {P P' : Packing} {I : Interaction} {i : Nat} {s t : Shape} (h : Replaced P P' I i t) (hP : Core P I)
    (hI : Contract I) (hi : i < P.size) (hs : P.shapes[i]? = some s) (hn : P'.ng.isSome = P.ng.isSome) :
    Packing.softTotal P' I = Packing.softTotal P I + (P.soft I i t - P.soft I i s) := by
  have h1 := h.double hP hi hs hn (energy_symm hI)
  unfold Packing.softTotal soft
  split <;> linarith

theorem Replaced.cap {P P' : Packing} {I : Interaction} {i : Nat} {t : Shape} (h : Replaced P P' I i t) : P'.cap = P.cap := by
  unfold Packing.cap; rw [h.size, h.m]

/-- Acceptance of a prepared slot. `d` is the difference of the numbers of overlaps of the molecule. -/
theorem accept_pinv {P : Packing} {I : Interaction} (hP : PInv P I) (hI : Contract I) {tid i : Nat} {t : Shape} {how : How}
    (ht : tid < P.moveThreads) (hi : i < P.size) (hla : P.lastAltered[tid]? = some i)
    (ht' : SlotOk P I (P.size + tid) t) (hin : Inside P.box t.pos) (hfit : how.Fits (P.shapeFn i) t)
    (hd : I.hasHard = true → P.overlapCounting = true → (P.lastDeltas.getD tid 0 : ℝ) =
      (single P I (ind I) i t + wallNum P.box P.hasWall I t) -
        (single P I (ind I) i (P.shapeFn i) + wallNum P.box P.hasWall I (P.shapeFn i))) :
    ∃ P', P.acceptHow tid how = .ok P' ∧ PInv P' I ∧ Replaced P P' I i t ∧ P'.ng.isSome = P.ng.isSome := by
  obtain ⟨P', e, rep, hq, hnum, hng⟩ := accept_ok hP.q ht hi hla (shape_some hi) ht' hin hfit
  have hsome := isSome_of_map hng
  refine ⟨P', e, ⟨hq, by rw [rep.size]; exact hP.size_pos, by rw [rep.cap]; exact hP.bound, ?_, ?_, ?_, ?_,
    (by rw [hsome, usesGrid_congr rep.box rep.size rep.range]; exact hP.used)⟩, rep, hsome⟩
  · intro g hg
    rw [rep.cap]
    rw [hg] at hng
    cases e' : P.ng with
    | none => rw [e'] at hng; simp at hng
    | some g0 =>
      rw [e'] at hng
      simp only [Option.map_some, Option.some.injEq] at hng
      rw [hng]; exact hP.ngCap g0 e'
  · intro g hg
    rw [rep.tempNg] at hg
    exact gridHas_congr rep.cap (hP.tmp g hg)
  · intro hc
    rw [rep.overlapCounting] at hc
    by_cases hh : I.hasHard = true
    · rw [hnum, rep.numTotal hP.q.core hI hi (shape_some hi) hsome, ← hd hh hc, ← hP.cached hc]
      simp only [withDelta, if_pos hc]
      push_cast; rfl
    · simp only [Bool.not_eq_true] at hh
      rw [numTotal_noHard hq hI hh, hnum]
      have h0 := hP.cached hc
      rw [numTotal_noHard hP.q hI hh] at h0
      simp only [withDelta, if_pos hc]
      have : P.lastDeltas.getD tid 0 = 0 := by
        rw [List.getD_eq_getElem?_getD]
        cases e' : P.lastDeltas[tid]? with
        | none => rfl
        | some d => exact hP.noHard hh d (List.mem_of_getElem? e')
      push_cast
      rw [h0, this]; simp
  · intro hh
    rw [rep.ld]; exact hP.noHard hh

/-- A trial followed by acceptance. -/
theorem move_pinv {P : Packing} {I : Interaction} (hP : PInv P I) (hI : Contract I) {tid i : Nat} {k : Kind} {how : How}
    {domain : Option (Vec3 ℝ → Bool)} (ht : tid < P.moveThreads) (hi : i < P.size)
    (hd : InDomain k domain (k.apply P.box (P.shapeFn i)).pos)
    (hfit : how.Fits (P.shapeFn i) (k.apply P.box (P.shapeFn i))) : ∃ P1 P2 K0 K1,
      P.tryKind I tid i k domain = .ok (P1, moveChange I.hasHard P.overlapCounting K0 K1 (P.soft I i (P.shapeFn i))
        (P.soft I i (k.apply P.box (P.shapeFn i)))) ∧
      P1.acceptHow tid how = .ok P2 ∧ PInv P1 I ∧ PInv P2 I ∧ SameMols P P1 ∧ Replaced P1 P2 I i (k.apply P.box (P.shapeFn i)) ∧
      P2.ng.isSome = P.ng.isSome ∧
      numTotal P2 I = numTotal P I + ((K1 : ℕ) - (K0 : ℕ) : ℝ) ∧
      softTotal P2 I = softTotal P I + (P.soft I i (k.apply P.box (P.shapeFn i)) - P.soft I i (P.shapeFn i)) ∧
      ((K0 : Nat) : ℝ) = single P I (ind I) i (P.shapeFn i) + wallNum P.box P.hasWall I (P.shapeFn i) ∧
      ((K1 : Nat) : ℝ) = single P I (ind I) i (k.apply P.box (P.shapeFn i)) + wallNum P.box P.hasWall I (k.apply P.box (P.shapeFn i)) := by
  obtain ⟨P1, K0, K1, e, same, h1, hla, hslot, hld, q0, q1⟩ := trial_in hP hI ht hi hd
  have hs1 : P1.shapeFn i = P.shapeFn i := same.shapeFn hi
  obtain ⟨P2, e2, h2, rep, hsome⟩ := accept_pinv h1 hI (how := how) (by rw [same.moveThreads]; exact ht)
    (by rw [same.size]; exact hi) hla hslot (by rw [same.box]; exact Kind.apply_inside hP.q.core.box (hP.q.core.shapeFn hi).2 k)
    (by rw [hs1]; exact hfit) (by
      intro hh hc
      rw [same.overlapCounting] at hc
      rw [hs1, same.single, same.single, same.box, same.hasWall, ← q0, ← q1, hld]
      have hb : (I.hasHard && P.overlapCounting) = true := by simp [hh, hc]
      unfold newDeltas
      rw [if_pos hb, List.getD_eq_getElem?_getD, List.getElem?_set, if_pos rfl, if_pos (by rw [hP.q.core.ld]; exact ht)]
      simp)
  have hi1 : i < P1.size := by rw [same.size]; exact hi
  refine ⟨P1, P2, K0, K1, e, e2, h1, h2, same, rep, by rw [hsome, same.ng], ?_, ?_, q0, q1⟩
  · rw [rep.numTotal h1.q.core hI hi1 (shape_some hi1) hsome, hs1, same.single, same.single, same.box, same.hasWall, ← q0, ← q1,
      same.numTotal]
  · rw [rep.softTotal h1.q.core hI hi1 (shape_some hi1) hsome, hs1, same.softTotal]
    simp only [soft, same.single]

end Rampack.Packing
