import Verif.Packing.ObsLemmas
import Verif.Packing.History
/-
Helper lemmas: trial moves and their acceptance.
-/
namespace Rampack.Packing

open Rampack.Spec Rampack.Grid

theorem storeLoop_ok {α : Type} {base m : Nat} {f : List α → Nat → Outcome α} {v : Nat → α} {l : List α}
    (hlen : base + m ≤ l.length)
    (hf : ∀ c < m, ∀ l' : List α, l'.length = l.length → (∀ j, j < base ∨ base + c ≤ j → l'[j]? = l[j]?) → f l' c = .ok (v c)) :
    ∃ l', storeLoop base m f l = .ok l' ∧ l'.length = l.length ∧ (∀ c < m, l'[base + c]? = some (v c)) ∧
      (∀ j, j < base ∨ base + m ≤ j → l'[j]? = l[j]?) := by
  induction m with
  | zero => exact ⟨l, rfl, rfl, by simp, fun _ _ => rfl⟩
  | succ m ih =>
    obtain ⟨l', e, h1, h2, h3⟩ := ih (by omega) (fun c hc => hf c (by omega))
    have e' : f l' m = .ok (v m) := hf m (by omega) l' h1 h3
    refine ⟨l'.set (base + m) (v m), ?_, by simp [h1], ?_, ?_⟩
    · unfold storeLoop at e ⊢
      rw [List.range_succ, List.foldlM_append, e, Outcome.ok_bind, List.foldlM_cons, e', Outcome.ok_bind,
        vset_ok (by omega), Outcome.ok_bind]
      rfl
    · intro c hc
      rw [List.getElem?_set]
      by_cases h : base + m = base + c
      · rw [if_pos h, if_pos (by omega)]
        have : m = c := by omega
        rw [this]
      · rw [if_neg h]; exact h2 c (by omega)
    · intro j hj
      rw [List.getElem?_set, if_neg (by omega)]
      exact h3 j (by omega)

/-- Nothing observable has changed: only temporary storage may differ. -/
structure SameMols (P P' : Packing) : Prop where
  box : P'.box = P.box
  ng : P'.ng = P.ng
  tempNg : P'.tempNg = P.tempNg
  range : P'.range = P.range
  m : P'.m = P.m
  moveThreads : P'.moveThreads = P.moveThreads
  hasWall : P'.hasWall = P.hasWall
  overlapCounting : P'.overlapCounting = P.overlapCounting
  numOverlaps : P'.numOverlaps = P.numOverlaps
  slen : P'.shapes.length = P.shapes.length
  clen : P'.centres.length = P.centres.length
  alen : P'.absCentres.length = P.absCentres.length
  la : P'.lastAltered.length = P.lastAltered.length
  ld : P'.lastDeltas.length = P.lastDeltas.length
  shapes : ∀ i < P.size, P'.shapes[i]? = P.shapes[i]?
  centres : ∀ k < P.size * P.m, P'.centres[k]? = P.centres[k]?
  abs : ∀ k < P.size * P.m, P'.absCentres[k]? = P.absCentres[k]?

theorem SameMols.refl (P : Packing) : SameMols P P := by constructor <;> simp

theorem SameMols.size {P P' : Packing} (h : SameMols P P') : P'.size = P.size := by
  unfold Packing.size; rw [h.slen, h.moveThreads]

theorem SameMols.trans {P P' P'' : Packing} (h : SameMols P P') (h' : SameMols P' P'') : SameMols P P'' where
  box := h'.box.trans h.box
  ng := h'.ng.trans h.ng
  tempNg := h'.tempNg.trans h.tempNg
  range := h'.range.trans h.range
  m := h'.m.trans h.m
  moveThreads := h'.moveThreads.trans h.moveThreads
  hasWall := h'.hasWall.trans h.hasWall
  overlapCounting := h'.overlapCounting.trans h.overlapCounting
  numOverlaps := h'.numOverlaps.trans h.numOverlaps
  slen := h'.slen.trans h.slen
  clen := h'.clen.trans h.clen
  alen := h'.alen.trans h.alen
  la := h'.la.trans h.la
  ld := h'.ld.trans h.ld
  shapes := fun i hi => (h'.shapes i (by rw [h.size]; exact hi)).trans (h.shapes i hi)
  centres := fun i hi => (h'.centres i (by rw [h.size, h.m]; exact hi)).trans (h.centres i hi)
  abs := fun i hi => (h'.abs i (by rw [h.size, h.m]; exact hi)).trans (h.abs i hi)

theorem SameMols.owner {P P' : Packing} (h : SameMols P P') (k : Nat) : P'.owner k = P.owner k := by
  unfold Packing.owner; rw [h.m]

theorem lt_mul_of_owner {P : Packing} {k : Nat} (hm : P.m ≠ 0) (h : P.owner k < P.size) : k < P.size * P.m := by
  unfold owner at h
  rw [if_neg hm] at h
  exact (Nat.div_lt_iff_lt_mul (Nat.pos_of_ne_zero hm)).mp h

theorem SameMols.site {P P' : Packing} (h : SameMols P P') {k : Nat} (hk : P.owner k < P.size) : P'.site k = P.site k := by
  unfold Packing.site
  rw [h.m]
  by_cases h0 : P.m = 0
  · rw [if_pos h0, if_pos h0]
    have : k < P.size := by unfold Packing.owner at hk; rwa [if_pos h0] at hk
    unfold vget
    rw [h.shapes k this]
  · rw [if_neg h0, if_neg h0]
    have h1 := lt_mul_of_owner h0 hk
    have h2 : k / P.m < P.size := by unfold Packing.owner at hk; rwa [if_neg h0] at hk
    unfold vget
    rw [h.shapes _ h2, h.abs _ h1]

theorem SameMols.siteFn {P P' : Packing} (h : SameMols P P') {k : Nat} (hk : P.owner k < P.size) :
    P'.siteFn k = P.siteFn k := by
  unfold Packing.siteFn; rw [h.site hk]

theorem SameMols.posAt {P P' : Packing} (h : SameMols P P') : P'.posAt = P.posAt := by
  funext k
  unfold Packing.posAt
  rw [h.owner, h.size]
  by_cases hk : P.owner k < P.size
  · rw [if_pos hk, if_pos hk, h.siteFn hk]
  · rw [if_neg hk, if_neg hk]

theorem idx_lt {a c n m : Nat} (ha : a < n) (hc : c < m) : a * m + c < n * m := by
  calc a * m + c < a * m + m := by omega
    _ = (a + 1) * m := by ring
    _ ≤ n * m := Nat.mul_le_mul_right _ ha

theorem SameMols.slot {P P' : Packing} {I : Interaction} (h : SameMols P P') (hm : P.m = I.centres.length) {a : Nat} {s : Shape}
    (ha : a < P.size) (hs : SlotOk P I a s) : SlotOk P' I a s := by
  refine ⟨by rw [h.shapes a ha]; exact hs.shape, ?_, ?_⟩
  · intro c hc
    rw [h.centres _ (by rw [hm]; exact idx_lt ha hc)]
    exact hs.centre c hc
  · intro c hc
    rw [h.abs _ (by rw [hm]; exact idx_lt ha hc), h.box]
    exact hs.abs c hc

theorem SameMols.core {P P' : Packing} {I : Interaction} (h : SameMols P P') (hP : Core P I) : Core P' I where
  m_eq := h.m.trans hP.m_eq
  range_eq := h.range.trans hP.range_eq
  threads := by rw [h.moveThreads, h.slen]; exact hP.threads
  box := by rw [h.box]; exact hP.box
  inside := fun i s hi hs => by
    rw [h.size] at hi
    rw [h.shapes i hi] at hs
    rw [h.box]; exact hP.inside i s hi hs
  slots := fun i s hi hs => by
    rw [h.size] at hi
    rw [h.shapes i hi] at hs
    exact h.slot hP.m_eq hi (hP.slots i s hi hs)
  clen := by rw [h.clen, h.slen, h.m]; exact hP.clen
  alen := by rw [h.alen, h.slen, h.m]; exact hP.alen
  la := by rw [h.la, h.moveThreads]; exact hP.la
  ld := by rw [h.ld, h.moveThreads]; exact hP.ld

theorem SameMols.gridOk {P P' : Packing} (h : SameMols P P') {g : NG} (hg : GridOk P g) : GridOk P' g := by
  unfold GridOk at *
  rw [cellSize_congr h.box h.size h.range, h.box, h.posAt, h.range]; exact hg

theorem SameMols.qinv {P P' : Packing} {I : Interaction} (h : SameMols P P') (hP : QInv P I) : QInv P' I :=
  ⟨h.core hP.core, fun g hg => h.gridOk (hP.grid g (by rw [← h.ng]; exact hg))⟩

theorem SameMols.shapeFn {P P' : Packing} (h : SameMols P P') {i : Nat} (hi : i < P.size) : P'.shapeFn i = P.shapeFn i := by
  unfold Packing.shapeFn
  rw [List.getD_eq_getElem?_getD, List.getD_eq_getElem?_getD, h.shapes i hi]

theorem SameMols.single {P P' : Packing} (h : SameMols P P') (I : Interaction) (φ : Site → Site → BC → ℝ) (orig : Nat)
    (s : Shape) : single P' I φ orig s = single P I φ orig s := by
  unfold Packing.single molW
  rw [h.size, h.box, h.ng]
  apply sum_congr'
  intro j hj
  rw [List.mem_filter, List.mem_range] at hj
  rw [h.shapeFn hj.1]

theorem SameMols.double {P P' : Packing} (h : SameMols P P') (I : Interaction) (φ : Site → Site → BC → ℝ) :
    double P' I φ = double P I φ := by
  unfold Packing.double
  rw [h.size]
  apply sum_congr'
  intro i hi
  rw [h.single, h.shapeFn (List.mem_range.mp hi)]

/-! ### Trial moves -/

/-- The storage of a slot after a trial with the interaction centres rotated by `R` (identity: not rotated). -/
structure Prepared (P P' : Packing) (I : Interaction) (tid i : Nat) (s : Shape) : Prop where
  same : SameMols P P'
  altered : P'.lastAltered[tid]? = some i
  slot : SlotOk P' I (P.size + tid) s
  deltas : P'.lastDeltas = P.lastDeltas
  lastBox : P'.lastBox = P.lastBox
  lastShapes : P'.lastShapes = P.lastShapes
  others : ∀ t, t ≠ tid → P'.lastAltered[t]? = P.lastAltered[t]?
  otherShapes : ∀ a, a ≠ P.size + tid → P'.shapes[a]? = P.shapes[a]?
  otherCentres : ∀ a c, a ≠ P.size + tid → c < P.m → P'.centres[a * P.m + c]? = P.centres[a * P.m + c]? ∧
    P'.absCentres[a * P.m + c]? = P.absCentres[a * P.m + c]?

theorem slot_disj {a b c m : Nat} (h : a ≠ b) (hc : c < m) : a * m + c < b * m ∨ b * m + m ≤ a * m + c := by
  rcases Nat.lt_or_ge a b with h1 | h1
  · left
    calc a * m + c < a * m + m := by omega
      _ = (a + 1) * m := by ring
      _ ≤ b * m := Nat.mul_le_mul_right _ h1
  · right
    have h2 : b + 1 ≤ a := by omega
    calc b * m + m = (b + 1) * m := by ring
      _ ≤ a * m := Nat.mul_le_mul_right _ h2
      _ ≤ a * m + c := by omega

theorem size_add_lt {P : Packing} {I : Interaction} (hP : Core P I) {tid : Nat} (ht : tid < P.moveThreads) :
    P.size + tid < P.shapes.length := by
  have := hP.threads; unfold size; omega

end Rampack.Packing
