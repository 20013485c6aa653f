import Verif.Packing.TryLemmas
/-
Helper lemmas: acceptance of trial moves.
-/
namespace Rampack.Packing

open Rampack.Spec Rampack.Grid

theorem vget_inv {α : Type} {xs : List α} {i : Nat} {a : α} (h : vget xs i = .ok a) : xs[i]? = some a := by
  unfold vget at h
  cases e : xs[i]? with
  | none => rw [e] at h; cases h
  | some b => rw [e] at h; cases h; rfl

theorem position_ok {P : Packing} {k : Nat} (h : SiteOk P k) : P.position k = .ok (P.siteFn k).pos := by
  unfold SiteOk at h
  unfold position
  by_cases h0 : P.m = 0
  · rw [if_pos h0]
    have h' := h
    rw [site, if_pos h0] at h
    cases e : vget P.shapes k with
    | ok s =>
      rw [e, Outcome.ok_bind] at h
      simp only [Outcome.pure_eq, Outcome.ok.injEq] at h
      rw [← h]; rfl
    | throw m => rw [e] at h; cases h
    | ub => rw [e] at h; cases h
    | diverge => rw [e] at h; cases h
  · rw [if_neg h0]
    rw [site, if_neg h0] at h
    cases e : vget P.absCentres k with
    | ok a =>
      rw [e, Outcome.ok_bind] at h
      cases e2 : vget P.shapes (k / P.m) with
      | ok s =>
        rw [e2, Outcome.ok_bind] at h
        simp only [Outcome.pure_eq, Outcome.ok.injEq] at h
        rw [← h]
      | throw m => rw [e2] at h; cases h
      | ub => rw [e2] at h; cases h
      | diverge => rw [e2] at h; cases h
    | throw m => rw [e] at h; cases h
    | ub => rw [e] at h; cases h
    | diverge => rw [e] at h; cases h

theorem removeMany {n : Nat} {b : Box} {cs : ℝ} {pos : Nat → Vec3 ℝ} {F : Nat → Outcome (Vec3 ℝ)} :
    ∀ (ks : List Nat) {g : NG} {f : Nat → Option (Vec3 ℝ)} {cells : Nat → List Nat}, GInv n g ⟨b, cs, f⟩ cells →
      (∀ k ∈ ks, F k = .ok (pos k) ∧ k < n ∧ Inside b (pos k) ∧ (f k = none ∨ f k = some (pos k))) →
      ∃ g' cells', ks.foldlM (fun (g : NG) k => do
          let p ← F k
          g.remove k p) g = .ok g' ∧ GInv n g' ⟨b, cs, fun j => if j ∈ ks then none else f j⟩ cells'
  | [], g, f, cells, h, _ => ⟨g, cells, rfl, by simpa using h⟩
  | k :: ks, g, f, cells, h, hk => by
    obtain ⟨e, hn, hin, hf⟩ := hk k (by simp)
    obtain ⟨g1, c1, e1, h1⟩ := call_inv h (op := .remove k (pos k)) ⟨hn, hin, hf⟩
    obtain ⟨g2, c2, e2, h2⟩ := removeMany ks (pos := pos) (F := F) h1 (by
      intro j hj
      obtain ⟨q1, q2, q3, q4⟩ := hk j (by simp [hj])
      refine ⟨q1, q2, q3, ?_⟩
      simp only
      split
      · exact Or.inl rfl
      · exact q4)
    have e1' : g.remove k (pos k) = .ok g1 := e1
    refine ⟨g2, c2, by rw [List.foldlM_cons, e, Outcome.ok_bind, e1', Outcome.ok_bind, e2], ?_⟩
    convert h2 using 2
    funext j
    simp only [List.mem_cons]
    by_cases h1 : j = k <;> by_cases h2 : j ∈ ks <;> simp [h1, h2]

theorem addMany {n : Nat} {b : Box} {cs : ℝ} {pos : Nat → Vec3 ℝ} {F : Nat → Outcome (Vec3 ℝ)} :
    ∀ (ks : List Nat) {g : NG} {f : Nat → Option (Vec3 ℝ)} {cells : Nat → List Nat}, GInv n g ⟨b, cs, f⟩ cells → ks.Nodup →
      (∀ k ∈ ks, F k = .ok (pos k) ∧ k < n ∧ Inside b (pos k) ∧ f k = none) →
      ∃ g' cells', ks.foldlM (fun (g : NG) k => do
          let p ← F k
          g.add k p) g = .ok g' ∧ GInv n g' ⟨b, cs, fun j => if j ∈ ks then some (pos j) else f j⟩ cells'
  | [], g, f, cells, h, _, _ => ⟨g, cells, rfl, by simpa using h⟩
  | k :: ks, g, f, cells, h, hnd, hk => by
    obtain ⟨e, hn, hin, hf⟩ := hk k (by simp)
    rw [List.nodup_cons] at hnd
    obtain ⟨g1, c1, e1, h1⟩ := call_inv h (op := .add k (pos k)) ⟨hn, hf, hin⟩
    obtain ⟨g2, c2, e2, h2⟩ := addMany ks (pos := pos) (F := F) h1 hnd.2 (by
      intro j hj
      obtain ⟨q1, q2, q3, q4⟩ := hk j (by simp [hj])
      refine ⟨q1, q2, q3, ?_⟩
      simp only
      rw [if_neg (by rintro rfl; exact hnd.1 hj)]
      exact q4)
    have e1' : g.add k (pos k) = .ok g1 := e1
    refine ⟨g2, c2, by rw [List.foldlM_cons, e, Outcome.ok_bind, e1', Outcome.ok_bind, e2], ?_⟩
    convert h2 using 2
    funext j
    simp only [List.mem_cons]
    by_cases h1 : j = k <;> by_cases h2 : j ∈ ks <;> simp [h1, h2]

/-- A grid which has just everything except one molecule. -/
def GridMinus (P : Packing) (g : NG) (i : Nat) : Prop :=
  ∃ cells cs, GInv g.succ.length g ⟨P.box, cs, fun j => if P.owner j = i then none else P.posAt j⟩ cells ∧ P.range ≤ cs ∧
    cs < P.box.heights.x ∧ cs < P.box.heights.y ∧ cs < P.box.heights.z ∧ cs = P.cellSize

theorem grid_capacity {P : Packing} {g : NG} (h : GridOk P g) {k : Nat} (hk : P.owner k < P.size) : k < g.succ.length := by
  obtain ⟨cells, cs, h, -⟩ := h
  exact h.rep.lt (c := realCoordinatesToCellNo g.divs (g.cellOf (P.siteFn k).pos)) ((GInv.mem_cells h).mpr ⟨hk, rfl⟩)

theorem gridRemove_ok {P : Packing} {I : Interaction} (hP : QInv P I) {i : Nat} (hi : i < P.size) :
    (P.ng = none → P.gridRemove i = .ok P) ∧
    ∀ g, P.ng = some g → ∃ g', P.gridRemove i = .ok { P with ng := some g' } ∧ g'.succ.length = g.succ.length ∧ GridMinus P g' i := by
  constructor
  · intro e; rw [gridRemove, e]
  · intro g eg
    have hcap := fun k => grid_capacity (hP.grid g eg) (k := k)
    obtain ⟨cells, cs, hg, hr, hx, hy, hz, hcz⟩ := hP.grid g eg
    obtain ⟨g', c', e', h'⟩ := removeMany (P.points i) (pos := fun k => (P.siteFn k).pos) (F := P.position) hg (by
      intro k hk
      have ho : P.owner k < P.size := by rw [mem_points.mp hk]; exact hi
      have hs := hP.core.siteOk ho
      exact ⟨position_ok hs.1, hcap k ho, hs.2, Or.inr (by simp only [posAt, if_pos ho])⟩)
    refine ⟨g', by rw [gridRemove, eg]; simp only; rw [e']; rfl, h'.len, c', cs, ?_, hr, hx, hy, hz, hcz⟩
    rw [h'.len]
    convert h' using 2
    funext j
    simp only [mem_points]

/-- The state differs only by the molecule `i`, which now is `t`; the grid is not compared. -/
structure Replaced (P P' : Packing) (I : Interaction) (i : Nat) (t : Shape) : Prop where
  box : P'.box = P.box
  tempNg : P'.tempNg = P.tempNg
  range : P'.range = P.range
  m : P'.m = P.m
  moveThreads : P'.moveThreads = P.moveThreads
  hasWall : P'.hasWall = P.hasWall
  overlapCounting : P'.overlapCounting = P.overlapCounting
  clen : P'.centres.length = P.centres.length
  alen : P'.absCentres.length = P.absCentres.length
  la : P'.lastAltered = P.lastAltered
  ld : P'.lastDeltas = P.lastDeltas
  lastBox : P'.lastBox = P.lastBox
  lastShapes : P'.lastShapes = P.lastShapes
  lastNum : P'.lastScalingNumOverlaps = P.lastScalingNumOverlaps
  shapes : P'.shapes = P.shapes.set i t
  slot : SlotOk P' I i t
  others : ∀ a c, a ≠ i → c < P.m → P'.centres[a * P.m + c]? = P.centres[a * P.m + c]? ∧
    P'.absCentres[a * P.m + c]? = P.absCentres[a * P.m + c]?

theorem Replaced.size {P P' : Packing} {I : Interaction} {i : Nat} {t : Shape} (h : Replaced P P' I i t) :
    P'.size = P.size := by
  unfold Packing.size; rw [h.shapes, h.moveThreads, List.length_set]

theorem Replaced.owner {P P' : Packing} {I : Interaction} {i : Nat} {t : Shape} (h : Replaced P P' I i t) (k : Nat) :
    P'.owner k = P.owner k := by
  unfold Packing.owner; rw [h.m]

theorem Replaced.shape_ne {P P' : Packing} {I : Interaction} {i : Nat} {t : Shape} (h : Replaced P P' I i t) {a : Nat}
    (ha : a ≠ i) : P'.shapes[a]? = P.shapes[a]? := by
  rw [h.shapes, List.getElem?_set, if_neg (Ne.symm ha)]

theorem Replaced.site {P P' : Packing} {I : Interaction} {i : Nat} {t : Shape} (h : Replaced P P' I i t) {k : Nat}
    (hk : P.owner k ≠ i) : P'.site k = P.site k := by
  unfold Packing.site
  rw [h.m]
  by_cases h0 : P.m = 0
  · rw [if_pos h0, if_pos h0]
    have : k ≠ i := by unfold Packing.owner at hk; rwa [if_pos h0] at hk
    unfold vget
    rw [h.shape_ne this]
  · rw [if_neg h0, if_neg h0]
    have h2 : k / P.m ≠ i := by unfold Packing.owner at hk; rwa [if_neg h0] at hk
    have h3 := (h.others (k / P.m) (k % P.m) h2 (Nat.mod_lt _ (Nat.pos_of_ne_zero h0))).2
    rw [Nat.div_add_mod' k P.m] at h3
    unfold vget
    rw [h.shape_ne h2, h3]

theorem Replaced.core {P P' : Packing} {I : Interaction} {i : Nat} {t : Shape} (h : Replaced P P' I i t) (hP : Core P I)
    (hi : i < P.size) (ht : Inside P.box t.pos) : Core P' I where
  m_eq := h.m.trans hP.m_eq
  range_eq := h.range.trans hP.range_eq
  threads := by rw [h.moveThreads, h.shapes, List.length_set]; exact hP.threads
  box := by rw [h.box]; exact hP.box
  inside := fun a s ha hs => by
    rw [h.box]
    by_cases e : a = i
    · subst e; rw [h.slot.shape] at hs; cases hs; exact ht
    · rw [h.shape_ne e] at hs; rw [h.size] at ha; exact hP.inside a s ha hs
  slots := fun a s ha hs => by
    by_cases e : a = i
    · subst e; rw [h.slot.shape] at hs; cases hs; exact h.slot
    · rw [h.shape_ne e] at hs; rw [h.size] at ha
      have := hP.slots a s ha hs
      refine ⟨by rw [h.shape_ne e]; exact hs, ?_, ?_⟩
      · intro c hc
        have h1 := this.centre c hc
        rw [← hP.m_eq] at h1 hc ⊢
        rw [(h.others a c e hc).1]; exact h1
      · intro c hc
        have h1 := this.abs c hc
        rw [← hP.m_eq] at h1 hc ⊢
        rw [(h.others a c e hc).2, h.box]; exact h1
  clen := by rw [h.clen, h.shapes, h.m, List.length_set]; exact hP.clen
  alen := by rw [h.alen, h.shapes, h.m, List.length_set]; exact hP.alen
  la := by rw [h.la, h.moveThreads]; exact hP.la
  ld := by rw [h.ld, h.moveThreads]; exact hP.ld

theorem Replaced.posAt_ne {P P' : Packing} {I : Interaction} {i : Nat} {t : Shape} (h : Replaced P P' I i t) {k : Nat}
    (hk : P.owner k ≠ i) : P'.posAt k = P.posAt k := by
  unfold Packing.posAt Packing.siteFn
  rw [h.owner, h.size, h.site hk]

theorem Replaced.shapeFn {P P' : Packing} {I : Interaction} {i : Nat} {t : Shape} (h : Replaced P P' I i t) (hi : i < P.shapes.length) (j : Nat) :
    P'.shapeFn j = if j = i then t else P.shapeFn j := by
  unfold Packing.shapeFn
  rw [List.getD_eq_getElem?_getD, h.shapes, List.getElem?_set]
  by_cases e : j = i
  · subst e; simp [hi]
  · rw [if_neg (Ne.symm e), if_neg e, List.getD_eq_getElem?_getD]

theorem gridAdd_ok {P : Packing} {I : Interaction} (hP : Core P I) {i : Nat} (hi : i < P.size) :
    (P.ng = none → P.gridAdd i = .ok P) ∧
    ∀ g, P.ng = some g → GridMinus P g i → (∀ k, P.owner k = i → k < g.succ.length) →
      ∃ g', P.gridAdd i = .ok { P with ng := some g' } ∧ g'.succ.length = g.succ.length ∧ GridOk P g' := by
  constructor
  · intro e; rw [gridAdd, e]
  · rintro g eg ⟨cells, cs, hg, hr, hx, hy, hz, hcz⟩ hcap
    obtain ⟨g', c', e', h'⟩ := addMany (P.points i) (pos := fun k => (P.siteFn k).pos) (F := P.position) hg (points_nodup P i) (by
      intro k hk
      have ho : P.owner k = i := mem_points.mp hk
      have hs := hP.siteOk (k := k) (by rw [ho]; exact hi)
      exact ⟨position_ok hs.1, hcap k ho, hs.2, by simp only [if_pos ho]⟩)
    refine ⟨g', by rw [gridAdd, eg]; simp only; rw [e']; rfl, h'.len, c', cs, ?_, hr, hx, hy, hz, hcz⟩
    rw [h'.len]
    convert h' using 2
    funext j
    simp only [mem_points]
    by_cases ho : P.owner j = i
    · rw [if_pos ho, posAt, if_pos (by rw [ho]; exact hi)]
    · rw [if_neg ho, if_neg ho]

theorem setAccept_ok {P : Packing} {I : Interaction} (hP : Core P I) {tid i : Nat} {t : Shape} (ht : tid < P.moveThreads)
    (hi : i < P.size) (hs : SlotOk P I (P.size + tid) t) : ∃ P', (P.setShape i t >>= fun P => P.acceptCentres tid i) = .ok P' ∧
      Replaced P P' I i t ∧ P'.ng = P.ng ∧ P'.numOverlaps = P.numOverlaps := by
  have hlt := size_add_lt hP ht
  have hil : i < P.shapes.length := by omega
  have hne : P.size + tid ≠ i := by omega
  rw [setShape, vset_ok hil, Outcome.ok_bind, Outcome.pure_eq, Outcome.ok_bind, acceptCentres]
  by_cases h0 : P.m = 0
  · rw [if_neg (not_not.mpr (show P.m = 0 from h0))]
    refine ⟨_, rfl, ⟨rfl, rfl, rfl, rfl, rfl, rfl, rfl, rfl, rfl, rfl, rfl, rfl, rfl, rfl, rfl, ?_, fun a c _ _ => ⟨rfl, rfl⟩⟩, rfl, rfl⟩
    refine ⟨by simp only; rw [List.getElem?_set, if_pos rfl, if_pos hil], ?_, ?_⟩
    · intro c hc; rw [← hP.m_eq] at hc; omega
    · intro c hc; rw [← hP.m_eq] at hc; omega
  · rw [if_pos (show P.m ≠ 0 from h0), acceptTempCentres]
    have hblock : i * P.m + P.m ≤ P.shapes.length * P.m := by
      have := Nat.mul_le_mul_right P.m (show i + 1 ≤ P.shapes.length from hil)
      rw [Nat.add_mul, Nat.one_mul] at this; exact this
    have hsz : ({ P with shapes := P.shapes.set i t } : Packing).size = P.size := by simp [Packing.size]
    rw [hsz]
    have hc := hs.centre
    have ha := hs.abs
    rw [← hP.m_eq] at hc ha
    obtain ⟨cs, e1, l1, v1, o1⟩ := storeLoop_ok (base := i * P.m) (m := P.m) (l := P.centres)
      (f := fun l k => vget l ((P.size + tid) * P.m + k)) (v := fun c => t.rot.mulVec (I.centres.getD c 0))
      (by rw [hP.clen]; exact hblock) (by
        intro c hcm l' _ hl'
        apply vget_eq_of_getElem?
        rw [hl' _ (by rcases slot_disj hne hcm with h | h <;> omega)]
        exact hc c hcm)
    obtain ⟨as, e2, l2, v2, o2⟩ := storeLoop_ok (base := i * P.m) (m := P.m) (l := P.absCentres)
      (f := fun l k => vget l ((P.size + tid) * P.m + k)) (v := fun c => wrap P.box (t.pos + t.rot.mulVec (I.centres.getD c 0)))
      (by rw [hP.alen]; exact hblock) (by
        intro c hcm l' _ hl'
        apply vget_eq_of_getElem?
        rw [hl' _ (by rcases slot_disj hne hcm with h | h <;> omega)]
        exact ha c hcm)
    simp only
    rw [e1, Outcome.ok_bind, e2, Outcome.ok_bind]
    refine ⟨_, rfl, ⟨rfl, rfl, rfl, rfl, rfl, rfl, rfl, l1, l2, rfl, rfl, rfl, rfl, rfl, rfl, ?_, ?_⟩, rfl, rfl⟩
    · refine ⟨by simp only; rw [List.getElem?_set, if_pos rfl, if_pos hil], ?_, ?_⟩
      · rw [← hP.m_eq]; exact v1
      · rw [← hP.m_eq]; exact v2
    · intro a c hne hcm
      exact ⟨o1 _ (slot_disj hne hcm), o2 _ (slot_disj hne hcm)⟩

/-- `acceptTranslation` is for a shape with unchanged orientation, `acceptRotation` for one with unchanged position. -/
def How.Fits (s t : Shape) : How → Prop
  | .translation => t.rot = s.rot
  | .rotation => t.pos = s.pos
  | .move => True

theorem core_ng {P : Packing} {I : Interaction} (hP : Core P I) (g : Option NG) : Core { P with ng := g } I :=
  ⟨hP.m_eq, hP.range_eq, hP.threads, hP.box, hP.inside,
    fun i s hi hs => ⟨(hP.slots i s hi hs).shape, (hP.slots i s hi hs).centre, (hP.slots i s hi hs).abs⟩,
    hP.clen, hP.alen, hP.la, hP.ld⟩

/-- Removing, replacing and adding again. -/
theorem replace_ok {P : Packing} {I : Interaction} (hP : QInv P I) {tid i : Nat} {t : Shape}
    (ht : tid < P.moveThreads) (hi : i < P.size) (hs : SlotOk P I (P.size + tid) t) (hin : Inside P.box t.pos) :
    ∃ Q1 Q2 P', P.gridRemove i = .ok Q1 ∧ Q1.shapes = P.shapes ∧ Q1.size = P.size ∧ Q1.m = P.m ∧
      (Q1.setShape i t >>= fun P => P.acceptCentres tid i) = .ok Q2 ∧ Q2.gridAdd i = .ok P' ∧
      Replaced P P' I i t ∧ QInv P' I ∧ P'.numOverlaps = P.numOverlaps ∧
      P'.ng.map (fun g => g.succ.length) = P.ng.map (fun g => g.succ.length) := by
  obtain ⟨r1, r2⟩ := gridRemove_ok hP hi
  cases e : P.ng with
  | none =>
    obtain ⟨Q2, e2, rep, en, enum⟩ := setAccept_ok hP.core ht hi hs
    have hc := rep.core hP.core hi hin
    refine ⟨P, Q2, Q2, r1 e, rfl, rfl, rfl, e2, (gridAdd_ok hc (by rw [rep.size]; exact hi)).1 (by rw [en, e]), rep,
      ⟨hc, fun g hg => by rw [en, e] at hg; cases hg⟩, enum, by rw [en, e]⟩
  | some g =>
    obtain ⟨g', e1, l1, hm⟩ := r2 g e
    have hcore : Core { P with ng := some g' } I := core_ng hP.core _
    obtain ⟨Q2, e2, rep, en, enum⟩ := setAccept_ok hcore (tid := tid) (t := t) ht (i := i) hi ⟨hs.shape, hs.centre, hs.abs⟩
    have rep' : Replaced P Q2 I i t := ⟨rep.box, rep.tempNg, rep.range, rep.m, rep.moveThreads, rep.hasWall, rep.overlapCounting,
      rep.clen, rep.alen, rep.la, rep.ld, rep.lastBox, rep.lastShapes, rep.lastNum, rep.shapes, rep.slot, rep.others⟩
    have hc := rep'.core hP.core hi hin
    have hmin : GridMinus Q2 g' i := by
      obtain ⟨cells, cs, q⟩ := hm
      refine ⟨cells, cs, ?_⟩
      rw [cellSize_congr rep'.box rep'.size rep'.range, rep'.box, rep'.range]
      convert q using 3
      funext j
      rw [rep'.owner]
      by_cases ho : P.owner j = i
      · rw [if_pos ho, if_pos ho]
      · rw [if_neg ho, if_neg ho, rep'.posAt_ne ho]
    obtain ⟨g2, e3, l3, hok⟩ := (gridAdd_ok hc (by rw [rep'.size]; exact hi)).2 g' en hmin (by
      intro k hk
      rw [rep'.owner] at hk
      rw [l1]
      exact grid_capacity (hP.grid g e) (by rw [hk]; exact hi))
    refine ⟨_, Q2, _, e1, rfl, rfl, rfl, e2, e3, ?_, ?_, enum, by simp only [Option.map_some]; rw [l3, l1]⟩
    · exact ⟨rep.box, rep.tempNg, rep.range, rep.m, rep.moveThreads, rep.hasWall, rep.overlapCounting,
        rep.clen, rep.alen, rep.la, rep.ld, rep.lastBox, rep.lastShapes, rep.lastNum, rep.shapes,
        ⟨rep.slot.shape, rep.slot.centre, rep.slot.abs⟩, rep.others⟩
    · refine ⟨core_ng hc _, fun g0 hg0 => ?_⟩
      cases hg0
      exact hok

/-- Replacing without touching the grid (same position, no interaction centres). -/
theorem replace_inplace {P : Packing} {I : Interaction} (hP : QInv P I) {i : Nat} {s t : Shape} (hi : i < P.size)
    (hs : P.shapes[i]? = some s) (hp : t.pos = s.pos) (h0 : P.m = 0) :
    P.setShape i t = .ok { P with shapes := P.shapes.set i t } ∧
      Replaced P { P with shapes := P.shapes.set i t } I i t ∧ QInv { P with shapes := P.shapes.set i t } I := by
  have hil : i < P.shapes.length := by unfold size at hi; omega
  have rep : Replaced P { P with shapes := P.shapes.set i t } I i t := by
    refine ⟨rfl, rfl, rfl, rfl, rfl, rfl, rfl, rfl, rfl, rfl, rfl, rfl, rfl, rfl, rfl, ?_, fun a c _ _ => ⟨rfl, rfl⟩⟩
    refine ⟨by simp only; rw [List.getElem?_set, if_pos rfl, if_pos hil], ?_, ?_⟩
    · intro c hc; rw [← hP.core.m_eq] at hc; omega
    · intro c hc; rw [← hP.core.m_eq] at hc; omega
  have hc := rep.core hP.core hi (by rw [hp]; exact hP.core.inside i s hi hs)
  refine ⟨by rw [setShape, vset_ok hil]; rfl, rep, hc, fun g hg => ?_⟩
  obtain ⟨cells, cs, q, hr⟩ := hP.grid g hg
  refine ⟨cells, cs, ?_, hr.1, hr.2.1, hr.2.2.1, hr.2.2.2.1, hr.2.2.2.2.trans (cellSize_congr rep.box rep.size rep.range).symm⟩
  convert q using 2
  funext j
  by_cases ho : P.owner j = i
  · have hj : j = i := by unfold owner at ho; rwa [if_pos h0] at ho
    subst hj
    simp only [posAt]
    rw [rep.owner, rep.size, ho, if_pos hi, if_pos hi]
    have e1 : P.site j = .ok ⟨s.pos, s.rot, 0⟩ := by rw [site, if_pos h0, vget_eq_of_getElem? hs]; rfl
    have e2 : site { P with shapes := P.shapes.set j t } j = .ok ⟨t.pos, t.rot, 0⟩ := by
      rw [site, if_pos h0, vget_eq_of_getElem? rep.slot.shape]; rfl
    rw [siteFn, siteFn, e1, e2, hp]
  · exact rep.posAt_ne ho

/-- What acceptance does with the cached number of overlaps. -/
def withDelta (P : Packing) (tid : Nat) : Int := if P.overlapCounting then P.lastDeltas.getD tid 0 else 0

theorem addDelta_ok {P : Packing} {I : Interaction} (hP : Core P I) {tid : Nat} (ht : tid < P.moveThreads) :
    P.addDelta tid = .ok { P with numOverlaps := P.numOverlaps + P.withDelta tid } := by
  unfold addDelta withDelta
  by_cases h : P.overlapCounting = true
  · rw [if_pos h, if_pos h, vget_ok (by rw [hP.ld]; exact ht), Outcome.ok_bind, List.getD_eq_getElem?_getD,
      List.getElem?_eq_getElem (by rw [hP.ld]; exact ht)]
    rfl
  · rw [if_neg h, if_neg h, Int.add_zero]

theorem replaced_num {P P' : Packing} {I : Interaction} {i : Nat} {t : Shape} (h : Replaced P P' I i t) (n : Int) :
    Replaced P { P' with numOverlaps := n } I i t :=
  ⟨h.box, h.tempNg, h.range, h.m, h.moveThreads, h.hasWall, h.overlapCounting, h.clen, h.alen, h.la, h.ld, h.lastBox,
    h.lastShapes, h.lastNum, h.shapes, ⟨h.slot.shape, h.slot.centre, h.slot.abs⟩, h.others⟩

theorem qinv_num {P : Packing} {I : Interaction} (h : QInv P I) (n : Int) : QInv { P with numOverlaps := n } I :=
  ⟨⟨h.core.m_eq, h.core.range_eq, h.core.threads, h.core.box, h.core.inside,
    fun i s hi hs => ⟨(h.core.slots i s hi hs).shape, (h.core.slots i s hi hs).centre, (h.core.slots i s hi hs).abs⟩,
    h.core.clen, h.core.alen, h.core.la, h.core.ld⟩, h.grid⟩

theorem accept_ok {P : Packing} {I : Interaction} (hP : QInv P I) {tid i : Nat} {s t : Shape} {how : How}
    (ht : tid < P.moveThreads) (hi : i < P.size) (hla : P.lastAltered[tid]? = some i) (hs : P.shapes[i]? = some s)
    (ht' : SlotOk P I (P.size + tid) t) (hin : Inside P.box t.pos) (hfit : how.Fits s t) : ∃ P', P.acceptHow tid how = .ok P' ∧
      Replaced P P' I i t ∧ QInv P' I ∧ P'.numOverlaps = P.numOverlaps + P.withDelta tid ∧
      P'.ng.map (fun g => g.succ.length) = P.ng.map (fun g => g.succ.length) := by
  obtain ⟨Q1, Q2, P', e1, esh, esz, em, e2, e3, rep, hq, hnum, hng⟩ := replace_ok hP ht hi ht' hin
  have hgt : vget P.shapes (P.size + tid) = .ok t := vget_eq_of_getElem? ht'.shape
  have hgs : vget P.shapes i = .ok s := vget_eq_of_getElem? hs
  have fin : P'.addDelta tid = .ok { P' with numOverlaps := P.numOverlaps + P.withDelta tid } := by
    rw [addDelta_ok hq.core (by rw [rep.moveThreads]; exact ht), hnum]
    simp only [withDelta, rep.overlapCounting, rep.ld]
  by_cases hrot : P.m = 0 ∧ how = .rotation
  · obtain ⟨h0, rfl⟩ := hrot
    have hpos : t.pos = s.pos := hfit
    obtain ⟨a1, a2, a3⟩ := replace_inplace (t := t) hP hi hs hpos h0
    refine ⟨{ P with shapes := P.shapes.set i t, numOverlaps := P.numOverlaps + P.withDelta tid }, ?_, replaced_num a2 _,
      qinv_num a3 _, rfl, rfl⟩
    simp only [acceptHow]
    rw [acceptRotation, vget_eq_of_getElem? hla, Outcome.ok_bind, gridRemoveCentres, if_neg (not_not.mpr h0), Outcome.ok_bind, hgt, Outcome.ok_bind,
      hgs, Outcome.ok_bind]
    have : ({ s with rot := t.rot } : Shape) = t := by cases s; cases t; simp only at hpos; simp [hpos]
    rw [this, a1, Outcome.ok_bind, gridAcceptCentres, if_neg (not_not.mpr (show P.m = 0 from h0)), Outcome.ok_bind, addDelta_ok a3.core ht]
    rfl
  refine ⟨{ P' with numOverlaps := P.numOverlaps + P.withDelta tid }, ?_, replaced_num rep _, qinv_num hq _, rfl, hng⟩
  cases how with
  | translation =>
    simp only [acceptHow]
    rw [acceptTranslation, vget_eq_of_getElem? hla, Outcome.ok_bind, e1, Outcome.ok_bind, esh, esz, hgt, Outcome.ok_bind, hgs,
      Outcome.ok_bind]
    have hr : t.rot = s.rot := hfit
    have : ({ s with pos := t.pos } : Shape) = t := by cases s; cases t; simp only at hr; simp [hr]
    rw [this, ← Outcome.bind_assoc', e2, Outcome.ok_bind, e3, Outcome.ok_bind, fin]
  | rotation =>
    have h0 : P.m ≠ 0 := fun h => hrot ⟨h, rfl⟩
    simp only [acceptHow]
    rw [acceptRotation, vget_eq_of_getElem? hla, Outcome.ok_bind, gridRemoveCentres, if_pos h0, e1, Outcome.ok_bind, esh, esz, hgt, Outcome.ok_bind,
      hgs, Outcome.ok_bind]
    have hpos : t.pos = s.pos := hfit
    have : ({ s with rot := t.rot } : Shape) = t := by cases s; cases t; simp only at hpos; simp [hpos]
    rw [this]
    have hset : ∃ Q, Q1.setShape i t = .ok Q ∧ Q.m = Q1.m := by
      have hil : i < Q1.shapes.length := by rw [esh]; unfold size at hi; omega
      exact ⟨{ Q1 with shapes := Q1.shapes.set i t }, by rw [setShape, vset_ok hil]; rfl, rfl⟩
    obtain ⟨Q, eQ, mQ⟩ := hset
    rw [eQ, Outcome.ok_bind, acceptCentres, if_pos (by rw [mQ, em]; exact h0)] at e2
    rw [eQ, Outcome.ok_bind, gridAcceptCentres, if_pos (by rw [mQ, em]; exact h0), e2, Outcome.ok_bind, e3, Outcome.ok_bind, fin]
  | move =>
    simp only [acceptHow]
    rw [acceptMove, vget_eq_of_getElem? hla, Outcome.ok_bind, e1, Outcome.ok_bind, esh, esz, hgt, Outcome.ok_bind]
    rw [← Outcome.bind_assoc', e2, Outcome.ok_bind, e3, Outcome.ok_bind, fin]

end Rampack.Packing
