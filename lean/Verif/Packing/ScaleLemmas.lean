import Verif.Packing.InvLemmas
/-
Helper lemmas: scaling, reverting, resetting and switching of counting.
-/
namespace Rampack.Packing

open Rampack.Spec Rampack.Grid

theorem bind_of {α β : Type} {x : Outcome α} {a : α} (h : x = .ok a) (f : α → Outcome β) : (x >>= f) = f a := by
  rw [h]; rfl

theorem rescale_inside {o b : Box} (ho : o.WF) (hb : b.WF) {s : Shape} (h : Inside o s.pos) : Inside b (s.rescale o b).pos := by
  rw [Box.inside_iff hb]
  simp only [Shape.rescale, Box.absToRel_relToAbs hb]
  exact (Box.inside_iff ho _).mp h

/-- The shapes after a change of the box. -/
noncomputable def scaledShapes (P : Packing) (b : Box) : List Shape :=
  (P.shapes.take P.size).map (Shape.rescale P.box b) ++ P.shapes.drop P.size

theorem scaledShapes_length (P : Packing) (b : Box) : (P.scaledShapes b).length = P.shapes.length := by
  simp [scaledShapes]; unfold size; omega

theorem scaledShapes_get (P : Packing) (b : Box) {i : Nat} (hi : i < P.size) :
    (P.scaledShapes b)[i]? = (P.shapes[i]?).map (Shape.rescale P.box b) := by
  have hl : i < P.shapes.length := by unfold size at hi; omega
  unfold scaledShapes
  rw [List.getElem?_append_left (by simp; omega), List.getElem?_map, List.getElem?_take, if_pos hi]

theorem gridHas_of {P : Packing} {I : Interaction} (hP : PInv P I) {g : NG} (h : P.ng = some g) : GridHas P g := by
  obtain ⟨cells, cs, hg, -⟩ := hP.q.grid g h
  exact ⟨⟨_, cells, hg⟩, hP.ngCap g h⟩

/-- The packing after `tryScaling`: everything not listed is unchanged. -/
noncomputable def scaledState (P : Packing) (b : Box) (as : List (Vec3 ℝ)) (og : Option NG) (n : Int) : Packing :=
  { P with
    lastBox := P.box
    lastShapes := P.shapes
    lastScalingNumOverlaps := P.numOverlaps
    box := b
    shapes := P.scaledShapes b
    absCentres := as
    ng := og
    tempNg := P.ng
    numOverlaps := n }

theorem scaledState_size (P : Packing) (b : Box) (as : List (Vec3 ℝ)) (og : Option NG) (n : Int) :
    (P.scaledState b as og n).size = P.size := by
  unfold size scaledState; simp only [scaledShapes_length]

theorem scaleState_ok {P : Packing} {I : Interaction} (hP : PInv P I) (hI : Contract I) {b : Box} (hb : b.WF) : ∃ as og,
    P.scaleState b = .ok (P.scaledState b as og P.numOverlaps) ∧ QInv (P.scaledState b as og P.numOverlaps) I ∧
      (∀ g, og = some g → P.cap ≤ g.succ.length) ∧ (og.isSome = true ↔ (P.scaledState b as og P.numOverlaps).UsesGrid) := by
  have hc := hP.q.core
  have hsz : ∀ as og, (P.scaledState b as og P.numOverlaps).size = P.size := fun as og => scaledState_size _ _ _ _ _
  have pre : PreCore (P.scaledState b P.absCentres P.tempNg P.numOverlaps) I := by
    refine ⟨hc.m_eq, hc.range_eq, ?_, hb, ?_, ?_, ?_, ?_, hc.la, hc.ld⟩
    · show P.moveThreads ≤ (P.scaledShapes b).length
      rw [scaledShapes_length]; exact hc.threads
    · intro i s hi hs
      rw [hsz] at hi
      have hs : (P.scaledShapes b)[i]? = some s := hs
      rw [scaledShapes_get _ _ hi, shape_some hi] at hs
      cases hs
      exact rescale_inside hc.box hb (hc.shapeFn hi).2
    · intro i s hi hs c hcm
      rw [hsz] at hi
      have hs : (P.scaledShapes b)[i]? = some s := hs
      rw [scaledShapes_get _ _ hi, shape_some hi] at hs
      cases hs
      exact hc.pre.centre i _ hi (shape_some hi) c hcm
    · show P.centres.length = (P.scaledShapes b).length * P.m
      rw [scaledShapes_length]; exact hc.clen
    · show P.absCentres.length = (P.scaledShapes b).length * P.m
      rw [scaledShapes_length]; exact hc.alen
  obtain ⟨as, e1, h1⟩ := refreshCentres_ok pre
  have h1 : Core (P.scaledState b as P.tempNg P.numOverlaps) I := h1
  obtain ⟨og, e2, h2, h3, h4⟩ := rebuild_ok h1 hI.range_pos (by rw [hsz]; exact hP.size_pos)
    (by unfold cap; rw [hsz]; exact hP.bound) (by
      intro g hg
      have := hP.tmp g hg
      refine ⟨this.1, ?_⟩
      unfold cap
      rw [hsz]; exact this.2)
  refine ⟨as, og, ?_, h2, ?_, h4⟩
  · rw [scaleState]
    exact (bind_of e1 _).trans e2
  · intro g hg
    have := h3 g hg
    unfold cap at this ⊢
    rw [hsz] at this; exact this

/-- The energy change reported by `tryScaling`; `n0`: cached number of overlaps, `K1`: overlaps in the new box. -/
noncomputable def scaleChange (hard counting skip : Bool) (n0 : Int) (K1 : Nat) (de : ℝ) : EnergyChange :=
  if hard then
    if counting then
      if (K1 : Int) < n0 then .negInf else if n0 < K1 then .posInf else .fin de
    else if skip then .fin de
    else if 0 < K1 then .posInf else .fin de
  else .fin de

theorem scaledState_num {P : Packing} {I : Interaction} {b : Box} {as : List (Vec3 ℝ)} {og : Option NG} {n n' : Int}
    (h : QInv (P.scaledState b as og n) I) : QInv (P.scaledState b as og n') I :=
  ⟨⟨h.core.m_eq, h.core.range_eq, h.core.threads, h.core.box, h.core.inside, fun i s hi hs =>
    ⟨(h.core.slots i s hi hs).shape, (h.core.slots i s hi hs).centre, (h.core.slots i s hi hs).abs⟩, h.core.clen, h.core.alen, h.core.la, h.core.ld⟩,
    h.grid⟩

theorem scaledState_numTotal (P : Packing) (I : Interaction) (b : Box) (as : List (Vec3 ℝ)) (og : Option NG) (n n' : Int) :
    numTotal (P.scaledState b as og n) I = numTotal (P.scaledState b as og n') I := rfl

theorem tryScaling_ok {P : Packing} {I : Interaction} (hP : PInv P I) (hI : Contract I) {b : Box} (hb : b.WF) :
    ∃ as og n K1, P.tryScaling I b = .ok (P.scaledState b as og n,
        scaleChange I.hasHard P.overlapCounting (I.isConvex && isBoxUpscaled P.box b) P.numOverlaps K1
          (softTotal (P.scaledState b as og n) I - softTotal P I)) ∧
      PInv (P.scaledState b as og n) I ∧ ((K1 : ℕ) : ℝ) = numTotal (P.scaledState b as og n) I := by
  obtain ⟨as, og, e, hq, hcap, hused⟩ := scaleState_ok hP hI hb
  obtain ⟨K1, hK1, hcount⟩ := count_numTotal hq hI
  have hpinv : ∀ n : Int, (P.overlapCounting = true → (n : ℝ) = numTotal (P.scaledState b as og P.numOverlaps) I) →
      PInv (P.scaledState b as og n) I := by
    intro n hn
    refine ⟨scaledState_num hq, by rw [scaledState_size]; exact hP.size_pos, ?_, ?_, ?_, hn, hP.noHard, hused⟩
    · unfold cap; rw [scaledState_size]; exact hP.bound
    · intro g hg
      have := hcap g hg
      unfold cap at this ⊢; rw [scaledState_size]; exact this
    · intro g hg
      have := gridHas_of hP hg
      refine ⟨this.1, ?_⟩
      have := this.2
      unfold cap at this ⊢; rw [scaledState_size]; exact this
  have hreq : I.range ≤ P.range := by rw [hP.q.core.range_eq]
  have hE : ∀ n, totalEnergy (P.scaledState b as og n) I = .ok (softTotal (P.scaledState b as og n) I) :=
    fun n => totalEnergy_ok (scaledState_num hq) hI
  have hE0 : P.totalEnergy I = .ok (softTotal P I) := totalEnergy_ok hP.q hI
  rw [tryScaling, require_true'' (Box.volume_pos hb).ne', Outcome.ok_bind, require_true'' hreq, Outcome.ok_bind, hE0, Outcome.ok_bind, e,
    Outcome.ok_bind, scalingOverlapEnergy]
  by_cases hh : I.hasHard = true
  · rw [if_pos hh]
    by_cases hc : P.overlapCounting = true
    · rw [if_pos (show (P.scaledState b as og P.numOverlaps).overlapCounting = true from hc)]
      obtain ⟨k, ek, -, hk⟩ := hcount false
      rw [ek, Outcome.ok_bind]
      have hk := hk rfl; subst hk
      refine ⟨as, og, k, k, ?_, hpinv _ (fun _ => by rw [← hK1]; simp), hK1⟩
      unfold scaleChange
      rw [if_pos hh, if_pos hc]
      have hst : ({ P.scaledState b as og P.numOverlaps with numOverlaps := (k : Int) } : Packing) = P.scaledState b as og k := rfl
      rw [hst]
      have hd : (P.scaledState b as og k).numOverlaps - (P.scaledState b as og k).lastScalingNumOverlaps = (k : Int) - P.numOverlaps := rfl
      simp only []
      rw [hd]
      by_cases h1 : (k : Int) < P.numOverlaps
      · rw [if_pos (by omega), if_pos h1]; rfl
      · by_cases h2 : P.numOverlaps < k
        · rw [if_neg (by omega), if_pos (by omega), if_neg h1, if_pos h2]; rfl
        · rw [if_neg (by omega), if_neg (by omega), if_neg h1, if_neg h2]
          show (do let finalEnergy ← totalEnergy (P.scaledState b as og k) I
                   return (P.scaledState b as og k, EnergyChange.fin (finalEnergy - softTotal P I)) : Outcome (Packing × EnergyChange)) = _
          rw [hE, Outcome.ok_bind]; rfl
    · rw [if_neg (show ¬ (P.scaledState b as og P.numOverlaps).overlapCounting = true from hc)]
      refine ⟨as, og, P.numOverlaps, K1, ?_, hpinv _ (fun h => absurd h hc), hK1⟩
      unfold scaleChange
      rw [if_pos hh, if_neg hc]
      by_cases hs : (I.isConvex && isBoxUpscaled P.box b) = true
      · rw [if_pos (show (I.isConvex && isBoxUpscaled (P.scaledState b as og P.numOverlaps).lastBox (P.scaledState b as og P.numOverlaps).box) = true from hs),
          if_pos hs]
        show (do let finalEnergy ← totalEnergy (P.scaledState b as og P.numOverlaps) I
                 return (P.scaledState b as og P.numOverlaps, EnergyChange.fin (finalEnergy - softTotal P I)) : Outcome (Packing × EnergyChange)) = _
        rw [hE, Outcome.ok_bind]; rfl
      · rw [if_neg (show ¬ (I.isConvex && isBoxUpscaled (P.scaledState b as og P.numOverlaps).lastBox (P.scaledState b as og P.numOverlaps).box) = true from hs),
          if_neg hs]
        obtain ⟨k, ek, hpos, -⟩ := hcount true
        rw [ek, Outcome.ok_bind]
        by_cases h : 0 < K1
        · rw [if_pos (hpos.mpr h), if_pos h]; rfl
        · rw [if_neg (fun q => h (hpos.mp q)), if_neg h]
          show (do let finalEnergy ← totalEnergy (P.scaledState b as og P.numOverlaps) I
                   return (P.scaledState b as og P.numOverlaps, EnergyChange.fin (finalEnergy - softTotal P I)) : Outcome (Packing × EnergyChange)) = _
          rw [hE, Outcome.ok_bind]; rfl
  · rw [if_neg hh]
    simp only [Bool.not_eq_true] at hh
    refine ⟨as, og, P.numOverlaps, K1, ?_, hpinv _ (fun h => by
      rw [hP.cached h, numTotal_noHard hP.q hI hh, numTotal_noHard hq hI hh]), hK1⟩
    unfold scaleChange
    rw [if_neg (by simp [hh])]
    show (do let finalEnergy ← totalEnergy (P.scaledState b as og P.numOverlaps) I
             return (P.scaledState b as og P.numOverlaps, EnergyChange.fin (finalEnergy - softTotal P I)) : Outcome (Packing × EnergyChange)) = _
    rw [hE, Outcome.ok_bind]; rfl

/-- Reverting restores everything except temporary storage. -/
theorem revert_ok {P : Packing} {I : Interaction} (hP : PInv P I) {b : Box} {as : List (Vec3 ℝ)} {og : Option NG} {n : Int}
    (hS : PInv (P.scaledState b as og n) I) : ∃ as',
      (P.scaledState b as og n).revertScaling = .ok { P with
        absCentres := as'
        tempNg := og
        lastBox := P.box
        lastShapes := P.shapes
        lastScalingNumOverlaps := P.numOverlaps } ∧
      SameMols { P with tempNg := og } { P with
        absCentres := as'
        tempNg := og
        lastBox := P.box
        lastShapes := P.shapes
        lastScalingNumOverlaps := P.numOverlaps } ∧
      PInv { P with
        absCentres := as'
        tempNg := og
        lastBox := P.box
        lastShapes := P.shapes
        lastScalingNumOverlaps := P.numOverlaps } I := by
  have hc := hP.q.core
  have halen : as.length = P.shapes.length * P.m := by
    have : as.length = (P.scaledShapes b).length * P.m := hS.q.core.alen
    rw [this, scaledShapes_length]
  have pre : PreCore { P with
      absCentres := as, ng := P.ng, tempNg := og, lastBox := P.box, lastShapes := P.shapes,
      lastScalingNumOverlaps := P.numOverlaps, numOverlaps := n } I :=
    ⟨hc.m_eq, hc.range_eq, hc.threads, hc.box, hc.inside, hc.pre.centre, hc.clen, halen, hc.la, hc.ld⟩
  obtain ⟨as', e, h⟩ := refreshCentres_ok pre
  have habs : ∀ k < P.size * P.m, as'[k]? = P.absCentres[k]? := by
    intro k hk
    have hm : 0 < P.m := by
      rcases Nat.eq_zero_or_pos P.m with h0 | h0
      · rw [h0] at hk; omega
      · exact h0
    have hi : k / P.m < P.size := (Nat.div_lt_iff_lt_mul hm).mpr hk
    have hcl : k % P.m < I.centres.length := by rw [← hc.m_eq]; exact Nat.mod_lt _ hm
    have h1 := (hc.slots _ _ hi (shape_some hi)).abs _ hcl
    have h2 := (h.slots (k / P.m) _ hi (shape_some hi)).abs _ hcl
    have hk' : k / P.m * I.centres.length + k % P.m = k := by rw [← hc.m_eq, Nat.mul_comm]; exact Nat.div_add_mod k P.m
    rw [hk'] at h1 h2
    rw [h1]; exact h2
  have hlen : as'.length = P.absCentres.length := by rw [hc.alen]; exact h.alen
  have same : SameMols { P with tempNg := og } { P with
        absCentres := as'
        tempNg := og
        lastBox := P.box
        lastShapes := P.shapes
        lastScalingNumOverlaps := P.numOverlaps } :=
    ⟨rfl, rfl, rfl, rfl, rfl, rfl, rfl, rfl, rfl, rfl, rfl, hlen, rfl, rfl, fun _ _ => rfl, fun _ _ => rfl, habs⟩
  have hP' : PInv { P with tempNg := og } I := by
    refine ⟨⟨⟨hc.m_eq, hc.range_eq, hc.threads, hc.box, hc.inside, fun i s hi hs =>
      ⟨(hc.slots i s hi hs).shape, (hc.slots i s hi hs).centre, (hc.slots i s hi hs).abs⟩, hc.clen, hc.alen, hc.la, hc.ld⟩, hP.q.grid⟩,
      hP.size_pos, hP.bound, hP.ngCap, ?_, hP.cached, hP.noHard, hP.used⟩
    intro g hg
    have := gridHas_of hS hg
    refine ⟨this.1, ?_⟩
    have := this.2
    unfold cap at this ⊢; rw [scaledState_size] at this; exact this
  refine ⟨as', ?_, same, same.pinv hP' (fun _ => rfl)⟩
  rw [revertScaling]
  exact (bind_of e _).trans rfl

/-! ### Reset -/

theorem flatMap_get {α : Type} {cs : List (Vec3 ℝ)} {f : α → Vec3 ℝ → Vec3 ℝ} {c : Nat} (hc : c < cs.length) :
    ∀ (l : List α) {i : Nat} {s : α}, l[i]? = some s →
      (l.flatMap fun s => cs.map (f s))[i * cs.length + c]? = some (f s (cs.getD c 0))
  | [], i, s, h => by simp at h
  | a :: l, 0, s, h => by
    simp only [List.getElem?_cons_zero, Option.some.injEq] at h
    subst h
    rw [List.flatMap_cons, List.getElem?_append_left (by simp; omega), Nat.zero_mul, Nat.zero_add, List.getElem?_map,
      List.getD_eq_getElem?_getD, List.getElem?_eq_getElem hc]; rfl
  | a :: l, i + 1, s, h => by
    simp only [List.getElem?_cons_succ] at h
    rw [List.flatMap_cons, List.getElem?_append_right (by simp; rw [Nat.add_mul]; omega)]
    have : (i + 1) * cs.length + c - (List.map (f a) cs).length = i * cs.length + c := by simp; rw [Nat.add_mul]; omega
    rw [this]; exact flatMap_get hc l h

theorem flatMap_length {α : Type} {cs : List (Vec3 ℝ)} {f : α → Vec3 ℝ → Vec3 ℝ} : ∀ l : List α,
    (l.flatMap fun s => cs.map (f s)).length = l.length * cs.length
  | [] => by simp
  | a :: l => by rw [List.flatMap_cons, List.length_append, flatMap_length l, List.length_cons, Nat.add_mul, List.length_map]; omega

/-- The fields which `setupCentres` fills. -/
theorem setupCentres_ok {P : Packing} {I : Interaction} (hb : P.box.WF) (ht : P.moveThreads ≤ P.shapes.length)
    (hin : ∀ i s, i < P.size → P.shapes[i]? = some s → Inside P.box s.pos) (hla : P.lastAltered.length = P.moveThreads)
    (hld : P.lastDeltas.length = P.moveThreads) : ∃ cs as,
      P.setupCentres I = .ok { P with range := I.range, m := I.centres.length, centres := cs, absCentres := as } ∧
      Core { P with range := I.range, m := I.centres.length, centres := cs, absCentres := as } I := by
  unfold setupCentres
  by_cases h : I.centres.length > 0
  · rw [if_pos h]
    obtain ⟨as, e, hc⟩ := recalcAll_ok (I := I) (P := { P with
      range := I.range
      m := I.centres.length
      centres := P.shapes.flatMap fun s => I.centres.map fun c => s.rot.mulVec c
      absCentres := List.replicate (P.shapes.length * I.centres.length) 0 }) ⟨rfl, rfl, ht, hb, hin, by
        intro i s hi hs c hc
        exact flatMap_get hc _ hs, flatMap_length _, by simp, hla, hld⟩
    exact ⟨_, as, e, hc⟩
  · rw [if_neg h]
    have h0 : I.centres.length = 0 := by omega
    refine ⟨[], [], rfl, rfl, rfl, ht, hb, hin, fun i s hi hs => ⟨hs, fun c hc => ?_, fun c hc => ?_⟩, by simp [h0], by simp [h0], hla, hld⟩
    · rw [h0] at hc; omega
    · rw [h0] at hc; omega

theorem within_iff {b : Box} (hb : b.WF) (shapes : List Shape) :
    areShapesWithinBox shapes b = true ↔ ∀ s ∈ shapes, Inside b s.pos := by
  unfold areShapesWithinBox
  rw [List.all_eq_true]
  apply forall_congr'; intro s
  apply imp_congr_right; intro _
  rw [Box.inside_iff hb]
  simp only [decide_eq_true_eq]
  tauto

theorem mem_vresize_zero {l : List Int} {n : Nat} (h : ∀ d ∈ l, d = 0) : ∀ d ∈ vresize l n 0, d = 0 := by
  intro d hd
  unfold vresize at hd
  rw [List.mem_append] at hd
  rcases hd with hd | hd
  · exact h d (List.mem_of_mem_take hd)
  · exact (List.mem_replicate.mp hd).2

theorem recount_pinv {P : Packing} {I : Interaction} (hI : Contract I) (q : QInv P I) (h0 : 0 < P.size) (hb : P.cap < 2 ^ 50)
    (hng : ∀ g, P.ng = some g → P.cap ≤ g.succ.length) (htmp : ∀ g, P.tempNg = some g → GridHas P g)
    (hz : I.hasHard = false → ∀ d ∈ P.lastDeltas, d = 0) (hu : P.ng.isSome = true ↔ P.UsesGrid) : ∃ n, P.recount I = .ok { P with numOverlaps := n } ∧
      PInv { P with numOverlaps := n } I := by
  have core : ∀ n : Int, QInv { P with numOverlaps := n } I := fun n =>
    ⟨⟨q.core.m_eq, q.core.range_eq, q.core.threads, q.core.box, q.core.inside, fun i s hi hs =>
    ⟨(q.core.slots i s hi hs).shape, (q.core.slots i s hi hs).centre, (q.core.slots i s hi hs).abs⟩, q.core.clen, q.core.alen, q.core.la, q.core.ld⟩,
    q.grid⟩
  unfold recount
  by_cases hc : P.overlapCounting = true
  · rw [if_pos hc]
    obtain ⟨K, hK, hk⟩ := count_numTotal q hI
    obtain ⟨k, ek, -, h⟩ := hk false
    have h := h rfl; subst h
    rw [ek, Outcome.ok_bind]
    exact ⟨k, rfl, core _, h0, hb, hng, htmp, fun _ => (by push_cast; exact hK), hz, hu⟩
  · rw [if_neg hc]
    exact ⟨P.numOverlaps, rfl, core _, h0, hb, hng, htmp, fun h => absurd h hc, hz, hu⟩

/-- The room which the grids of a packing have, whatever is in them. -/
structure GridsHave (P : Packing) (n : Nat) : Prop where
  ng : ∀ g, P.ng = some g → (∃ s cells, GInv g.succ.length g s cells) ∧ n ≤ g.succ.length
  tmp : ∀ g, P.tempNg = some g → (∃ s cells, GInv g.succ.length g s cells) ∧ n ≤ g.succ.length

/-- The packing during `reset`. -/
noncomputable def resetState (P : Packing) (shapes : List Shape) (b : Box) (I : Interaction) (m : Nat) (cs as : List (Vec3 ℝ))
    (og : Option NG) : Packing :=
  { P with
    shapes := shapes ++ List.replicate P.moveThreads defaultShape
    box := b
    range := I.range
    m := m
    centres := cs
    absCentres := as
    ng := og
    lastAltered := vresize P.lastAltered P.moveThreads 0
    lastDeltas := vresize P.lastDeltas P.moveThreads 0 }

theorem resetState_size (P : Packing) (shapes : List Shape) (b : Box) (I : Interaction) (m : Nat) (cs as : List (Vec3 ℝ))
    (og : Option NG) : (P.resetState shapes b I m cs as og).size = shapes.length := by
  unfold size resetState; simp

theorem resetState_cap (P : Packing) (shapes : List Shape) (b : Box) (I : Interaction) (m : Nat) (cs as : List (Vec3 ℝ))
    (og : Option NG) : (P.resetState shapes b I m cs as og).cap = shapes.length * max 1 m := by
  unfold cap; rw [resetState_size]; rfl

theorem reset_ok {P : Packing} {I : Interaction} (hI : Contract I) {shapes : List Shape} {b : Box} (hb : b.WF) (hne : shapes ≠ [])
    (hin : ∀ s ∈ shapes, Inside b s.pos) (hg : GridsHave P (shapes.length * max 1 I.centres.length))
    (hcap : shapes.length * max 1 I.centres.length < 2 ^ 50) (hz : I.hasHard = false → ∀ d ∈ P.lastDeltas, d = 0) : ∃ P',
      P.reset shapes b I = .ok P' ∧ PInv P' I ∧ mols P' = shapes ∧ P'.box = b ∧ P'.hasWall = P.hasWall ∧
        P'.overlapCounting = P.overlapCounting ∧ P'.moveThreads = P.moveThreads ∧ P'.tempNg = P.tempNg := by
  obtain ⟨cs, as, e1, h1⟩ := setupCentres_ok (I := I) (P := P.resetState shapes b I P.m P.centres P.absCentres P.ng) hb
    (by unfold resetState; simp) (by
      intro i s hi hs
      rw [resetState_size] at hi
      have hs : (shapes ++ List.replicate P.moveThreads defaultShape)[i]? = some s := hs
      rw [List.getElem?_append_left hi] at hs
      exact hin s (List.mem_of_getElem? hs)) (vresize_length _ _ _) (vresize_length _ _ _)
  have h1 : Core (P.resetState shapes b I I.centres.length cs as P.ng) I := h1
  have e1 : (P.resetState shapes b I P.m P.centres P.absCentres P.ng).setupCentres I =
    .ok (P.resetState shapes b I I.centres.length cs as P.ng) := e1
  have hpos : 0 < shapes.length := List.length_pos_iff.mpr hne
  obtain ⟨og, e2, h2, h3, h5⟩ := rebuild_ok h1 hI.range_pos (by rw [resetState_size]; exact hpos) (by rw [resetState_cap]; exact hcap) (by
    intro g hg'
    refine ⟨(hg.ng g hg').1, ?_⟩
    rw [resetState_cap]; exact (hg.ng g hg').2)
  have h2 : QInv (P.resetState shapes b I I.centres.length cs as og) I := h2
  obtain ⟨n, e3, h4⟩ := recount_pinv hI h2 (by rw [resetState_size]; exact hpos) (by rw [resetState_cap]; exact hcap)
    (by intro g hg'; have := h3 g hg'; rw [resetState_cap] at this ⊢; exact this)
    (by
      intro g hg'
      refine ⟨(hg.tmp g hg').1, ?_⟩
      rw [resetState_cap]; exact (hg.tmp g hg').2)
    (fun h => mem_vresize_zero (hz h)) h5
  refine ⟨_, ?_, h4, ?_, rfl, rfl, rfl, rfl, rfl⟩
  · rw [reset, require_true'' (Box.volume_pos hb).ne', Outcome.ok_bind, require_true'' hI.range_pos, Outcome.ok_bind, require_true'' hne,
      Outcome.ok_bind, (within_iff hb shapes).mpr hin, Outcome.require_true, Outcome.ok_bind]
    rw [setupForInteraction]
    exact (bind_of e1 _).trans ((bind_of e2 _).trans e3)
  · show (shapes ++ List.replicate P.moveThreads defaultShape).take (P.resetState shapes b I I.centres.length cs as og).size = shapes
    rw [resetState_size]
    simp

theorem PInv.gridsHave {P : Packing} {I : Interaction} (hP : PInv P I) : GridsHave P P.cap :=
  ⟨fun g hg => gridHas_of hP hg, fun g hg => hP.tmp g hg⟩

theorem GridsHave.mono {P : Packing} {n n' : Nat} (h : GridsHave P n) (hn : n' ≤ n) : GridsHave P n' :=
  ⟨fun g hg => ⟨(h.ng g hg).1, hn.trans (h.ng g hg).2⟩, fun g hg => ⟨(h.tmp g hg).1, hn.trans (h.tmp g hg).2⟩⟩

theorem create_ok {I : Interaction} (hI : Contract I) {shapes : List Shape} {b : Box} (hb : b.WF) (hne : shapes ≠ [])
    (hin : ∀ s ∈ shapes, Inside b s.pos) (hcap : shapes.length * max 1 I.centres.length < 2 ^ 50) (threads : Nat) : ∃ P,
      create b shapes I threads = .ok P ∧ PInv P I ∧ mols P = shapes ∧ P.box = b ∧ P.hasWall = ⟨false, false, false⟩ ∧
        P.overlapCounting = false ∧ P.moveThreads = threads := by
  obtain ⟨P, e, h1, h2, h3, h4, h5, h6, -⟩ := reset_ok hI hb hne hin (P := { empty threads with shapes := [], lastAltered := [], lastDeltas := [] })
    ⟨(by intro g hg; cases hg), (by intro g hg; cases hg)⟩ hcap (by intro _ d hd; simp at hd)
  exact ⟨P, e, h1, h2, h3, h4, h5, h6⟩

/-- `setupForInteraction` on a packing in use. -/
theorem setup_ok {P : Packing} {I I' : Interaction} (hP : PInv P I) (hI' : Contract I') (hg : GridsHave P (P.size * max 1 I'.centres.length))
    (hcap : P.size * max 1 I'.centres.length < 2 ^ 50) (hz : I'.hasHard = false → ∀ d ∈ P.lastDeltas, d = 0) : ∃ P',
      P.setupForInteraction I' = .ok P' ∧ PInv P' I' ∧ mols P' = mols P ∧ P'.box = P.box ∧ P'.hasWall = P.hasWall ∧
        P'.overlapCounting = P.overlapCounting ∧ P'.moveThreads = P.moveThreads ∧ P'.size = P.size := by
  have c := hP.q.core
  obtain ⟨cs, as, e1, h1⟩ := setupCentres_ok (I := I') c.box c.threads c.inside c.la c.ld
  obtain ⟨og, e2, h2, h3, h5⟩ := rebuild_ok h1 hI'.range_pos hP.size_pos hcap (by
    intro g hg'
    exact ⟨(hg.ng g hg').1, (hg.ng g hg').2⟩)
  obtain ⟨n, e3, h4⟩ := recount_pinv hI' h2 hP.size_pos hcap (fun g hg' => h3 g hg') (by
    intro g hg'
    exact ⟨(hg.tmp g hg').1, (hg.tmp g hg').2⟩) hz h5
  refine ⟨_, ?_, h4, rfl, rfl, rfl, rfl, rfl, rfl⟩
  rw [setupForInteraction]
  exact (bind_of e1 _).trans ((bind_of e2 _).trans e3)

/-! ### Switches -/

theorem toggle_ok {P : Packing} {I : Interaction} (hP : PInv P I) (hI : Contract I) (on : Bool) : ∃ n,
    P.toggleOverlapCounting on I = .ok { P with overlapCounting := on, numOverlaps := n } ∧
      PInv { P with overlapCounting := on, numOverlaps := n } I := by
  have q := hP.q
  have q' : QInv { P with overlapCounting := on } I :=
    ⟨⟨q.core.m_eq, q.core.range_eq, q.core.threads, q.core.box, q.core.inside, fun i s hi hs =>
    ⟨(q.core.slots i s hi hs).shape, (q.core.slots i s hi hs).centre, (q.core.slots i s hi hs).abs⟩, q.core.clen, q.core.alen, q.core.la, q.core.ld⟩,
    q.grid⟩
  exact recount_pinv hI q' hP.size_pos hP.bound hP.ngCap hP.tmp hP.noHard hP.used

theorem walls_ok {P : Packing} {I : Interaction} (hP : PInv P I) (w : Vec3 Bool) (hoff : P.overlapCounting = false) :
    PInv (P.toggleWalls w) I := by
  have q := hP.q
  exact ⟨⟨⟨q.core.m_eq, q.core.range_eq, q.core.threads, q.core.box, q.core.inside, fun i s hi hs =>
    ⟨(q.core.slots i s hi hs).shape, (q.core.slots i s hi hs).centre, (q.core.slots i s hi hs).abs⟩, q.core.clen, q.core.alen, q.core.la, q.core.ld⟩,
    q.grid⟩, hP.size_pos, hP.bound, hP.ngCap, hP.tmp, (fun h => by rw [show (P.toggleWalls w).overlapCounting = P.overlapCounting from rfl, hoff] at h; cases h),
    hP.noHard, hP.used⟩

end Rampack.Packing
