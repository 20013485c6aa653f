import Verif.Observables.CorrelationProps
import Verif.Box.Props
import Verif.Sim.MirrorLemmas
/-
Theorems on enumeration of pairs and averages over them (C94).
-/
namespace Rampack

open Spec

/-! ### Enumeration -/

theorem mem_enumPairs {n : Nat} {p : Nat × Nat} : p ∈ PairEnumerator.pairs n ↔ p.1 ≤ p.2 ∧ p.2 < n := by
  obtain ⟨a, b⟩ := p
  unfold PairEnumerator.pairs
  simp only [List.mem_flatMap, List.mem_map, List.mem_range, Prod.mk.injEq]
  constructor
  · rintro ⟨i, h1, j, h2, rfl, rfl⟩; omega
  · rintro ⟨h1, h2⟩; exact ⟨a, by omega, b - a, by omega, rfl, by omega⟩

theorem enumPairs_nodup (n : Nat) : (PairEnumerator.pairs n).Nodup := by
  unfold PairEnumerator.pairs
  rw [List.nodup_flatMap]
  refine ⟨fun i _ => List.Nodup.map (fun j j' h => ?_) List.nodup_range, ?_⟩
  · simp only [Prod.mk.injEq] at h; omega
  · refine List.Pairwise.imp ?_ (List.nodup_range (n := n))
    intro i i' hne p h1 h2
    obtain ⟨j, -, rfl⟩ := List.mem_map.mp h1
    obtain ⟨j', -, e⟩ := List.mem_map.mp h2
    simp only [Prod.mk.injEq] at e
    exact hne e.1.symm

/-- The vector joining particles, for any numbers. -/
noncomputable def joining (b : Box) (points : List (Vec3 ℝ)) (i j : Nat) : Vec3 ℝ := points.getD j 0 + PBC.getTranslation b (points.getD i 0) (points.getD j 0) - points.getD i 0

theorem separation_ok {b : Box} {points : List (Vec3 ℝ)} {ij : Nat × Nat} (h1 : ij.1 < points.length) (h2 : ij.2 < points.length) :
    PairEnumerator.separation b points ij = .ok (joining b points ij.1 ij.2) := by
  unfold PairEnumerator.separation joining
  rw [vget_ok h1, Outcome.ok_bind, vget_ok h2, Outcome.ok_bind, List.getD_eq_getElem?_getD, List.getD_eq_getElem?_getD, List.getElem?_eq_getElem h1, List.getElem?_eq_getElem h2]
  rfl

theorem joining_nearest {b : Box} (hb : b.WF) (p q : Vec3 ℝ) : NearestVector b p q (q + PBC.getTranslation b p q - p) := by
  obtain ⟨⟨n, hn⟩, ⟨s, hs⟩, -⟩ := C06_translation (make_of_wf hb) p q
  exact ⟨⟨n, by rw [hn]⟩, s, hs⟩

theorem filterMap_id_map {α β : Type} (g : α → Option β) : ∀ l : List α, (l.map g).filterMap id = l.filterMap g
  | [] => rfl
  | a :: l => by
    rw [List.map_cons, List.filterMap_cons, List.filterMap_cons, filterMap_id_map g l]
    rfl

/-- What follows from a description of items given for pairs. -/
theorem items_of {n : Nat} {g : Nat × Nat → Option PairItem} (hg : ∀ p ∈ PairEnumerator.pairs n, ∀ x, g p = some x → x.i = p.1 ∧ x.j = p.2) :
    (((PairEnumerator.pairs n).filterMap g).map fun x => (x.i, x.j)).Nodup ∧
    ∀ x, x ∈ (PairEnumerator.pairs n).filterMap g ↔ (x.i ≤ x.j ∧ x.j < n) ∧ g (x.i, x.j) = some x := by
  constructor
  · have hsub : ∀ l : List (Nat × Nat), (∀ p ∈ l, ∀ x, g p = some x → x.i = p.1 ∧ x.j = p.2) → ((l.filterMap g).map fun x => (x.i, x.j)).Sublist l := by
      intro l
      induction l with
      | nil => intro _; simp
      | cons p l ih =>
        intro h
        have ih := ih fun q hq => h q (List.mem_cons_of_mem _ hq)
        rw [List.filterMap_cons]
        cases hp : g p with
        | none => exact ih.cons _
        | some x =>
          obtain ⟨e1, e2⟩ := h p List.mem_cons_self x hp
          simp only [List.map_cons]
          rw [e1, e2]
          exact ih.cons_cons _
    exact (hsub _ hg).nodup (enumPairs_nodup n)
  · intro x
    rw [List.mem_filterMap]
    constructor
    · rintro ⟨p, hp, e⟩
      obtain ⟨e1, e2⟩ := hg p hp x e
      rw [e1, e2]
      exact ⟨mem_enumPairs.mp hp, e⟩
    · rintro ⟨h1, h2⟩
      exact ⟨(x.i, x.j), mem_enumPairs.mpr h1, h2⟩

open Classical in
/-- **C94** Each pair of particles, with each particle paired with itself, is given to the observable at most once, and with radial and linear binning exactly once; the distance
vector is made of the vector to the nearest image in the way documented for the binning. With layerwise binning these are pairs of particles in the same layer. -/
theorem C94_pairs {E : PairEnumerator} (hE : E.Accepted) {V : View} {G : Geometry} (hb : V.box.WF) {focal : String} {p : Vec3 ℝ}
    (hf : match E with | .radial f => f = focal | .layerwise _ f => f = focal | .linear _ f => f = focal) (hp : G.getNamedPoint focal = .ok p) :
    ∃ l, E.enumerate V G = .ok l ∧ (l.map fun x => (x.i, x.j)).Nodup ∧
      (∀ x ∈ l, x.i ≤ x.j ∧ ∃ s t, V.shapes[x.i]? = some s ∧ V.shapes[x.j]? = some t ∧
        ∃ u, NearestVector V.box (s.pos + s.rot.mulVec p) (t.pos + t.rot.mulVec p) u ∧ DistanceVector E V.box u x.d) ∧
      ∀ i j s t, i ≤ j → V.shapes[i]? = some s → V.shapes[j]? = some t →
        ((∃ x ∈ l, x.i = i ∧ x.j = j) ↔ match E with
          | .layerwise hkl _ =>
            let k := BondOrder.kVector V.box hkl
            let angle := Complex.arg (V.shapes.map fun s => Complex.exp (Complex.I * (k.dot (s.pos + s.rot.mulVec p) : ℝ))).sum
            let u := s.pos + s.rot.mulVec p
            let v := t.pos + t.rot.mulVec p
            roundAway ((u.dot k - angle) / (2 * Real.pi)) = roundAway (((v + PBC.getTranslation V.box u v).dot k - angle) / (2 * Real.pi))
          | _ => True) := by
  set points := V.shapes.map fun s => s.pos + s.rot.mulVec p with hpts
  have hnp : V.namedPoints G focal = .ok points := by
    unfold View.namedPoints
    rw [hp, Outcome.ok_bind]
    rfl
  have hlen : points.length = V.shapes.length := by simp [hpts]
  have hget : ∀ {i : Nat} {s : Shape}, V.shapes[i]? = some s → points.getD i 0 = s.pos + s.rot.mulVec p := by
    intro i s hs
    rw [List.getD_eq_getElem?_getD, hpts, List.getElem?_map, hs]
    rfl
  have hlt : ∀ {i : Nat} {s : Shape}, V.shapes[i]? = some s → i < V.shapes.length := fun h => (List.getElem?_eq_some_iff.mp h).1
  have hjoin : ∀ {i j : Nat}, i ≤ j → j < V.shapes.length → ∃ s t, V.shapes[i]? = some s ∧ V.shapes[j]? = some t ∧
      NearestVector V.box (s.pos + s.rot.mulVec p) (t.pos + t.rot.mulVec p) (joining V.box points i j) := by
    intro i j hij hj
    have hi : i < V.shapes.length := by omega
    refine ⟨_, _, List.getElem?_eq_getElem hi, List.getElem?_eq_getElem hj, ?_⟩
    unfold joining
    rw [hget (List.getElem?_eq_getElem hi), hget (List.getElem?_eq_getElem hj)]
    exact joining_nearest hb _ _
  cases E with
  | radial f =>
    simp only at hf
    subst hf
    have hm : (PairEnumerator.pairs V.shapes.length).mapM (PairEnumerator.radialItem V.box points) =
        .ok ((PairEnumerator.pairs V.shapes.length).map fun ij => some ⟨ij.1, ij.2, joining V.box points ij.1 ij.2⟩) := by
      refine Grid.mapM_ok fun ij hij => ?_
      obtain ⟨h1, h2⟩ := mem_enumPairs.mp hij
      unfold PairEnumerator.radialItem
      rw [separation_ok (by omega) (by omega), Outcome.ok_bind]
      rfl
    obtain ⟨i1, i2⟩ := items_of (n := V.shapes.length) (g := fun ij => some ⟨ij.1, ij.2, joining V.box points ij.1 ij.2⟩)
      (by intro p _ x e; injection e with e; subst e; exact ⟨rfl, rfl⟩)
    refine ⟨_, ?_, i1, ?_, ?_⟩
    · unfold PairEnumerator.enumerate
      simp only []
      rw [hnp, Outcome.ok_bind, hm, Outcome.ok_bind, filterMap_id_map]
      rfl
    · intro x hx
      obtain ⟨⟨h1, h2⟩, e⟩ := (i2 x).mp hx
      obtain ⟨s, t, hs, ht, hn⟩ := hjoin h1 h2
      refine ⟨h1, s, t, hs, ht, _, hn, ?_⟩
      injection e with e
      show x.d = _
      rw [← e]
    · intro i j s t hij hs ht
      simp only [iff_true]
      exact ⟨⟨i, j, joining V.box points i j⟩, (i2 _).mpr ⟨⟨hij, hlt ht⟩, rfl⟩, rfl, rfl⟩
  | linear axis f =>
    simp only at hf
    subst hf
    have hnorm : (PairEnumerator.normal V.box axis).norm2 ≠ 0 ∧ ∀ i, i ≠ axis → (PairEnumerator.normal V.box axis).dot (V.box.sides.get i) = 0 := by
      have key : ∀ (u w : Vec3 ℝ), u.dot w = V.box.dims.det → u.norm2 ≠ 0 := by
        intro u w hu h0
        have := Box.cross_norm_pos_of hb hu
        rw [Vec3.norm, h0, Real.sqrt_zero] at this
        exact lt_irrefl _ this
      fin_cases axis
      · refine ⟨key _ _ Box.triple_yzx, fun i hi => ?_⟩
        fin_cases i
        · exact absurd rfl hi
        · show (V.box.sides.y.cross V.box.sides.z).dot V.box.sides.y = 0
          simp only [Vec3.cross, Vec3.dot]; ring
        · show (V.box.sides.y.cross V.box.sides.z).dot V.box.sides.z = 0
          simp only [Vec3.cross, Vec3.dot]; ring
      · refine ⟨key _ _ Box.triple_zxy, fun i hi => ?_⟩
        fin_cases i
        · show (V.box.sides.z.cross V.box.sides.x).dot V.box.sides.x = 0
          simp only [Vec3.cross, Vec3.dot]; ring
        · exact absurd rfl hi
        · show (V.box.sides.z.cross V.box.sides.x).dot V.box.sides.z = 0
          simp only [Vec3.cross, Vec3.dot]; ring
      · refine ⟨key _ _ Box.triple_eq_det, fun i hi => ?_⟩
        fin_cases i
        · show (V.box.sides.x.cross V.box.sides.y).dot V.box.sides.x = 0
          simp only [Vec3.cross, Vec3.dot]; ring
        · show (V.box.sides.x.cross V.box.sides.y).dot V.box.sides.y = 0
          simp only [Vec3.cross, Vec3.dot]; ring
        · exact absurd rfl hi
    obtain ⟨e, he⟩ := normalize_some (v := PairEnumerator.normal V.box axis)
      (lt_of_le_of_ne (add_nonneg (add_nonneg (mul_self_nonneg _) (mul_self_nonneg _)) (mul_self_nonneg _)) (Ne.symm hnorm.1))
    have hm : (PairEnumerator.pairs V.shapes.length).mapM (PairEnumerator.linearItem V.box e points) =
        .ok ((PairEnumerator.pairs V.shapes.length).map fun ij => some ⟨ij.1, ij.2, (joining V.box points ij.1 ij.2).dot e • e⟩) := by
      refine Grid.mapM_ok fun ij hij => ?_
      obtain ⟨h1, h2⟩ := mem_enumPairs.mp hij
      unfold PairEnumerator.linearItem
      rw [separation_ok (by omega) (by omega), Outcome.ok_bind]
      rfl
    obtain ⟨i1, i2⟩ := items_of (n := V.shapes.length) (g := fun ij => some ⟨ij.1, ij.2, (joining V.box points ij.1 ij.2).dot e • e⟩)
      (by intro p _ x e; injection e with e; subst e; exact ⟨rfl, rfl⟩)
    refine ⟨_, ?_, i1, ?_, ?_⟩
    · unfold PairEnumerator.enumerate
      simp only []
      rw [hnp, Outcome.ok_bind, he, Outcome.ok_bind, hm, Outcome.ok_bind, filterMap_id_map]
      rfl
    · intro x hx
      obtain ⟨⟨h1, h2⟩, ex⟩ := (i2 x).mp hx
      obtain ⟨s, t, hs, ht, hn⟩ := hjoin h1 h2
      refine ⟨h1, s, t, hs, ht, _, hn, e, normalize_ok he, ?_, ?_⟩
      · intro i hi
        obtain ⟨c, hc⟩ := normalize_scaled he
        have := hnorm.2 i hi
        rw [hc]
        simp only [Vec3.dot, Vec3.smul_x, Vec3.smul_y, Vec3.smul_z] at this ⊢
        linear_combination c * this
      · injection ex with ex
        rw [← ex]
    · intro i j s t hij hs ht
      simp only [iff_true]
      exact ⟨⟨i, j, (joining V.box points i j).dot e • e⟩, (i2 _).mpr ⟨⟨hij, hlt ht⟩, rfl⟩, rfl, rfl⟩
  | layerwise hkl f =>
    simp only at hf
    subst hf
    obtain ⟨-, hk⟩ := kVector_of hb hE
    obtain ⟨kn, hkn⟩ := normalize_some (v := BondOrder.kVector V.box hkl)
      (lt_of_le_of_ne (add_nonneg (add_nonneg (mul_self_nonneg _) (mul_self_nonneg _)) (mul_self_nonneg _)) (Ne.symm hk))
    obtain ⟨L, hL⟩ : ∃ L : BondOrder.Layers, L = ⟨BondOrder.kVector V.box hkl, 0, 0, Complex.arg (BondOrder.tau (BondOrder.kVector V.box hkl) points)⟩ := ⟨_, rfl⟩
    have hm : (PairEnumerator.pairs V.shapes.length).mapM (PairEnumerator.layerwiseItem V.box L kn points) =
        .ok ((PairEnumerator.pairs V.shapes.length).map fun ij => if BondOrder.sameLayer V.box L (points.getD ij.1 0) (points.getD ij.2 0) then
          some ⟨ij.1, ij.2, joining V.box points ij.1 ij.2 - (joining V.box points ij.1 ij.2).dot kn • kn⟩ else none) := by
      refine Grid.mapM_ok fun ij hij => ?_
      obtain ⟨h1, h2⟩ := mem_enumPairs.mp hij
      have h1' : ij.1 < points.length := by omega
      have h2' : ij.2 < points.length := by omega
      unfold PairEnumerator.layerwiseItem
      rw [vget_ok h1', Outcome.ok_bind, vget_ok h2', Outcome.ok_bind, List.getD_eq_getElem?_getD, List.getD_eq_getElem?_getD, List.getElem?_eq_getElem h1', List.getElem?_eq_getElem h2']
      simp only [Option.getD_some]
      split_ifs with hs
      · rw [separation_ok h1' h2', Outcome.ok_bind]
        rfl
      · rfl
    obtain ⟨i1, i2⟩ := items_of (n := V.shapes.length) (g := fun ij => if BondOrder.sameLayer V.box L (points.getD ij.1 0) (points.getD ij.2 0) then
          some ⟨ij.1, ij.2, joining V.box points ij.1 ij.2 - (joining V.box points ij.1 ij.2).dot kn • kn⟩ else none)
      (by
        intro p _ x e
        split_ifs at e
        injection e with e
        subst e
        exact ⟨rfl, rfl⟩)
    refine ⟨_, ?_, i1, ?_, ?_⟩
    · unfold PairEnumerator.enumerate
      simp only []
      rw [hkn, Outcome.ok_bind, hnp, Outcome.ok_bind, ← hL, hm, Outcome.ok_bind, filterMap_id_map]
      rfl
    · intro x hx
      obtain ⟨⟨h1, h2⟩, ex⟩ := (i2 x).mp hx
      obtain ⟨s, t, hs, ht, hn⟩ := hjoin h1 h2
      refine ⟨h1, s, t, hs, ht, _, hn, ?_⟩
      simp only at ex
      split_ifs at ex
      injection ex with ex
      have hd : x.d = joining V.box points x.i x.j - (joining V.box points x.i x.j).dot kn • kn := by rw [← ex]
      rw [hd]
      have hn1 := normalize_ok hkn
      have hkk := normalize_eq hkn
      obtain ⟨c, hc⟩ := normalize_scaled hkn
      generalize joining V.box points x.i x.j = u at *
      refine ⟨?_, u.dot kn * c, ?_⟩
      · rw [hkk]
        simp only [Vec3.norm2, Vec3.dot] at hn1
        simp only [Vec3.dot, Vec3.smul_x, Vec3.smul_y, Vec3.smul_z, Vec3.sub_x, Vec3.sub_y, Vec3.sub_z]
        linear_combination -((BondOrder.kVector V.box hkl).norm * (u.x * kn.x + u.y * kn.y + u.z * kn.z)) * hn1
      · have e2 : (u.dot kn * c) • BondOrder.kVector V.box hkl = u.dot kn • kn := by
          rw [hc]
          ext <;> simp <;> ring
        rw [e2]
        ext <;> simp
    · intro i j s t hij hs ht
      have hang : L.angle = Complex.arg (V.shapes.map fun s => Complex.exp (Complex.I * ((BondOrder.kVector V.box hkl).dot (s.pos + s.rot.mulVec p) : ℝ))).sum := by
        rw [hL]
        simp only []
        congr 1
        unfold BondOrder.tau
        rw [← List.foldl_map (f := fun p => Complex.exp (Complex.I * ((BondOrder.kVector V.box hkl).dot p : ℝ))) (g := fun t a => t + a), ← List.sum_eq_foldl, hpts, List.map_map]
        rfl
      have hsame : BondOrder.sameLayer V.box L (s.pos + s.rot.mulVec p) (t.pos + t.rot.mulVec p) ↔
          roundAway (((s.pos + s.rot.mulVec p).dot (BondOrder.kVector V.box hkl) - L.angle) / (2 * Real.pi)) =
            roundAway (((t.pos + t.rot.mulVec p + PBC.getTranslation V.box (s.pos + s.rot.mulVec p) (t.pos + t.rot.mulVec p)).dot (BondOrder.kVector V.box hkl) - L.angle) / (2 * Real.pi)) := by
        unfold BondOrder.sameLayer BondOrder.layerOf
        rw [hL]
      simp only []
      rw [← hang, ← hsame]
      constructor
      · rintro ⟨x, hx, rfl, rfl⟩
        have e := ((i2 x).mp hx).2
        simp only at e
        split_ifs at e with hsl
        rwa [hget hs, hget ht] at hsl
      · intro hsl
        refine ⟨⟨i, j, joining V.box points i j - (joining V.box points i j).dot kn • kn⟩, (i2 _).mpr ⟨⟨hij, hlt ht⟩, ?_⟩, rfl, rfl⟩
        simp only []
        rw [if_pos]
        rw [hget hs, hget ht]
        exact hsl

end Rampack
