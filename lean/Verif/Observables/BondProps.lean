import Verif.Observables.BondSpec
import Verif.Observables.SmecticProps
/-
Theorems on the bond order parameter (C93).
-/
namespace Rampack

open Spec BondOrder Grid

/-! ### Nearest neighbours -/

theorem bubble_perm : ∀ l : List Entry, (bubble l).Perm l
  | [] => by simp [bubble]
  | [_] => by simp [bubble]
  | x :: y :: l => by
    simp only [bubble]
    split_ifs
    · exact ((bubble_perm (x :: l)).cons y).trans (.swap x y l)
    · exact .refl _

theorem bubble_sorted : ∀ (x : Entry) (l : List Entry), l.Pairwise (fun a b => b.2 ≤ a.2) → (bubble (x :: l)).Pairwise (fun a b => b.2 ≤ a.2)
  | x, [], _ => by simp [bubble]
  | x, y :: l, h => by
    simp only [bubble]
    obtain ⟨h1, h2⟩ := List.pairwise_cons.mp h
    split_ifs with hc
    · refine List.pairwise_cons.mpr ⟨fun b hb => ?_, bubble_sorted x l h2⟩
      rcases List.mem_cons.mp ((bubble_perm (x :: l)).mem_iff.mp hb) with rfl | hb
      · exact hc.le
      · exact h1 b hb
    · refine List.pairwise_cons.mpr ⟨fun b hb => ?_, h⟩
      rcases List.mem_cons.mp hb with rfl | hb
      · exact not_lt.mp hc
      · exact (h1 b hb).trans (not_lt.mp hc)

/-- One insertion keeps the nearest ones. -/
theorem insert_nearest {r filler : Nat} (hr : 0 < r) {C v : List Entry} (h : NearestOf r filler C v) (j : Nat) (d : ℝ) :
    ∃ v', insertDistance v j d = .ok v' ∧ NearestOf r filler ((j, (d : WithTop ℝ)) :: C) v' := by
  obtain ⟨h1, h2, left, h3, h4⟩ := h
  unfold insertDistance
  cases hv : v.reverse with
  | nil =>
    rw [List.reverse_eq_nil_iff] at hv
    subst hv
    simp at h1; omega
  | cons last l =>
    have hv' : v = l.reverse ++ [last] := by
      rw [← List.reverse_reverse v, hv, List.reverse_cons]
    simp only []
    have hsr : (last :: l).Pairwise (fun a b : Entry => b.2 ≤ a.2) := by
      rw [← hv]
      exact List.pairwise_reverse.mpr h2
    have hlast : ∀ a ∈ v, a.2 ≤ last.2 := by
      intro a ha
      rw [← List.mem_reverse, hv] at ha
      rcases List.mem_cons.mp ha with rfl | ha
      · exact le_refl _
      · exact (List.pairwise_cons.mp hsr).1 a ha
    split_ifs with hc
    · refine ⟨v, rfl, h1, h2, (j, (d : WithTop ℝ)) :: left, ?_, ?_⟩
      · exact List.perm_middle.trans (h3.cons _)
      · intro a ha b hb
        rcases List.mem_cons.mp hb with rfl | hb
        · exact (hlast a ha).trans hc.le
        · exact h4 a ha b hb
    · have hp := bubble_perm ((j, (d : WithTop ℝ)) :: l)
      have hlen : l.length + 1 = r := by rw [← h1, hv']; simp
      refine ⟨_, rfl, ?_, ?_, last :: left, ?_, ?_⟩
      · rw [List.length_reverse, hp.length_eq, List.length_cons, hlen]
      · exact List.pairwise_reverse.mpr (bubble_sorted _ l (List.pairwise_cons.mp hsr).2)
      · have e1 : ((bubble ((j, (d : WithTop ℝ)) :: l)).reverse ++ last :: left).Perm ((j, (d : WithTop ℝ)) :: (l ++ last :: left)) :=
          (List.Perm.append_right _ ((List.reverse_perm _).trans hp))
        refine e1.trans (List.Perm.cons _ ?_)
        refine List.Perm.trans ?_ h3
        rw [hv', List.append_assoc]
        exact List.Perm.append_right _ (List.reverse_perm l).symm
      · intro a ha b hb
        rw [List.mem_reverse] at ha
        have ha' : a.2 ≤ last.2 := by
          rcases List.mem_cons.mp (hp.mem_iff.mp ha) with rfl | ha
          · exact not_lt.mp hc
          · exact (List.pairwise_cons.mp hsr).1 a ha
        rcases List.mem_cons.mp hb with rfl | hb
        · exact ha'
        · refine ha'.trans (h4 last ?_ b hb)
          rw [hv']; simp

/-- What is added for a particle by pairs. -/
noncomputable def added (linked : Nat → Nat → Prop) (dist : Nat → Nat → ℝ) (i : Nat) : List (Nat × Nat) → List Entry
  | [] => []
  | (a, b) :: l =>
    open Classical in
    if linked a b ∧ a = i then (b, (dist a b : WithTop ℝ)) :: added linked dist i l
    else if linked a b ∧ b = i then (a, (dist a b : WithTop ℝ)) :: added linked dist i l
    else added linked dist i l

theorem mem_added {linked : Nat → Nat → Prop} {dist : Nat → Nat → ℝ} {i j : Nat} {d : WithTop ℝ} : ∀ {l : List (Nat × Nat)}, (∀ p ∈ l, p.1 < p.2) →
    ((j, d) ∈ added linked dist i l ↔ j ≠ i ∧ (min i j, max i j) ∈ l ∧ linked (min i j) (max i j) ∧ d = (dist (min i j) (max i j) : WithTop ℝ))
  | [], _ => by simp [added]
  | (a, b) :: l, h => by
    have hab : a < b := h (a, b) List.mem_cons_self
    have ih := mem_added (linked := linked) (dist := dist) (i := i) (j := j) (d := d) fun p hp => h p (List.mem_cons_of_mem _ hp)
    simp only [added, List.mem_cons, Prod.mk.injEq]
    split_ifs with h1 h2
    · obtain ⟨hl, rfl⟩ := h1
      simp only [List.mem_cons, Prod.mk.injEq]
      rw [ih]
      constructor
      · rintro (⟨rfl, rfl⟩ | ⟨h1, h2, h3⟩)
        · rw [min_eq_left hab.le, max_eq_right hab.le]
          exact ⟨hab.ne', .inl ⟨rfl, rfl⟩, hl, rfl⟩
        · exact ⟨h1, .inr h2, h3⟩
      · rintro ⟨h1, h2 | h2, h3⟩
        · have : j = b := by omega
          subst this
          rw [min_eq_left hab.le, max_eq_right hab.le] at h3
          exact .inl ⟨rfl, h3.2⟩
        · exact .inr ⟨h1, h2, h3⟩
    · obtain ⟨hl, rfl⟩ := h2
      simp only [List.mem_cons, Prod.mk.injEq]
      rw [ih]
      constructor
      · rintro (⟨rfl, rfl⟩ | ⟨h1, h2, h3⟩)
        · rw [min_eq_right hab.le, max_eq_left hab.le]
          exact ⟨hab.ne, .inl ⟨rfl, rfl⟩, hl, rfl⟩
        · exact ⟨h1, .inr h2, h3⟩
      · rintro ⟨h1, h2 | h2, h3⟩
        · have : j = a := by omega
          subst this
          rw [min_eq_right hab.le, max_eq_left hab.le] at h3
          exact .inl ⟨rfl, h3.2⟩
        · exact .inr ⟨h1, h2, h3⟩
    · rw [ih]
      constructor
      · rintro ⟨h1, h2, h3⟩
        exact ⟨h1, .inr h2, h3⟩
      · rintro ⟨h3, h4 | h4, h5⟩
        · exfalso
          rw [h4.1, h4.2] at h5
          have : a = i ∨ b = i := by omega
          rcases this with e | e
          · exact h1 ⟨h5.1, e⟩
          · exact h2 ⟨h5.1, e⟩
        · exact ⟨h3, h4, h5⟩

theorem added_nodup {linked : Nat → Nat → Prop} {dist : Nat → Nat → ℝ} {i : Nat} : ∀ {l : List (Nat × Nat)}, (∀ p ∈ l, p.1 < p.2) → l.Nodup →
    ((added linked dist i l).map Prod.fst).Nodup
  | [], _, _ => by simp [added]
  | (a, b) :: l, h, hn => by
    have hab : a < b := h (a, b) List.mem_cons_self
    have h' : ∀ p ∈ l, p.1 < p.2 := fun p hp => h p (List.mem_cons_of_mem _ hp)
    obtain ⟨hn1, hn2⟩ := List.nodup_cons.mp hn
    have ih := added_nodup (linked := linked) (dist := dist) (i := i) h' hn2
    simp only [added]
    split_ifs with h1 h2
    · rw [List.map_cons, List.nodup_cons]
      refine ⟨fun hm => ?_, ih⟩
      obtain ⟨⟨j, d⟩, hj, e⟩ := List.mem_map.mp hm
      obtain ⟨-, h3, -⟩ := (mem_added h').mp hj
      have : (min i j, max i j) = (a, b) := by
        have e : j = b := e
        rw [e, ← h1.2, min_eq_left hab.le, max_eq_right hab.le]
      rw [this] at h3
      exact hn1 h3
    · rw [List.map_cons, List.nodup_cons]
      refine ⟨fun hm => ?_, ih⟩
      obtain ⟨⟨j, d⟩, hj, e⟩ := List.mem_map.mp hm
      obtain ⟨-, h3, -⟩ := (mem_added h').mp hj
      have : (min i j, max i j) = (a, b) := by
        have e : j = a := e
        rw [e, ← h2.2, min_eq_right hab.le, max_eq_left hab.le]
      rw [this] at h3
      exact hn1 h3
    · exact ih

theorem mem_bondPairs {n : Nat} {p : Nat × Nat} : p ∈ BondOrder.pairs n ↔ p.1 < p.2 ∧ p.2 < n := by
  obtain ⟨a, b⟩ := p
  unfold BondOrder.pairs
  simp only [List.mem_flatMap, List.mem_map, List.mem_range, Prod.mk.injEq]
  constructor
  · rintro ⟨i, h1, j, h2, rfl, rfl⟩; omega
  · rintro ⟨h1, h2⟩; exact ⟨a, by omega, b - (a + 1), by omega, rfl, by omega⟩

theorem bondPairs_nodup (n : Nat) : (BondOrder.pairs n).Nodup := by
  unfold BondOrder.pairs
  rw [List.nodup_flatMap]
  refine ⟨fun i _ => List.Nodup.map (fun j j' h => ?_) List.nodup_range, ?_⟩
  · simp only [Prod.mk.injEq] at h; omega
  · refine List.Pairwise.imp ?_ (List.nodup_range (n := n))
    intro i i' hne p h1 h2
    obtain ⟨j, -, rfl⟩ := List.mem_map.mp h1
    obtain ⟨j', -, e⟩ := List.mem_map.mp h2
    simp only [Prod.mk.injEq] at e
    exact hne e.1.symm

/-- Particles `i` and `j` are in the same layer. -/
def Linked (b : Box) (L : Layers) (layering : List (Vec3 ℝ)) (i j : Nat) : Prop := ∃ p q, layering[i]? = some p ∧ layering[j]? = some q ∧ sameLayer b L p q

/-- The squared distance of particles `i` and `j` in the plane. -/
noncomputable def bondDist (b : Box) (kn : Vec3 ℝ) (bond : List (Vec3 ℝ)) (i j : Nat) : ℝ := distance2 b kn (bond.getD i 0) (bond.getD j 0)

/-- All particles have the nearest ones of those seen. -/
def NearestAll (b : Box) (L : Layers) (kn : Vec3 ℝ) (r : Nat) (layering bond : List (Vec3 ℝ)) (done : List (Nat × Nat)) (knn : List (List Entry)) : Prop :=
  knn.length = layering.length ∧ ∀ i v, knn[i]? = some v → NearestOf r 0 (added (Linked b L layering) (bondDist b kn bond) i done) v

theorem link_nearest {b : Box} {L : Layers} {kn : Vec3 ℝ} {r : Nat} {layering bond : List (Vec3 ℝ)} (hr : 0 < r) (hl : layering.length = bond.length)
    {done : List (Nat × Nat)} {knn : List (List Entry)} (h : NearestAll b L kn r layering bond done knn) {p : Nat × Nat} (hp : p.1 < p.2) (hn : p.2 < layering.length) :
    ∃ knn', link b L kn layering bond knn p = .ok knn' ∧ NearestAll b L kn r layering bond (p :: done) knn' := by
  obtain ⟨a, c⟩ := p
  simp only at hp hn
  obtain ⟨h1, h2⟩ := h
  have ha : a < layering.length := by omega
  unfold link
  simp only []
  rw [vget_ok ha, Outcome.ok_bind, vget_ok hn, Outcome.ok_bind]
  have hlink : Linked b L layering a c ↔ sameLayer b L layering[a] layering[c] := by
    constructor
    · rintro ⟨p, q, e1, e2, e3⟩
      rw [List.getElem?_eq_getElem ha] at e1
      rw [List.getElem?_eq_getElem hn] at e2
      injection e1 with e1
      injection e2 with e2
      rw [e1, e2]; exact e3
    · intro h
      exact ⟨_, _, List.getElem?_eq_getElem ha, List.getElem?_eq_getElem hn, h⟩
  by_cases hs : sameLayer b L layering[a] layering[c]
  · rw [if_pos hs]
    have ha' : a < bond.length := by omega
    have hc' : c < bond.length := by omega
    have hak : a < knn.length := by omega
    rw [vget_ok ha', Outcome.ok_bind, vget_ok hc', Outcome.ok_bind, vget_ok hak, Outcome.ok_bind]
    have hd : distance2 b kn bond[a] bond[c] = bondDist b kn bond a c := by
      unfold bondDist
      rw [List.getD_eq_getElem?_getD, List.getD_eq_getElem?_getD, List.getElem?_eq_getElem ha', List.getElem?_eq_getElem hc']
      rfl
    rw [hd]
    obtain ⟨v1, e1, n1⟩ := insert_nearest hr (h2 a _ (List.getElem?_eq_getElem hak)) c (bondDist b kn bond a c)
    rw [e1, Outcome.ok_bind, vset_ok hak, Outcome.ok_bind]
    have hck : c < (knn.set a v1).length := by rw [List.length_set]; omega
    rw [vget_ok hck, Outcome.ok_bind]
    have hg : (knn.set a v1)[c] = knn[c]'(by omega) := by
      rw [List.getElem_set, if_neg (by omega)]
    rw [hg]
    obtain ⟨v2, e2, n2⟩ := insert_nearest hr (h2 c _ (List.getElem?_eq_getElem (by omega))) a (bondDist b kn bond a c)
    rw [e2, Outcome.ok_bind, vset_ok hck]
    refine ⟨_, rfl, by rw [List.length_set, List.length_set, h1], ?_⟩
    intro i v hv
    rw [List.getElem?_set, List.getElem?_set] at hv
    simp only [added, hlink, hs, true_and]
    by_cases hic : c = i
    · subst hic
      rw [if_pos rfl, if_pos hck] at hv
      injection hv with hv
      subst hv
      rw [if_neg (by omega), if_pos rfl]
      exact n2
    · rw [if_neg hic] at hv
      by_cases hia : a = i
      · subst hia
        rw [if_pos rfl, if_pos hak] at hv
        injection hv with hv
        subst hv
        rw [if_pos rfl]
        exact n1
      · rw [if_neg hia] at hv
        rw [if_neg hia, if_neg hic]
        exact h2 i v hv
  · rw [if_neg hs]
    refine ⟨knn, rfl, h1, ?_⟩
    intro i v hv
    simp only [added, hlink, hs, false_and, if_false]
    exact h2 i v hv

theorem links_nearest {b : Box} {L : Layers} {kn : Vec3 ℝ} {r : Nat} {layering bond : List (Vec3 ℝ)} (hr : 0 < r) (hl : layering.length = bond.length) :
    ∀ (l done : List (Nat × Nat)) (knn : List (List Entry)), NearestAll b L kn r layering bond done knn → (∀ p ∈ l, p.1 < p.2 ∧ p.2 < layering.length) →
    ∃ knn', l.foldlM (link b L kn layering bond) knn = .ok knn' ∧ NearestAll b L kn r layering bond (l.reverse ++ done) knn'
  | [], done, knn, h, _ => ⟨knn, rfl, h⟩
  | p :: l, done, knn, h, hp => by
    obtain ⟨k1, e1, h1⟩ := link_nearest hr hl h (hp p List.mem_cons_self).1 (hp p List.mem_cons_self).2
    obtain ⟨k2, e2, h2⟩ := links_nearest hr hl l (p :: done) k1 h1 fun q hq => hp q (List.mem_cons_of_mem _ hq)
    refine ⟨k2, by rw [List.foldlM_cons, e1, Outcome.ok_bind, e2], ?_⟩
    rw [List.reverse_cons, List.append_assoc]
    exact h2

/-- **C93** The neighbours found for each particle are the nearest ones, in the plane of layers, of the particles in the same layer, from the nearest one; if there are too
few, the list is completed with the particle number 0 at infinity. Layers are compared and distances are taken for nearest images. -/
theorem C93_nearest {b : Box} {L : Layers} {kn : Vec3 ℝ} (hk : normalize L.k = .ok kn) {r : Nat} (hr : 0 < r) {layering bond : List (Vec3 ℝ)}
    (hl : layering.length = bond.length) : ∃ knn, constructKnn b L r layering bond = .ok knn ∧ knn.length = bond.length ∧
      ∀ (i : Nat) (v : List Entry), knn[i]? = some v → ∃ C : List (Nat × WithTop ℝ), NearestOf r 0 C v ∧ (C.map Prod.fst).Nodup ∧
        ∀ j d, (j, d) ∈ C ↔ j ≠ i ∧ ∃ p q p' q', layering[min i j]? = some p ∧ layering[max i j]? = some q ∧ bond[min i j]? = some p' ∧ bond[max i j]? = some q' ∧
          roundAway ((p.dot L.k - L.angle) / (2 * Real.pi)) = roundAway (((q + PBC.getTranslation b p q).dot L.k - L.angle) / (2 * Real.pi)) ∧
          d = ((max 0 ((q' + PBC.getTranslation b p' q' - p').norm2 - ((q' + PBC.getTranslation b p' q' - p').dot kn) ^ 2) : ℝ) : WithTop ℝ) := by
  unfold constructKnn
  rw [show decide (layering.length = bond.length) = true by simpa using hl, Outcome.require_true, Outcome.ok_bind, hk, Outcome.ok_bind]
  have h0 : NearestAll b L kn r layering bond [] (List.replicate layering.length (List.replicate r (0, ⊤))) := by
    refine ⟨by simp, fun i v hv => ?_⟩
    rw [List.getElem?_replicate] at hv
    split_ifs at hv
    injection hv with hv
    subst hv
    refine ⟨by simp, ?_, [], by simp [added], by simp⟩
    rw [List.pairwise_replicate]
    exact .inr (le_refl _)
  obtain ⟨knn, e, h1, h2⟩ := links_nearest (b := b) (L := L) (kn := kn) hr hl (BondOrder.pairs layering.length) []
    (List.replicate layering.length (List.replicate r (0, ⊤))) h0 (fun p hp => mem_bondPairs.mp hp)
  refine ⟨knn, e, by rw [h1, hl], fun i v hv => ?_⟩
  have hlt : ∀ p ∈ (BondOrder.pairs layering.length).reverse ++ [], p.1 < p.2 := by
    intro p hp
    rw [List.append_nil, List.mem_reverse] at hp
    exact (mem_bondPairs.mp hp).1
  refine ⟨_, h2 i v hv, added_nodup hlt (by rw [List.append_nil, List.nodup_reverse]; exact bondPairs_nodup _), fun j d => ?_⟩
  rw [mem_added hlt, List.append_nil, List.mem_reverse, mem_bondPairs]
  constructor
  · rintro ⟨h3, ⟨h4, h5⟩, ⟨p, q, e1, e2, e3⟩, rfl⟩
    simp only at h4 h5
    have hmi : min i j < bond.length := by omega
    have hma : max i j < bond.length := by omega
    refine ⟨h3, p, q, _, _, e1, e2, List.getElem?_eq_getElem hmi, List.getElem?_eq_getElem hma, e3, ?_⟩
    unfold bondDist distance2
    rw [List.getD_eq_getElem?_getD, List.getD_eq_getElem?_getD, List.getElem?_eq_getElem hmi, List.getElem?_eq_getElem hma]
    rfl
  · rintro ⟨h3, p, q, p', q', e1, e2, e3, e4, e5, rfl⟩
    obtain ⟨hma, -⟩ := List.getElem?_eq_some_iff.mp e2
    refine ⟨h3, ⟨by simp only []; omega, hma⟩, ⟨p, q, e1, e2, e5⟩, ?_⟩
    unfold bondDist distance2
    rw [List.getD_eq_getElem?_getD, List.getD_eq_getElem?_getD, e3, e4]
    rfl

/-! ### Plane of layers -/

theorem cross_norm2 (a b : Vec3 ℝ) : (a.cross b).norm2 = a.norm2 * b.norm2 - (a.dot b) ^ 2 := by
  simp only [Vec3.norm2, Vec3.dot, Vec3.cross]; ring

theorem dot_cross_self (a b : Vec3 ℝ) : a.dot (a.cross b) = 0 ∧ b.dot (a.cross b) = 0 := by
  constructor <;> (simp only [Vec3.dot, Vec3.cross]; ring)

theorem normalize_zero {v : Vec3 ℝ} (h : v.norm2 = 0) : normalize v = .ub := by
  unfold normalize
  rw [if_pos (by rw [Vec3.norm, h, Real.sqrt_zero])]

theorem normalize_scaled {v n : Vec3 ℝ} (h : normalize v = .ok n) : ∃ c : ℝ, n = c • v := by
  unfold normalize at h
  split_ifs at h with h1
  injection h with h
  refine ⟨1 / v.norm, ?_⟩
  rw [← h]
  ext <;> simp <;> ring

theorem cross_min_zero (k : Vec3 ℝ) (hk : k.norm2 ≠ 0) : (k.cross (Geometry.reference (minIndex k))).norm2 = 0 ↔ ∃ c : ℝ, 0 < c ∧ (k = ⟨-c, 0, 0⟩ ∨ k = ⟨0, -c, 0⟩ ∨ k = ⟨0, 0, -c⟩) := by
  have sq2 : ∀ a b : ℝ, a * a + b * b = 0 ↔ a = 0 ∧ b = 0 := by
    intro a b
    constructor
    · intro h
      constructor <;> nlinarith [mul_self_nonneg a, mul_self_nonneg b]
    · rintro ⟨rfl, rfl⟩; simp
  have e0 : (k.cross (Geometry.reference 0)).norm2 = k.z * k.z + k.y * k.y := by simp [Vec3.norm2, Vec3.dot, Vec3.cross, Geometry.reference, Vec3.ofFn]
  have e1 : (k.cross (Geometry.reference 1)).norm2 = k.z * k.z + k.x * k.x := by simp [Vec3.norm2, Vec3.dot, Vec3.cross, Geometry.reference, Vec3.ofFn]
  have e2 : (k.cross (Geometry.reference 2)).norm2 = k.y * k.y + k.x * k.x := by simp [Vec3.norm2, Vec3.dot, Vec3.cross, Geometry.reference, Vec3.ofFn]
  have hne : ¬ (k.x = 0 ∧ k.y = 0 ∧ k.z = 0) := by
    rintro ⟨h1, h2, h3⟩
    apply hk
    simp [Vec3.norm2, Vec3.dot, h1, h2, h3]
  constructor
  · intro h
    unfold minIndex at h
    split_ifs at h with h1 h2 h2
    · rw [e2, sq2] at h
      refine ⟨-k.z, by linarith, .inr (.inr ?_)⟩
      ext <;> simp [h.1, h.2]
    · rw [e1, sq2] at h
      refine ⟨-k.y, by linarith, .inr (.inl ?_)⟩
      ext <;> simp [h.1, h.2]
    · rw [e2, sq2] at h
      refine ⟨-k.z, by linarith, .inr (.inr ?_)⟩
      ext <;> simp [h.1, h.2]
    · rw [e0, sq2] at h
      have : k.x < 0 := lt_of_le_of_ne (by linarith [not_lt.mp h1]) fun e => hne ⟨e, h.2, h.1⟩
      refine ⟨-k.x, by linarith, .inl ?_⟩
      ext <;> simp [h.1, h.2]
  · rintro ⟨c, hc, rfl | rfl | rfl⟩
    · rw [show minIndex ⟨-c, 0, 0⟩ = 0 by simp [minIndex, not_lt.mpr hc.le], e0]; simp
    · rw [show minIndex ⟨0, -c, 0⟩ = 1 by simp [minIndex, hc, not_lt.mpr hc.le], e1]; simp
    · rw [show minIndex ⟨0, 0, -c⟩ = 2 by simp [minIndex, hc], e2]; simp

/-- **C93** The plane of layers is found unless the wave vector points along a coordinate axis in its negative direction; then it is the plane perpendicular to the wave vector,
with two perpendicular unit vectors spanning it. -/
theorem C93_frame {b : Box} {hkl : Vec3 ℤ} {points : List (Vec3 ℝ)} (hk : (kVector b hkl).norm2 ≠ 0) :
    ((∃ c : ℝ, 0 < c ∧ (kVector b hkl = ⟨-c, 0, 0⟩ ∨ kVector b hkl = ⟨0, -c, 0⟩ ∨ kVector b hkl = ⟨0, 0, -c⟩)) → layerGeometry b hkl points = .ub) ∧
    (¬ (∃ c : ℝ, 0 < c ∧ (kVector b hkl = ⟨-c, 0, 0⟩ ∨ kVector b hkl = ⟨0, -c, 0⟩ ∨ kVector b hkl = ⟨0, 0, -c⟩)) →
      ∃ L, layerGeometry b hkl points = .ok L ∧ L.k = kVector b hkl ∧ PlaneFrame L.k L.p1 L.p2 ∧
        L.angle = Complex.arg (points.map fun p => Complex.exp (Complex.I * (L.k.dot p : ℝ))).sum) := by
  have h0 := cross_min_zero _ hk
  constructor
  · intro h
    unfold layerGeometry
    simp only []
    rw [normalize_zero (h0.mpr h)]
    rfl
  · intro h
    have h1 : 0 < ((kVector b hkl).cross (Geometry.reference (minIndex (kVector b hkl)))).norm2 := by
      refine lt_of_le_of_ne ?_ fun e => h (h0.mp e.symm)
      exact add_nonneg (add_nonneg (mul_self_nonneg _) (mul_self_nonneg _)) (mul_self_nonneg _)
    unfold layerGeometry
    simp only []
    generalize kVector b hkl = k at *
    obtain ⟨p1, e1⟩ := normalize_some h1
    rw [e1, Outcome.ok_bind]
    obtain ⟨u1, c1, hc1⟩ : p1.norm2 = 1 ∧ ∃ c : ℝ, p1 = c • k.cross (Geometry.reference (minIndex k)) := ⟨normalize_ok e1, normalize_scaled e1⟩
    have d1 : k.dot p1 = 0 := by
      rw [hc1]
      have := (dot_cross_self k (Geometry.reference (minIndex k))).1
      simp only [Vec3.dot, Vec3.smul_x, Vec3.smul_y, Vec3.smul_z] at this ⊢
      linear_combination c1 * this
    have h2 : 0 < (k.cross p1).norm2 := by
      rw [cross_norm2, u1, d1]
      have : 0 ≤ k.norm2 := by simp only [Vec3.norm2, Vec3.dot]; nlinarith [mul_self_nonneg k.x, mul_self_nonneg k.y, mul_self_nonneg k.z]
      have := lt_of_le_of_ne this (Ne.symm hk)
      linarith
    obtain ⟨p2, e2⟩ := normalize_some h2
    rw [e2, Outcome.ok_bind]
    obtain ⟨u2, c2, hc2⟩ : p2.norm2 = 1 ∧ ∃ c : ℝ, p2 = c • k.cross p1 := ⟨normalize_ok e2, normalize_scaled e2⟩
    have d2 : k.dot p2 = 0 ∧ p1.dot p2 = 0 := by
      rw [hc2]
      obtain ⟨t1, t2⟩ := dot_cross_self k p1
      simp only [Vec3.dot, Vec3.smul_x, Vec3.smul_y, Vec3.smul_z] at t1 t2 ⊢
      constructor
      · linear_combination c2 * t1
      · linear_combination c2 * t2
    refine ⟨_, rfl, rfl, ⟨u1, u2, d2.2, d1, d2.1⟩, ?_⟩
    simp only []
    congr 1
    unfold BondOrder.tau
    rw [← List.foldl_map (f := fun p => Complex.exp (Complex.I * (k.dot p : ℝ))) (g := fun t a => t + a), ← List.sum_eq_foldl]

end Rampack
