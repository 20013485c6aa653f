import Verif.Shapes.CompositeLemmas
/-
C103: molecules made of spheres in a row, and their volumes.
-/
namespace Rampack

open Spec Shapes Composite Volume

namespace Composite

/-- Points of a molecule after new ones are added. -/
theorem addPoints_ok {m : Molecule} {l : List (String × Vec3 ℝ)} (hG : (m.geometry.points.map Prod.fst).Nodup) (hn : (l.map Prod.fst).Nodup) (hd : ∀ p ∈ l, ∀ q ∈ m.geometry.points, q.1 ≠ p.1) :
    m.addPoints l = .ok { m with geometry := { m.geometry with points := m.geometry.points ++ l } } ∧ ((m.geometry.points ++ l).map Prod.fst).Nodup := by
  obtain ⟨h1, h2⟩ := register_new m.geometry l hG hn hd
  rw [Molecule.addPoints, h1]
  exact ⟨rfl, h2⟩

theorem find_point {l : List (String × Vec3 ℝ)} (hn : (l.map Prod.fst).Nodup) {q : String × Vec3 ℝ} (hq : q ∈ l) : (l.find? fun p => p.1 == q.1) = some q := by
  induction l with
  | nil => cases hq
  | cons p l ih =>
    rw [List.map_cons, List.nodup_cons] at hn
    rcases List.mem_cons.mp hq with rfl | h
    · simp
    · rw [List.find?_cons_of_neg]
      · exact ih hn.2 h
      · simp only [beq_iff_eq]
        intro e
        exact hn.1 (by rw [e]; exact List.mem_map_of_mem h)

theorem named {G : Geometry} (hn : (G.points.map Prod.fst).Nodup) {name : String} {v : Vec3 ℝ} (ho : name ≠ "o") (h : (name, v) ∈ G.points) : G.getNamedPoint name = .ok v := by
  rw [Geometry.getNamedPoint, if_neg ho, find_point hn h]

theorem not_o (k : Nat) : "s" ++ toString k ≠ "o" := fun h => by have := name_first h; revert this; decide

theorem spherePoint_mem {data : List SphereData} {k : Nat} {d : SphereData} (h : data[k]? = some d) : ("s" ++ toString k, d.position) ∈ spherePoints data := by
  unfold spherePoints
  apply List.mem_map.mpr
  exact ⟨(d, k), List.mem_zipIdx_iff_getElem?.mpr h, rfl⟩

/-- Points of a molecule made of the spheres, with some more points. -/
theorem named_all {data : List SphereData} {G : Geometry} {l : List (String × Vec3 ℝ)} (hp : G.points = spherePoints data ++ l) (hn : (G.points.map Prod.fst).Nodup) :
    (∀ (k : Nat) (d : SphereData), data[k]? = some d → G.getNamedPoint ("s" ++ toString k) = .ok d.position) ∧ ∀ name v, name ≠ "o" → (name, v) ∈ l → G.getNamedPoint name = .ok v := by
  refine ⟨?_, ?_⟩
  · intro k d h
    exact named hn (not_o k) (by rw [hp]; exact List.mem_append_left _ (spherePoint_mem h))
  · intro name v ho h
    exact named hn ho (by rw [hp]; exact List.mem_append_right _ h)

theorem row_ne (n : Nat) (c r : Nat → ℝ) : row (n + 1) c r ≠ [] := by rw [row_cons]; simp

/-- The volume of a k-mer. -/
theorem kmerVolume_eq {n : Nat} {r d : ℝ} (hr : 0 < r) (hd : 0 < d) (z : ℝ) : kmerVolume (n + 1) r d = .ok (rowVolume n (fun k => z + k * d) fun _ => r) := by
  have e : rowVolume n (fun k => z + k * d) (fun _ => r) = ((n + 1 : Nat) : ℝ) * (4 / 3 * Real.pi * r ^ 3) - (n : ℝ) * common r r d := by
    unfold rowVolume
    have : ∀ k : Nat, z + ((k + 1 : Nat) : ℝ) * d - (z + k * d) = d := fun k => by push_cast; ring
    simp only [this, Finset.sum_const, Finset.card_range, nsmul_eq_mul]
  rw [e, kmerVolume]
  split
  · rename_i h
    rw [sphericalCap, decide_eq_true hr.le, decide_eq_true (by linarith)]
    simp only [Outcome.require_true, Outcome.ok_bind]
    rw [common, if_pos (by linarith)]
    congr 1
    rw [Nat.add_sub_cancel]
    push_cast
    field_simp
    ring
  · rename_i h
    rw [common_far (by linarith)]
    congr 1
    ring

theorem row_sum_z (n : Nat) (z d : ℝ) : ∑ k ∈ Finset.range n, (z + (k : ℝ) * d) = n * z + n * ((n : ℝ) - 1) / 2 * d := by
  induction n with
  | zero => simp
  | succ n ih => rw [Finset.sum_range_succ, ih]; push_cast; ring

theorem balances_row (n : Nat) (c : Nat → ℝ) (r : ℝ) (h : ∑ k ∈ Finset.range n, c k = 0) : Balances (row n c fun _ => r) 0 := by
  have key : ∀ n, ((row n c fun _ => r).map fun d => (d.radius ^ 3) • (d.position - 0)).sum = ⟨0, 0, r ^ 3 * ∑ k ∈ Finset.range n, c k⟩ := by
    intro n
    induction n with
    | zero => ext <;> simp [row]
    | succ n ih =>
      rw [row_succ, List.map_append, List.sum_append, ih, Finset.sum_range_succ]
      ext <;> simp <;> ring
  unfold Balances
  rw [key, h, mul_zero]
  rfl

theorem massCentre_kmer {n : Nat} {r d : ℝ} (hr : 0 < r) : massCentre (row (n + 1) (fun k => -((n : ℝ)) / 2 * d + k * d) fun _ => r) = 0 := by
  refine ((C72_balances (row_ne n _ _) ?_ 0).mp (balances_row _ _ _ ?_)).symm
  · intro s hs
    obtain ⟨k, _, rfl⟩ := List.mem_map.mp hs
    exact hr
  · rw [row_sum_z]
    push_cast
    ring

/-- What is built by `KMerTraits`. -/
theorem kmer_eq {n : Nat} {r d : ℝ} (hr : 0 < r) (hd : 0 < d) (hn : 1 ≤ n) :
    ∃ m, kmer (n + 1) r d = .ok m ∧ m.spheres = row (n + 1) (fun k => -((n : ℝ)) / 2 * d + k * d) (fun _ => r) ∧
      m.volume = rowVolume n (fun k => -((n : ℝ)) / 2 * d + k * d) (fun _ => r) ∧ m.geometry.primary = some ⟨0, 0, 1⟩ ∧ m.geometry.secondary = some ⟨1, 0, 0⟩ ∧ m.geometry.origin = 0 ∧
      m.geometry.points = spherePoints m.spheres ++ [("cm", 0), ("beg", ⟨0, 0, -((n : ℝ)) / 2 * d⟩), ("end", ⟨0, 0, -((n : ℝ)) / 2 * d + n * d⟩)] ∧
      (m.geometry.points.map Prod.fst).Nodup := by
  have hmc := massCentre_kmer (n := n) (d := d) hr
  have hrow : ((row (n + 1) (fun k => -((n : ℝ)) / 2 * d + k * d) fun _ => r).map fun s => (⟨s.position - 0, s.radius⟩ : SphereData)) = row (n + 1) (fun k => -((n : ℝ)) / 2 * d + k * d) fun _ => r := by
    conv_rhs => rw [← List.map_id (row _ _ _)]
    apply List.map_congr_left
    intro s _
    simp
  have hpts : ((spherePoints (row (n + 1) (fun k => -((n : ℝ)) / 2 * d + k * d) fun _ => r)).map fun p => (p.1, p.2 + -(0 : Vec3 ℝ))) = spherePoints (row (n + 1) (fun k => -((n : ℝ)) / 2 * d + k * d) fun _ => r) := by
    conv_rhs => rw [← List.map_id (spherePoints _)]
    apply List.map_congr_left
    intro s _
    simp
  have hnorm : (Molecule.normalizeMassCentre ⟨row (n + 1) (fun k => -((n : ℝ)) / 2 * d + k * d) (fun _ => r), rowVolume n (fun k => -((n : ℝ)) / 2 * d + k * d) (fun _ => r),
      axisGeometry (row (n + 1) (fun k => -((n : ℝ)) / 2 * d + k * d) fun _ => r) (some ⟨1, 0, 0⟩)⟩) =
      ⟨row (n + 1) (fun k => -((n : ℝ)) / 2 * d + k * d) (fun _ => r), rowVolume n (fun k => -((n : ℝ)) / 2 * d + k * d) (fun _ => r),
      axisGeometry (row (n + 1) (fun k => -((n : ℝ)) / 2 * d + k * d) fun _ => r) (some ⟨1, 0, 0⟩)⟩ := by
    unfold Molecule.normalizeMassCentre
    simp only [hmc, hrow]
    congr 1
    unfold axisGeometry
    simp only [hpts, sub_zero]
  have hadd := addPoints_ok (m := Molecule.setOrigin ⟨row (n + 1) (fun k => -((n : ℝ)) / 2 * d + k * d) (fun _ => r), rowVolume n (fun k => -((n : ℝ)) / 2 * d + k * d) (fun _ => r),
      axisGeometry (row (n + 1) (fun k => -((n : ℝ)) / 2 * d + k * d) fun _ => r) (some ⟨1, 0, 0⟩)⟩ ⟨0, 0, 0⟩)
    (l := [("cm", ⟨0, 0, 0⟩), ("beg", ⟨0, 0, -((n : ℝ)) / 2 * d + ((0 : Nat) : ℝ) * d⟩), ("end", ⟨0, 0, -((n : ℝ)) / 2 * d + n * d⟩)])
    (sphere_names _) (by simp) (by
      intro p hp
      simp only [List.mem_cons, List.not_mem_nil, or_false] at hp
      rcases hp with rfl | rfl | rfl
      · exact other_names not_cm _
      · exact other_names not_beg _
      · exact other_names not_end _)
  refine ⟨_, Eq.trans ?_ hadd.1, rfl, rfl, rfl, rfl, rfl, ?_, hadd.2⟩
  · rw [kmer, decide_eq_true (show n + 1 ≥ 2 by omega), decide_eq_true hr, decide_eq_true hd, kmerSpheres_eq hr, Nat.add_sub_cancel, kmerVolume_eq hr hd]
    simp only [Outcome.require_true, Outcome.ok_bind]
    rw [build_ok (row_ne n _ _) (Or.inr rfl)]
    simp only [Outcome.ok_bind]
    rw [hnorm]
    simp only [front_row, back_row, Outcome.ok_bind]
  · show spherePoints _ ++ _ = _
    congr 1
    simp only [Nat.cast_zero, zero_mul, add_zero]
    rfl

end Composite

/-- C103 for k-mers: they are built exactly for at least two spheres, a positive radius and a positive distance; their spheres have the given number, radius and distance, lie on the z axis symmetrically with respect to the origin, which is
the mass centre, points are at the ends and at all spheres, and the volume is the volume of the body also when the spheres overlap. -/
theorem C103_kmer (n : Nat) (r d : ℝ) :
    ((∃ m, kmer n r d = .ok m) ↔ 2 ≤ n ∧ 0 < r ∧ 0 < d) ∧
    ∀ m, kmer n r d = .ok m → m.spheres.length = n ∧ (∀ k < n, m.spheres[k]? = some ⟨⟨0, 0, ((k : ℝ) - ((n : ℝ) - 1) / 2) * d⟩, r⟩) ∧
      Balances m.spheres 0 ∧ HasVolume (Balls3 m.spheres) m.volume ∧ (∀ s, m.geometry.getPrimaryAxis s = .ok (s.rot.mulVec ⟨0, 0, 1⟩)) ∧ (∀ s, m.geometry.getSecondaryAxis s = .ok (s.rot.mulVec ⟨1, 0, 0⟩)) ∧
      (∀ (k : Nat) (s : SphereData), m.spheres[k]? = some s → m.geometry.getNamedPoint ("s" ++ toString k) = .ok s.position) ∧ m.geometry.getNamedPoint "o" = .ok 0 ∧ m.geometry.getNamedPoint "cm" = .ok 0 ∧
      (∀ s, m.spheres[0]? = some s → m.geometry.getNamedPoint "beg" = .ok s.position) ∧ (∀ s, m.spheres[n - 1]? = some s → m.geometry.getNamedPoint "end" = .ok s.position) := by
  have hreq : ∀ m, kmer n r d = .ok m → 2 ≤ n ∧ 0 < r ∧ 0 < d := by
    intro m hm
    unfold kmer at hm
    obtain ⟨_, h1, hm⟩ := Outcome.bind_eq_ok.mp hm
    obtain ⟨_, h2, hm⟩ := Outcome.bind_eq_ok.mp hm
    obtain ⟨_, h3, hm⟩ := Outcome.bind_eq_ok.mp hm
    exact ⟨of_decide_eq_true (Outcome.require_eq_ok.mp h1), of_decide_eq_true (Outcome.require_eq_ok.mp h2), of_decide_eq_true (Outcome.require_eq_ok.mp h3)⟩
  refine ⟨⟨fun ⟨m, hm⟩ => hreq m hm, ?_⟩, ?_⟩
  · rintro ⟨hn, hr, hd⟩
    obtain ⟨n, rfl⟩ : ∃ k, n = k + 1 := ⟨n - 1, by omega⟩
    obtain ⟨m, hm, _⟩ := kmer_eq (n := n) hr hd (by omega)
    exact ⟨m, hm⟩
  · intro m hm
    obtain ⟨hn, hr, hd⟩ := hreq m hm
    obtain ⟨n, rfl⟩ : ∃ k, n = k + 1 := ⟨n - 1, by omega⟩
    obtain ⟨m', hm', hs, hv, hp1, hp2, ho, hpts, hnd⟩ := kmer_eq (n := n) hr hd (by omega)
    obtain rfl : m' = m := Outcome.ok_inj.mp (hm'.symm.trans hm)
    obtain ⟨hk, hl⟩ := named_all hpts hnd
    have hord := wedge_ordered (n := n + 1) (z := -((n : ℝ)) / 2 * d) (r := r) (δ := 0) (p := 2 * r - d) (fun k _ => by simpa using hr) (fun k _ => by simp; linarith)
    refine ⟨by rw [hs, row_length], ?_, ?_, ?_, ?_, ?_, hk, ?_, hl "cm" _ (by decide) (by simp), ?_, ?_⟩
    · intro k hk
      rw [hs, row_get hk]
      push_cast
      congr 4
      ring
    · rw [hs]
      apply balances_row
      rw [row_sum_z]
      push_cast
      ring
    · rw [hs, hv]
      have := row_volume hord
      simp only [sub_sub_cancel, mul_zero, add_zero] at this
      exact this
    · intro s; rw [Geometry.getPrimaryAxis, hp1]
    · intro s; rw [Geometry.getSecondaryAxis, Geometry.checkedAxis, hp1, hp2]; generalize m'.geometry.checksPrimary = b; cases b <;> rfl
    · rw [Geometry.getNamedPoint, if_pos rfl, Geometry.getGeometricOrigin, ho]
      congr 1
      ext <;> simp [Mat3.mulVec, Vec3.dot]
    · intro s h
      rw [hs, row_get (by omega)] at h
      rw [← Option.some.inj h]
      refine hl "beg" _ (by decide) ?_
      simp
    · intro s h
      rw [hs, Nat.add_sub_cancel, row_get (by omega)] at h
      rw [← Option.some.inj h]
      refine hl "end" _ (by decide) ?_
      simp

end Rampack
