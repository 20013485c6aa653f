import Verif.Shapes.CompositeProps
/-
C103: wedges made of spheres, and their volumes.
-/
namespace Rampack

open Spec Shapes Composite Volume

namespace Composite

/-- The last part of both generators. -/
noncomputable def finish (data : List SphereData) (v : ℝ) (n1 n2 : String) (known : Bool) : Outcome Molecule := do
  let m ← build data none v
  let f ← front data
  let b ← back data
  let m ← m.addPoints [(n1, f.position), (n2, b.position)]
  m.addMassCentre known

theorem finish_ok {N : Nat} {c r : Nat → ℝ} {v : ℝ} {n1 n2 : String} (known : Bool) (h12 : n1 ≠ n2) (h1 : ∀ k : Nat, "s" ++ toString k ≠ n1) (h2 : ∀ k : Nat, "s" ++ toString k ≠ n2)
    (h1c : n1 ≠ "cm") (h2c : n2 ≠ "cm") :
    ∃ m, finish (row (N + 1) c r) v n1 n2 known = .ok m ∧ m.spheres = row (N + 1) c r ∧ m.volume = v ∧ m.geometry.primary = some ⟨0, 0, 1⟩ ∧ m.geometry.secondary = none ∧ m.geometry.origin = 0 ∧
      m.geometry.points = spherePoints (row (N + 1) c r) ++ ([(n1, ⟨0, 0, c 0⟩), (n2, ⟨0, 0, c N⟩)] ++ if known then [("cm", massCentre (row (N + 1) c r))] else []) ∧
      (m.geometry.points.map Prod.fst).Nodup := by
  have hadd := addPoints_ok (m := ⟨row (N + 1) c r, v, axisGeometry (row (N + 1) c r) none⟩) (l := [(n1, ⟨0, 0, c 0⟩), (n2, ⟨0, 0, c N⟩)]) (sphere_names _) (by simp [h12]) (by
      intro p hp
      simp only [List.mem_cons, List.not_mem_nil, or_false] at hp
      rcases hp with rfl | rfl
      · exact other_names h1 _
      · exact other_names h2 _)
  have e : finish (row (N + 1) c r) v n1 n2 known = Molecule.addMassCentre ⟨row (N + 1) c r, v, { axisGeometry (row (N + 1) c r) none with points := spherePoints (row (N + 1) c r) ++ [(n1, ⟨0, 0, c 0⟩), (n2, ⟨0, 0, c N⟩)] }⟩ known := by
    rw [finish, build_ok (row_ne N _ _) (Or.inl rfl), Outcome.ok_bind, front_row, Outcome.ok_bind, back_row, Outcome.ok_bind, hadd.1, Outcome.ok_bind]
    rfl
  cases known with
  | false =>
    refine ⟨_, e, rfl, rfl, rfl, rfl, rfl, ?_, ?_⟩
    · simp only [Bool.false_eq_true, if_false, List.append_nil]
    · exact hadd.2
  | true =>
    have hadd2 := addPoints_ok (m := ⟨row (N + 1) c r, v, { axisGeometry (row (N + 1) c r) none with points := spherePoints (row (N + 1) c r) ++ [(n1, ⟨0, 0, c 0⟩), (n2, ⟨0, 0, c N⟩)] }⟩)
      (l := [("cm", massCentre (row (N + 1) c r))]) hadd.2 (by simp) (by
        intro p hp q hq
        rw [List.mem_singleton.mp hp]
        rcases List.mem_append.mp hq with hq | hq
        · exact other_names not_cm _ q hq
        · simp only [List.mem_cons, List.not_mem_nil, or_false] at hq
          rcases hq with rfl | rfl
          · exact h1c
          · exact h2c)
    refine ⟨_, e.trans (Eq.trans ?_ hadd2.1), rfl, rfl, rfl, rfl, rfl, ?_, hadd2.2⟩
    · rw [Molecule.addMassCentre, if_pos rfl]
    · simp only [if_true]
      rw [← List.append_assoc]

/-- Radii of a wedge are between the radii at its ends. -/
theorem wedge_radius {N k : Nat} (hN : 1 ≤ N) (hk : k < N + 1) {b t x : ℝ} (hb : x < b) (ht : x < t) : x < b + (k : ℝ) * ((t - b) / N) := by
  have hN' : (0 : ℝ) < N := by exact_mod_cast hN
  have hk' : (k : ℝ) ≤ N := by exact_mod_cast (by omega : k ≤ N)
  have h0 : (0 : ℝ) ≤ k := by positivity
  have : b + (k : ℝ) * ((t - b) / N) - x = ((N - k) * (b - x) + k * (t - x)) / N := by field_simp; ring
  have h2 : 0 < ((N - k) * (b - x) + k * (t - x)) / N := by
    apply div_pos _ hN'
    rcases eq_or_lt_of_le hk' with e | e
    · rw [e, sub_self, zero_mul, zero_add]
      exact mul_pos hN' (by linarith)
    · exact add_pos_of_pos_of_nonneg (mul_pos (by linarith) (by linarith)) (mul_nonneg h0 (by linarith))
  linarith

theorem rowVolume_congr {n : Nat} {c c' r : Nat → ℝ} (h : ∀ k < n, c (k + 1) - c k = c' (k + 1) - c' k) : rowVolume n c r = rowVolume n c' r := by
  unfold rowVolume
  congr 1
  apply Finset.sum_congr rfl
  intro k hk
  rw [h k (Finset.mem_range.mp hk)]

/-- The volume computed for a wedge. -/
theorem wedgeVolume_eq {N : Nat} {c r : Nat → ℝ} {p : ℝ} (ho : Ordered (N + 1) c r) (hd : ∀ k < N, c (k + 1) - c k = r k + r (k + 1) - p) : wedgeVolume (row (N + 1) c r) p = .ok (rowVolume N c r) := by
  rw [wedgeVolume, baseVolume_row]
  split
  · rename_i h
    rw [subtract_eq]
    · rfl
    · exact ho.pos
    · intro k hk
      exact ⟨sub_pos.mpr (ho.up k (by omega)), by rw [hd k hk]; linarith⟩
  · rename_i h
    congr 1
    unfold rowVolume
    rw [Finset.sum_eq_zero (s := Finset.range N), sub_zero]
    intro k hk
    rw [hd k (Finset.mem_range.mp hk)]
    exact common_far (by linarith)

/-- Heights of spheres of a wedge. -/
noncomputable def wedgeHeight (N : Nat) (b t p : ℝ) (k : Nat) : ℝ :=
  0 + k * (2 * b - p) + (k : ℝ) ^ 2 * ((t - b) / N) + -((0 + ((0 : Nat) : ℝ) * (2 * b - p) + ((0 : Nat) : ℝ) ^ 2 * ((t - b) / N) - (b + ((0 : Nat) : ℝ) * ((t - b) / N)) +
    (0 + N * (2 * b - p) + (N : ℝ) ^ 2 * ((t - b) / N) + (b + N * ((t - b) / N)))) / 2)

theorem wedge_eq {N : Nat} {b t p : ℝ} (hN : 1 ≤ N) (hb : 0 < b) (ht : 0 < t) (hpb : p < 2 * b) (hpt : p < 2 * t) :
    ∃ m, wedge (N + 1) b t p = .ok m ∧ m.spheres = row (N + 1) (wedgeHeight N b t p) (fun k => b + k * ((t - b) / N)) ∧ m.volume = rowVolume N (wedgeHeight N b t p) (fun k => b + k * ((t - b) / N)) ∧
      Ordered (N + 1) (wedgeHeight N b t p) (fun k => b + k * ((t - b) / N)) ∧ m.geometry.primary = some ⟨0, 0, 1⟩ ∧ m.geometry.secondary = none ∧ m.geometry.origin = 0 ∧
      m.geometry.points = spherePoints m.spheres ++ ([("beg", ⟨0, 0, wedgeHeight N b t p 0⟩), ("end", ⟨0, 0, wedgeHeight N b t p N⟩)] ++ if decide (p = 0) then [("cm", massCentre m.spheres)] else []) ∧
      (m.geometry.points.map Prod.fst).Nodup := by
  have hr : ∀ k < N + 1, 0 < b + (k : ℝ) * ((t - b) / N) := fun k hk => wedge_radius hN hk hb ht
  have hp : ∀ k < N + 1, p < 2 * (b + (k : ℝ) * ((t - b) / N)) := fun k hk => by
    have := wedge_radius (x := p / 2) hN hk (by linarith : p / 2 < b) (by linarith : p / 2 < t)
    linarith
  have ho : Ordered (N + 1) (wedgeHeight N b t p) (fun k => b + k * ((t - b) / N)) := by
    have h := wedge_ordered (n := N + 1) (z := -((0 + ((0 : Nat) : ℝ) * (2 * b - p) + ((0 : Nat) : ℝ) ^ 2 * ((t - b) / N) - (b + ((0 : Nat) : ℝ) * ((t - b) / N)) +
      (0 + N * (2 * b - p) + (N : ℝ) ^ 2 * ((t - b) / N) + (b + N * ((t - b) / N)))) / 2)) hr hp
    have e : (fun k : Nat => -((0 + ((0 : Nat) : ℝ) * (2 * b - p) + ((0 : Nat) : ℝ) ^ 2 * ((t - b) / N) - (b + ((0 : Nat) : ℝ) * ((t - b) / N)) +
      (0 + N * (2 * b - p) + (N : ℝ) ^ 2 * ((t - b) / N) + (b + N * ((t - b) / N)))) / 2) + (k : ℝ) * (2 * b - p) + (k : ℝ) ^ 2 * ((t - b) / N)) = wedgeHeight N b t p := by
      ext k
      rw [wedgeHeight]
      ring
    rw [e] at h
    exact h
  have hd : ∀ k < N, wedgeHeight N b t p (k + 1) - wedgeHeight N b t p k = b + (k : ℝ) * ((t - b) / N) + (b + ((k + 1 : Nat) : ℝ) * ((t - b) / N)) - p := by
    intro k _
    simp only [wedgeHeight]
    push_cast
    ring
  obtain ⟨m, hm, h1, h2, h3, h4, h5, h6, h7⟩ := finish_ok (N := N) (c := wedgeHeight N b t p) (r := fun k => b + k * ((t - b) / N)) (v := rowVolume N (wedgeHeight N b t p) (fun k => b + k * ((t - b) / N)))
    (decide (p = 0)) (show "beg" ≠ "end" by decide) not_beg not_end (by decide) (by decide)
  refine ⟨m, ?_, h1, h2, ho, h3, h4, h5, by rw [h1]; exact h6, h7⟩
  rw [wedge, decide_eq_true (show N + 1 ≥ 2 by omega), decide_eq_true ht, decide_eq_true hb, decide_eq_true (show p < 2 * min t b by rcases min_cases t b with h | h <;> linarith), Nat.add_sub_cancel, wedgeSpheres_eq _ _ _ _ _ hr]
  simp only [Outcome.require_true, Outcome.ok_bind]
  rw [centred_row hr, Outcome.ok_bind]
  show wedgeOf (row (N + 1) (wedgeHeight N b t p) (fun k => b + k * ((t - b) / N))) p = _
  rw [wedgeOf, wedgeVolume_eq ho hd, Outcome.ok_bind]
  exact hm

end Composite

/-- C103 for wedges: they are built exactly for at least two spheres, positive radii at both ends and a penetration smaller than both diameters; radii change evenly from one end to the other, all neighbours penetrate each other to the given depth, both ends of
the molecule are equally far from the origin, points are at the ends and at all spheres, the mass centre is given when spheres touch, and the volume is the volume of the body. -/
theorem C103_wedge (n : Nat) (b t p : ℝ) :
    ((∃ m, wedge n b t p = .ok m) ↔ 2 ≤ n ∧ 0 < b ∧ 0 < t ∧ p < 2 * b ∧ p < 2 * t) ∧
    ∀ m, wedge n b t p = .ok m → m.spheres.length = n ∧ (∀ (k : Nat) (s : SphereData), m.spheres[k]? = some s → s.position.x = 0 ∧ s.position.y = 0 ∧ s.radius = b + (k : ℝ) / ((n : ℝ) - 1) * (t - b)) ∧
      (∀ (k : Nat) (s s' : SphereData), m.spheres[k]? = some s → m.spheres[k + 1]? = some s' → s'.position.z - s.position.z = s.radius + s'.radius - p) ∧
      (∀ s s' : SphereData, m.spheres[0]? = some s → m.spheres[n - 1]? = some s' → s.position.z - s.radius = -(s'.position.z + s'.radius)) ∧
      HasVolume (Balls3 m.spheres) m.volume ∧ (∀ s, m.geometry.getPrimaryAxis s = .ok (s.rot.mulVec ⟨0, 0, 1⟩)) ∧ m.geometry.secondary = none ∧
      (∀ (k : Nat) (s : SphereData), m.spheres[k]? = some s → m.geometry.getNamedPoint ("s" ++ toString k) = .ok s.position) ∧ m.geometry.getNamedPoint "o" = .ok 0 ∧
      (∀ s, m.spheres[0]? = some s → m.geometry.getNamedPoint "beg" = .ok s.position) ∧ (∀ s, m.spheres[n - 1]? = some s → m.geometry.getNamedPoint "end" = .ok s.position) ∧
      (p = 0 → ∃ c, m.geometry.getNamedPoint "cm" = .ok c ∧ Balances m.spheres c) := by
  have hreq : ∀ m, wedge n b t p = .ok m → 2 ≤ n ∧ 0 < b ∧ 0 < t ∧ p < 2 * b ∧ p < 2 * t := by
    intro m hm
    unfold wedge at hm
    obtain ⟨_, h1, hm⟩ := Outcome.bind_eq_ok.mp hm
    obtain ⟨_, h2, hm⟩ := Outcome.bind_eq_ok.mp hm
    obtain ⟨_, h3, hm⟩ := Outcome.bind_eq_ok.mp hm
    obtain ⟨_, h4, hm⟩ := Outcome.bind_eq_ok.mp hm
    have h4 := of_decide_eq_true (Outcome.require_eq_ok.mp h4)
    have h5 := min_le_left t b
    have h6 := min_le_right t b
    exact ⟨of_decide_eq_true (Outcome.require_eq_ok.mp h1), of_decide_eq_true (Outcome.require_eq_ok.mp h3), of_decide_eq_true (Outcome.require_eq_ok.mp h2), by linarith, by linarith⟩
  refine ⟨⟨fun ⟨m, hm⟩ => hreq m hm, ?_⟩, ?_⟩
  · rintro ⟨hn, hb, ht, hpb, hpt⟩
    obtain ⟨N, rfl⟩ : ∃ k, n = k + 1 := ⟨n - 1, by omega⟩
    obtain ⟨m, hm, _⟩ := wedge_eq (N := N) (by omega) hb ht hpb hpt
    exact ⟨m, hm⟩
  · intro m hm
    obtain ⟨hn, hb, ht, hpb, hpt⟩ := hreq m hm
    obtain ⟨N, rfl⟩ : ∃ k, n = k + 1 := ⟨n - 1, by omega⟩
    obtain ⟨m', hm', hs, hv, ho, hp1, hp2, hor, hpts, hnd⟩ := wedge_eq (N := N) (by omega) hb ht hpb hpt
    obtain rfl : m' = m := Outcome.ok_inj.mp (hm'.symm.trans hm)
    obtain ⟨hk, hl⟩ := named_all hpts hnd
    have hN' : (N : ℝ) ≠ 0 := by exact_mod_cast (by omega : N ≠ 0)
    have get : ∀ {k : Nat} {s : SphereData}, m'.spheres[k]? = some s → k < N + 1 ∧ s = ⟨⟨0, 0, wedgeHeight N b t p k⟩, b + k * ((t - b) / N)⟩ := by
      intro k s h
      have hlt : k < N + 1 := by
        have := (List.getElem?_eq_some_iff.mp h).1
        rwa [hs, row_length] at this
      rw [hs, row_get hlt] at h
      exact ⟨hlt, (Option.some.inj h).symm⟩
    refine ⟨by rw [hs, row_length], ?_, ?_, ?_, ?_, ?_, hp2, hk, ?_, ?_, ?_, ?_⟩
    · intro k s h
      obtain ⟨_, rfl⟩ := get h
      refine ⟨rfl, rfl, ?_⟩
      push_cast
      rw [add_sub_cancel_right]
      ring
    · intro k s s' h h'
      obtain ⟨_, rfl⟩ := get h
      obtain ⟨_, rfl⟩ := get h'
      simp only [wedgeHeight]
      push_cast
      ring
    · intro s s' h h'
      rw [Nat.add_sub_cancel] at h'
      obtain ⟨_, rfl⟩ := get h
      obtain ⟨_, rfl⟩ := get h'
      simp only [wedgeHeight]
      ring
    · rw [hs, hv]
      exact row_volume ho
    · intro s; rw [Geometry.getPrimaryAxis, hp1]
    · rw [Geometry.getNamedPoint, if_pos rfl, Geometry.getGeometricOrigin, hor]
      congr 1
      ext <;> simp [Mat3.mulVec, Vec3.dot]
    · intro s h
      obtain ⟨_, rfl⟩ := get h
      refine hl "beg" _ (by decide) (by simp)
    · intro s h
      rw [Nat.add_sub_cancel] at h
      obtain ⟨_, rfl⟩ := get h
      refine hl "end" _ (by decide) (by simp)
    · intro h0
      refine ⟨massCentre m'.spheres, hl "cm" _ (by decide) (by rw [decide_eq_true h0]; simp), ?_⟩
      refine (C72_balances (by rw [hs]; exact row_ne N _ _) ?_ _).mpr rfl
      intro s h
      rw [hs] at h
      obtain ⟨k, hk, rfl⟩ := List.mem_map.mp h
      exact ho.pos k (List.mem_range.mp hk)

/-- Five spheres which penetrate each other, and three balls one next to another. -/
example : (∃ m, wedge 5 (1 / 2) 1 (1 / 4) = .ok m) ∧ ∃ m, kmer 3 1 (1 / 10) = .ok m :=
  ⟨(C103_wedge 5 (1 / 2) 1 (1 / 4)).1.mpr (by norm_num), (C103_kmer 3 1 (1 / 10)).1.mpr (by norm_num)⟩

end Rampack
