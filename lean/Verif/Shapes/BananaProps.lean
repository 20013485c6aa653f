import Verif.Shapes.BananaVolume
/-
C106: molecules made of spheres on an arc.
-/
namespace Rampack

open Spec Shapes Composite Volume

namespace Banana

theorem arcPositions_eq (R s : ℝ) : ∀ (n : ℕ) (a : ℝ), arcPositions R s n a = (List.range n).map fun k : ℕ => arcPoint 0 R (a + k * s)
  | 0, _ => rfl
  | n + 1, a => by
    rw [arcPositions, arcPositions_eq R s n, rotated, List.range_succ_eq_map, List.map_cons, List.map_map]
    congr 1
    · simp
    · apply List.map_congr_left
      intro k _
      simp only [Function.comp_apply]
      congr 1
      push_cast; ring

/-- Where the centre of the arc is. -/
noncomputable def arcCentre (R A : ℝ) : ℝ := if A < Real.pi then R * Real.cos (A / 2) else 0

theorem translated_eq (R A : ℝ) (N : ℕ) : translated A (arcPositions R (A / N) (N + 1) (-A / 2)) = .ok ((List.range (N + 1)).map fun k : ℕ => arcPoint (arcCentre R A) R (ang A N k)) := by
  unfold translated arcCentre
  rw [arcPositions_eq]
  split
  next h =>
    have e : vget ((List.range (N + 1)).map fun k : ℕ => arcPoint 0 R (-A / 2 + k * (A / N))) 0 = .ok (arcPoint 0 R (-A / 2)) := by
      rw [List.range_succ_eq_map]
      simp [vget]
    rw [e, Outcome.ok_bind, List.map_map]
    congr 1
    apply List.map_congr_left
    intro k _
    simp only [Function.comp_apply, arcPoint, ang]
    have e2 : Real.cos (-A / 2) = Real.cos (A / 2) := by rw [neg_div, Real.cos_neg]
    ext <;> simp [e2]
    ring
  next h => rfl

theorem spheresAt_eq {r : ℝ} (hr : 0 < r) : ∀ l : List (Vec3 ℝ), spheresAt r l = .ok (l.map fun p => ⟨p, r⟩)
  | [] => rfl
  | p :: rest => by
    rw [spheresAt, make_ok hr, Outcome.ok_bind, spheresAt_eq hr rest]; rfl

theorem arcBalls_get {x0 R A r : ℝ} {N k : ℕ} (hk : k < N + 1) : (arcBalls x0 R A r N)[k]? = some ⟨arcPoint x0 R (ang A N k), r⟩ := by simp [arcBalls, hk]

theorem arcBalls_vget {x0 R A r : ℝ} {N k : ℕ} (hk : k < N + 1) : vget (arcBalls x0 R A r N) k = .ok ⟨arcPoint x0 R (ang A N k), r⟩ := by rw [vget, arcBalls_get hk]

theorem arcBalls_length (x0 R A r : ℝ) (N : ℕ) : (arcBalls x0 R A r N).length = N + 1 := by simp [arcBalls]

theorem arcBalls_ne (x0 R A r : ℝ) (N : ℕ) : arcBalls x0 R A r N ≠ [] := by
  intro h
  have := arcBalls_length x0 R A r N
  rw [h] at this
  simp at this

theorem norm_swap (a b : Vec3 ℝ) : (a - b).norm = (b - a).norm := by
  unfold Vec3.norm Vec3.norm2 Vec3.dot
  congr 1
  simp only [Vec3.sub_x, Vec3.sub_y, Vec3.sub_z]
  ring

theorem pairOverlap_eq {x0 R r a b : ℝ} (hR : 0 < R) (hr : 0 < r) (h1 : a < b) (h2 : b < a + 2 * Real.pi) :
    pairOverlap ⟨arcPoint x0 R a, r⟩ ⟨arcPoint x0 R b, r⟩ = .ok (common r r (2 * R * Real.sin ((b - a) / 2))) := by
  obtain ⟨e, hd⟩ := chord_length (x0 := x0) hR h1 h2
  unfold pairOverlap
  rw [norm_swap]
  simp only [e]
  split
  next h => exact intersection_eq hr hr hd h.le
  next h => rw [common_far (not_lt.mp h)]

theorem bananaVolume_eq {x0 R A r : ℝ} {N : ℕ} (hA : 0 < A) (hA2 : A < 2 * Real.pi) (hN : 1 ≤ N) (hr : 0 < r) (hR : r ≤ R) :
    bananaVolume (arcBalls x0 R A r N) A = .ok (arcVolume R A r N) := by
  have hN0 : (1 : ℝ) ≤ N := by exact_mod_cast hN
  have hstep0 : 0 < A / N := by positivity
  have hstepA : A / N ≤ A := div_le_self hA.le hN0
  have hR0 : 0 < R := by linarith
  have e01 := ang_step A N 0
  have e0 := ang_zero A N
  have e1 := ang_last A hN
  have h1 := pairOverlap_eq (x0 := x0) (a := ang A N 0) (b := ang A N (0 + 1)) hR0 hr (by linarith) (by linarith)
  rw [e01] at h1
  have h2 : endsOverlap (arcBalls x0 R A r N) A = .ok (endsCommon R A r N) := by
    unfold endsOverlap endsCommon back
    rw [arcBalls_length, arcBalls_vget (by omega), show N + 1 - 1 = N by omega, arcBalls_vget (by omega)]
    split
    next h =>
      rw [Outcome.ok_bind, Outcome.ok_bind]
      have := pairOverlap_eq (x0 := x0) (a := ang A N 0) (b := ang A N N) hR0 hr (by linarith) (by linarith)
      rw [this]
      rw [e0, e1, show A / 2 - -A / 2 = A by ring]
    next h => rfl
  unfold bananaVolume front
  rw [arcBalls_vget (by omega), arcBalls_vget (by omega), Outcome.ok_bind, Outcome.ok_bind, h1, Outcome.ok_bind, h2, Outcome.ok_bind, arcBalls_length, show N + 1 - 1 = N by omega]
  rfl

/-- The condition for the point "cm". -/
noncomputable def known (R A r : ℝ) (N : ℕ) : Bool := decide ((2 * R * Real.sin (A / N / 2)) ^ 2 + 1 / 10 ^ 12 * (1 / 10 ^ 12) ≥ r * r)

theorem massCentreKnown_eq {x0 R A r : ℝ} {N : ℕ} (hA : 0 < A) (hA2 : A < 2 * Real.pi) (hN : 1 ≤ N) (hR : 0 < R) :
    massCentreKnown (arcBalls x0 R A r N) = .ok (known R A r N) := by
  have hN0 : (1 : ℝ) ≤ N := by exact_mod_cast hN
  have hstep0 : 0 < A / N := by positivity
  have hstepA : A / N ≤ A := div_le_self hA.le hN0
  have e01 := ang_step A N 0
  have e0 := ang_zero A N
  obtain ⟨e, -⟩ := chord_length (x0 := x0) (a := ang A N 0) (b := ang A N (0 + 1)) hR (by linarith) (by linarith)
  rw [e01] at e
  unfold massCentreKnown known
  rw [arcBalls_vget (by omega), arcBalls_vget (by omega), Outcome.ok_bind, Outcome.ok_bind]
  rw [← e, Vec3.norm_sq]

theorem build_left {data : List SphereData} (hne : data ≠ []) (v : ℝ) : build data (some ⟨-1, 0, 0⟩) v = .ok ⟨data, v, axisGeometry data (some ⟨-1, 0, 0⟩)⟩ := by
  have h1 : Geometry.normalizeAxis (some ⟨0, 0, 1⟩) = .ok (some ⟨0, 0, 1⟩) := normalizeAxis_some (normalize_unit (by simp [Vec3.norm2, Vec3.dot]))
  have h2 : Geometry.normalizeAxis (some ⟨-1, 0, 0⟩) = .ok (some ⟨-1, 0, 0⟩) := normalizeAxis_some (normalize_unit (by simp [Vec3.norm2, Vec3.dot]))
  have h3 := (register_new ⟨some ⟨0, 0, 1⟩, some ⟨-1, 0, 0⟩, 0, [], false⟩ (spherePoints data) (by simp) (sphere_names data) (by simp)).1
  have h4 : Geometry.mkPoly false (some ⟨0, 0, 1⟩) (some ⟨-1, 0, 0⟩) 0 (spherePoints data) [] = .ok (axisGeometry data (some ⟨-1, 0, 0⟩)) := by
    unfold Geometry.mkPoly
    rw [h1, h2]
    simp only [Option.isSome_some, Bool.true_or, Outcome.require_true, Outcome.ok_bind]
    rw [h3]
    rfl
  unfold build
  rw [h4]
  cases data with
  | nil => exact absurd rfl hne
  | cons => rfl

/-- What is built. -/
theorem banana_eq {R A r : ℝ} {N : ℕ} (hA : 0 < A) (hA2 : A < 2 * Real.pi) (hN : 1 ≤ N) (hr : 0 < r) (hR : r ≤ R) :
    ∃ m, banana R A (N + 1) r = .ok m ∧ m.spheres = arcBalls (arcCentre R A) R A r N ∧ m.volume = arcVolume R A r N ∧ m.geometry.primary = some ⟨0, 0, 1⟩ ∧
      m.geometry.secondary = some ⟨-1, 0, 0⟩ ∧ m.geometry.origin = 0 ∧
      m.geometry.points = spherePoints m.spheres ++ ([("beg", arcPoint (arcCentre R A) R (-A / 2)), ("end", arcPoint (arcCentre R A) R (A / 2))] ++ if known R A r N then [("cm", massCentre m.spheres)] else []) ∧
      (m.geometry.points.map Prod.fst).Nodup ∧ m.geometry.checksPrimary = false := by
  have hR0 : 0 < R := by linarith
  generalize hx : arcCentre R A = x0
  generalize hD : arcBalls x0 R A r N = data
  have hne : data ≠ [] := by rw [← hD]; exact arcBalls_ne _ _ _ _ _
  have e0 : banana R A (N + 1) r = bananaOf data A := by
    rw [banana, decide_eq_true (show R > 0 from hR0), decide_eq_true (show A > 0 from hA), decide_eq_true hA2, decide_eq_true (show N + 1 ≥ 2 by omega), decide_eq_true (show r > 0 from hr), decide_eq_true hR]
    simp only [Outcome.require_true, Outcome.ok_bind]
    rw [show N + 1 - 1 = N by omega, translated_eq, Outcome.ok_bind, spheresAt_eq hr, Outcome.ok_bind, List.map_map, ← hD, hx]
    rfl
  have hf : front data = .ok ⟨arcPoint x0 R (-A / 2), r⟩ := by
    rw [← hD, front, arcBalls_vget (by omega), ang_zero]
  have hb : back data = .ok ⟨arcPoint x0 R (A / 2), r⟩ := by
    rw [← hD, back, arcBalls_length, show N + 1 - 1 = N by omega, arcBalls_vget (by omega), ang_last A hN]
  have hv : bananaVolume data A = .ok (arcVolume R A r N) := by rw [← hD]; exact bananaVolume_eq hA hA2 hN hr hR
  have hk : massCentreKnown data = .ok (known R A r N) := by rw [← hD]; exact massCentreKnown_eq hA hA2 hN hR0
  have hadd := addPoints_ok (m := ⟨data, arcVolume R A r N, axisGeometry data (some ⟨-1, 0, 0⟩)⟩) (l := [("beg", arcPoint x0 R (-A / 2)), ("end", arcPoint x0 R (A / 2))]) (sphere_names _) (by simp) (by
      intro p hp
      simp only [List.mem_cons, List.not_mem_nil, or_false] at hp
      rcases hp with rfl | rfl
      · exact other_names not_beg _
      · exact other_names not_end _)
  have e : bananaOf data A = Molecule.addMassCentre ⟨data, arcVolume R A r N, { axisGeometry data (some ⟨-1, 0, 0⟩) with points := spherePoints data ++ [("beg", arcPoint x0 R (-A / 2)), ("end", arcPoint x0 R (A / 2))] }⟩ (known R A r N) := by
    rw [bananaOf, hv, Outcome.ok_bind, build_left hne, Outcome.ok_bind, hf, Outcome.ok_bind, hb, Outcome.ok_bind, hadd.1, Outcome.ok_bind, hk, Outcome.ok_bind]
    rfl
  rw [e0, e]
  generalize hkn : known R A r N = kn
  cases kn with
  | false =>
    refine ⟨_, rfl, rfl, rfl, rfl, rfl, rfl, ?_, hadd.2, rfl⟩
    simp only [Bool.false_eq_true, if_false, List.append_nil]
  | true =>
    have hadd2 := addPoints_ok (m := ⟨data, arcVolume R A r N, { axisGeometry data (some ⟨-1, 0, 0⟩) with points := spherePoints data ++ [("beg", arcPoint x0 R (-A / 2)), ("end", arcPoint x0 R (A / 2))] }⟩)
      (l := [("cm", massCentre data)]) hadd.2 (by simp) (by
        intro p hp q hq
        rw [List.mem_singleton.mp hp]
        rcases List.mem_append.mp hq with hq | hq
        · exact other_names not_cm _ q hq
        · simp only [List.mem_cons, List.not_mem_nil, or_false] at hq
          rcases hq with rfl | rfl
          · show "beg" ≠ "cm"; decide
          · show "end" ≠ "cm"; decide)
    refine ⟨_, Eq.trans ?_ hadd2.1, rfl, rfl, rfl, rfl, rfl, ?_, hadd2.2, rfl⟩
    · rw [Molecule.addMassCentre, if_pos rfl]
    · simp only [if_true]
      rw [← List.append_assoc]

theorem banana_requires {R A r : ℝ} {n : ℕ} {m : Molecule} (hm : banana R A n r = .ok m) : 0 < A ∧ A < 2 * Real.pi ∧ 2 ≤ n ∧ 0 < r ∧ r ≤ R := by
  unfold banana at hm
  obtain ⟨_, h1, hm⟩ := Outcome.bind_eq_ok.mp hm
  obtain ⟨_, h2, hm⟩ := Outcome.bind_eq_ok.mp hm
  obtain ⟨_, h3, hm⟩ := Outcome.bind_eq_ok.mp hm
  obtain ⟨_, h4, hm⟩ := Outcome.bind_eq_ok.mp hm
  obtain ⟨_, h5, hm⟩ := Outcome.bind_eq_ok.mp hm
  obtain ⟨_, h6, hm⟩ := Outcome.bind_eq_ok.mp hm
  exact ⟨of_decide_eq_true (Outcome.require_eq_ok.mp h2), of_decide_eq_true (Outcome.require_eq_ok.mp h3), of_decide_eq_true (Outcome.require_eq_ok.mp h4), of_decide_eq_true (Outcome.require_eq_ok.mp h5), of_decide_eq_true (Outcome.require_eq_ok.mp h6)⟩

end Banana

open Banana

/-- C106 for molecules made of spheres: they are built exactly for at least two spheres, an angle between zero and the full one, and a positive radius which is not larger than the radius of the arc; spheres are on the arc in equal
distances, from one end to the other; the middle of the line between the ends of an arc shorter than a half of the circle, and the centre of a longer one, is the origin; points are at the ends and at all spheres; if spheres do not penetrate
neighbours the mass centre is given; and the volume is the volume of the body, with parts common to many spheres and with ends of a long arc which penetrate each other. -/
theorem C106_spheres (R A : ℝ) (n : ℕ) (r : ℝ) :
    ((∃ m, banana R A n r = .ok m) ↔ 0 < A ∧ A < 2 * Real.pi ∧ 2 ≤ n ∧ 0 < r ∧ r ≤ R) ∧
    ∀ m, banana R A n r = .ok m → m.spheres.length = n ∧
      (∀ (k : ℕ) (s : SphereData), m.spheres[k]? = some s → s.radius = r ∧ s.position.y = 0 ∧
        s.position.x = (if A < Real.pi then R * Real.cos (A / 2) else 0) - R * Real.cos (((k : ℝ) / ((n : ℝ) - 1) - 1 / 2) * A) ∧ s.position.z = R * Real.sin (((k : ℝ) / ((n : ℝ) - 1) - 1 / 2) * A)) ∧
      HasVolume (Balls3 m.spheres) m.volume ∧
      (∀ s, m.geometry.getPrimaryAxis s = .ok (s.rot.mulVec ⟨0, 0, 1⟩)) ∧ (∀ s, m.geometry.getSecondaryAxis s = .ok (s.rot.mulVec ⟨-1, 0, 0⟩)) ∧
      (∀ (k : ℕ) (s : SphereData), m.spheres[k]? = some s → m.geometry.getNamedPoint ("s" ++ toString k) = .ok s.position) ∧ m.geometry.getNamedPoint "o" = .ok 0 ∧
      (∀ s, m.spheres[0]? = some s → m.geometry.getNamedPoint "beg" = .ok s.position) ∧ (∀ s, m.spheres[n - 1]? = some s → m.geometry.getNamedPoint "end" = .ok s.position) ∧
      (r ≤ 2 * R * Real.sin (A / ((n : ℝ) - 1) / 2) → ∃ c, m.geometry.getNamedPoint "cm" = .ok c ∧ Balances m.spheres c) := by
  refine ⟨⟨fun ⟨m, hm⟩ => banana_requires hm, ?_⟩, ?_⟩
  · rintro ⟨hA, hA2, hn, hr, hR⟩
    obtain ⟨N, rfl⟩ : ∃ k, n = k + 1 := ⟨n - 1, by omega⟩
    obtain ⟨m, hm, -⟩ := banana_eq (N := N) hA hA2 (by omega) hr hR
    exact ⟨m, hm⟩
  · intro m hm
    obtain ⟨hA, hA2, hn, hr, hR⟩ := banana_requires hm
    obtain ⟨N, rfl⟩ : ∃ k, n = k + 1 := ⟨n - 1, by omega⟩
    obtain ⟨m', hm', hs, hv, hp1, hp2, hor, hpts, hnd, hcp⟩ := banana_eq (N := N) hA hA2 (by omega) hr hR
    obtain rfl : m' = m := Outcome.ok_inj.mp (hm'.symm.trans hm)
    obtain ⟨hk, hl⟩ := named_all hpts hnd
    have hN0 : (N : ℝ) ≠ 0 := by exact_mod_cast (by omega : N ≠ 0)
    have eN : ((N + 1 : ℕ) : ℝ) - 1 = N := by push_cast; ring
    have get : ∀ {k : ℕ} {s : SphereData}, m'.spheres[k]? = some s → k < N + 1 ∧ s = ⟨arcPoint (arcCentre R A) R (ang A N k), r⟩ := by
      intro k s h
      have hlt : k < N + 1 := by
        have := (List.getElem?_eq_some_iff.mp h).1
        rwa [hs, arcBalls_length] at this
      rw [hs, arcBalls_get hlt] at h
      exact ⟨hlt, (Option.some.inj h).symm⟩
    refine ⟨by rw [hs, arcBalls_length], ?_, ?_, ?_, ?_, hk, ?_, ?_, ?_, ?_⟩
    · intro k s h
      obtain ⟨_, rfl⟩ := get h
      rw [eN]
      have ea : ang A N k = ((k : ℝ) / N - 1 / 2) * A := by unfold ang; ring
      rw [← ea]
      exact ⟨rfl, rfl, rfl, rfl⟩
    · rw [hs, hv]
      exact arc_volume hA hA2 (by omega) hr hR
    · intro s; rw [Geometry.getPrimaryAxis, hp1]
    · intro s
      unfold Geometry.getSecondaryAxis Geometry.checkedAxis
      rw [hcp, hp2]
      rfl
    · rw [Geometry.getNamedPoint, if_pos rfl, Geometry.getGeometricOrigin, hor]
      congr 1
      ext <;> simp [Mat3.mulVec, Vec3.dot]
    · intro s h
      obtain ⟨_, rfl⟩ := get h
      rw [ang_zero]
      exact hl "beg" _ (by decide) (by simp)
    · intro s h
      rw [Nat.add_sub_cancel] at h
      obtain ⟨_, rfl⟩ := get h
      rw [ang_last A (by omega)]
      exact hl "end" _ (by decide) (by simp)
    · intro h0
      rw [eN] at h0
      have hkn : known R A r N = true := by
        unfold known
        rw [decide_eq_true_eq]
        nlinarith
      refine ⟨massCentre m'.spheres, hl "cm" _ (by decide) (by rw [hkn]; simp), ?_⟩
      refine (C72_balances (by rw [hs]; exact arcBalls_ne _ _ _ _ _) ?_ _).mpr rfl
      intro s h
      rw [hs] at h
      obtain ⟨k, -, rfl⟩ := List.mem_map.mp h
      exact hr

/-- Four spheres on an arc longer than a half of the circle, which penetrate their neighbours. -/
example : ∃ m, banana 1 4 4 1 = .ok m := (C106_spheres 1 4 4 1).1.mpr (by have := Real.pi_gt_three; exact ⟨by norm_num, by linarith, by norm_num, by norm_num, by norm_num⟩)

/-- C106, violated for the documented condition of the point "cm", which should be given only if spheres do not overlap: it is given also for spheres whose centres are in the distance of one radius, and it is the balance point of whole
spheres, whose common parts count twice. -/
theorem C106_centre_violated : ∃ m c, banana 1 (2 * Real.pi / 3) 3 1 = .ok m ∧ m.geometry.getNamedPoint "cm" = .ok c ∧ ¬ m.spheres.Pairwise fun d1 d2 => ¬ Meet (SphereData.Inside d1) (SphereData.Inside d2) := by
  have hpi := Real.pi_pos
  obtain ⟨m, hm⟩ := (C106_spheres 1 (2 * Real.pi / 3) 3 1).1.mpr ⟨by positivity, by linarith, by norm_num, by norm_num, by norm_num⟩
  obtain ⟨hlen, hpos, -, -, -, -, -, -, -, hcm⟩ := (C106_spheres 1 (2 * Real.pi / 3) 3 1).2 m hm
  obtain ⟨c, hc, -⟩ := hcm (by
    have : 2 * Real.pi / 3 / (((3 : ℕ) : ℝ) - 1) / 2 = Real.pi / 6 := by push_cast; ring
    rw [this, Real.sin_pi_div_six]; norm_num)
  refine ⟨m, c, hm, hc, ?_⟩
  intro hpw
  obtain ⟨d0, h0⟩ : ∃ d, m.spheres[0]? = some d := ⟨_, List.getElem?_eq_getElem (by omega)⟩
  obtain ⟨d1, h1⟩ : ∃ d, m.spheres[1]? = some d := ⟨_, List.getElem?_eq_getElem (by omega)⟩
  obtain ⟨l0, e0⟩ := List.getElem?_eq_some_iff.mp h0
  obtain ⟨l1, e1⟩ := List.getElem?_eq_some_iff.mp h1
  have hno := List.pairwise_iff_getElem.mp hpw 0 1 l0 l1 (by norm_num)
  rw [e0, e1] at hno
  obtain ⟨r0, y0, x0, z0⟩ := hpos 0 d0 h0
  obtain ⟨r1, y1, x1, z1⟩ := hpos 1 d1 h1
  have a0 : ((((0 : ℕ) : ℝ) / (((3 : ℕ) : ℝ) - 1)) - 1 / 2) * (2 * Real.pi / 3) = -(Real.pi / 3) := by push_cast; ring
  have a1 : ((((1 : ℕ) : ℝ) / (((3 : ℕ) : ℝ) - 1)) - 1 / 2) * (2 * Real.pi / 3) = 0 := by push_cast; ring
  have hlt : 2 * Real.pi / 3 < Real.pi := by linarith
  have hcos : Real.cos (2 * Real.pi / 3 / 2) = 1 / 2 := by rw [show 2 * Real.pi / 3 / 2 = Real.pi / 3 by ring, Real.cos_pi_div_three]
  rw [a0, if_pos hlt, hcos, Real.cos_neg, Real.cos_pi_div_three] at x0
  rw [a1, if_pos hlt, hcos, Real.cos_zero] at x1
  rw [a0, Real.sin_neg, Real.sin_pi_div_three] at z0
  rw [a1, Real.sin_zero] at z1
  apply hno
  refine ⟨⟨-1 / 4, 0, -(Real.sqrt 3 / 4)⟩, ?_, ?_⟩
  · have h3 : Real.sqrt 3 * Real.sqrt 3 = 3 := Real.mul_self_sqrt (by norm_num)
    unfold SphereData.Inside Ball
    rw [r0]
    simp only [Vec3.norm2, Vec3.dot, Vec3.sub_x, Vec3.sub_y, Vec3.sub_z, x0, y0, z0]
    nlinarith
  · have h3 : Real.sqrt 3 * Real.sqrt 3 = 3 := Real.mul_self_sqrt (by norm_num)
    unfold SphereData.Inside Ball
    rw [r1]
    simp only [Vec3.norm2, Vec3.dot, Vec3.sub_x, Vec3.sub_y, Vec3.sub_z, x1, y1, z1]
    nlinarith

/-- C106, violated for the input: the angle zero and spheres larger than the arc pass all checks of the input, but the molecule cannot be built. -/
theorem C106_input_violated : (∃ R A n r, bananaAccepted R A n r ∧ A = 0 ∧ ¬ ∃ m, banana R A n r = .ok m) ∧ ∃ R A n r, bananaAccepted R A n r ∧ 0 < A ∧ ¬ ∃ m, banana R A n r = .ok m := by
  have hpi := Real.pi_gt_three
  constructor
  · refine ⟨1, 0, 2, 1, ⟨by norm_num, by norm_num, by norm_num, by norm_num, by linarith⟩, rfl, ?_⟩
    rw [(C106_spheres 1 0 2 1).1]
    rintro ⟨h, -⟩
    exact lt_irrefl _ h
  · refine ⟨1, 1, 2, 2, ⟨by norm_num, by norm_num, by norm_num, by norm_num, by linarith⟩, by norm_num, ?_⟩
    rw [(C106_spheres 1 1 2 2).1]
    rintro ⟨-, -, -, -, h⟩
    norm_num at h

end Rampack
