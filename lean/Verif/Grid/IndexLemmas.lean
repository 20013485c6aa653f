import Verif.Grid.ListLemmas
import Verif.Box.Lemmas
import Verif.Box.Spec
import Mathlib.Tactic.IntervalCases
import Mathlib.Tactic.NormNum
import Mathlib.Data.List.Pairwise
/-
Helper lemmas: index arithmetic of the neighbour grid.
-/
namespace Rampack.Grid

/-- All coordinates below the divisions. -/
def InRange (d c : Vec3 Nat) : Prop := c.x < d.x ∧ c.y < d.y ∧ c.z < d.z

/-- Real (non-reflected) full coordinates. -/
def IsReal (d c : Vec3 Nat) : Prop :=
  (1 ≤ c.x ∧ c.x + 2 ≤ d.x) ∧ (1 ≤ c.y ∧ c.y + 2 ≤ d.y) ∧ (1 ≤ c.z ∧ c.z + 2 ≤ d.z)

/-- At least one real cell per axis. -/
def Divs3 (d : Vec3 Nat) : Prop := 3 ≤ d.x ∧ 3 ≤ d.y ∧ 3 ≤ d.z

/-- Number of all cells. -/
def total (d : Vec3 Nat) : Nat := d.x * d.y * d.z

theorem IsReal.inRange {d c : Vec3 Nat} (h : IsReal d c) : InRange d c := by
  unfold IsReal InRange at *; omega

theorem cn_lt {d c : Vec3 Nat} (h : InRange d c) : coordinatesToCellNo d c < total d := by
  obtain ⟨hx, hy, hz⟩ := h
  simp only [coordinatesToCellNo, total, Nat.mul_zero, Nat.zero_add]
  have h1 : d.y * c.z + c.y + 1 ≤ d.y * d.z := by
    calc d.y * c.z + c.y + 1 ≤ d.y * c.z + d.y := by omega
      _ = d.y * (c.z + 1) := by ring
      _ ≤ d.y * d.z := Nat.mul_le_mul_left _ hz
  calc d.x * (d.y * c.z + c.y) + c.x < d.x * (d.y * c.z + c.y) + d.x := by omega
    _ = d.x * (d.y * c.z + c.y + 1) := by ring
    _ ≤ d.x * (d.y * d.z) := Nat.mul_le_mul_left _ h1
    _ = d.x * d.y * d.z := by ring

theorem coords_cn {d c : Vec3 Nat} (h : InRange d c) : cellNoToCoordinates d (coordinatesToCellNo d c) = c := by
  obtain ⟨hx, hy, hz⟩ := h
  have px : 0 < d.x := by omega
  have py : 0 < d.y := by omega
  simp only [cellNoToCoordinates, coordinatesToCellNo, Nat.mul_zero, Nat.zero_add]
  ext
  · simp [Nat.mod_eq_of_lt hx]
  · simp [Nat.mul_add_div px, Nat.div_eq_of_lt hx, Nat.mod_eq_of_lt hy]
  · simp [Nat.mul_add_div px, Nat.mul_add_div py, Nat.div_eq_of_lt hx, Nat.div_eq_of_lt hy, Nat.mod_eq_of_lt hz]

theorem cn_inj {d c c' : Vec3 Nat} (h : InRange d c) (h' : InRange d c')
    (e : coordinatesToCellNo d c = coordinatesToCellNo d c') : c = c' := by
  rw [← coords_cn h, ← coords_cn h', e]

theorem coords_inRange {d : Vec3 Nat} {n : Nat} (h : n < total d) : InRange d (cellNoToCoordinates d n) := by
  have hx : 0 < d.x := by
    rcases Nat.eq_zero_or_pos d.x with h0 | h0
    · simp [total, h0] at h
    · exact h0
  have hy : 0 < d.y := by
    rcases Nat.eq_zero_or_pos d.y with h0 | h0
    · simp [total, h0] at h
    · exact h0
  have hz : 0 < d.z := by
    rcases Nat.eq_zero_or_pos d.z with h0 | h0
    · simp [total, h0] at h
    · exact h0
  exact ⟨Nat.mod_lt _ hx, Nat.mod_lt _ hy, Nat.mod_lt _ hz⟩

theorem cn_coords {d : Vec3 Nat} {n : Nat} (h : n < total d) : coordinatesToCellNo d (cellNoToCoordinates d n) = n := by
  have hr := coords_inRange h
  simp only [coordinatesToCellNo, cellNoToCoordinates, Nat.mul_zero, Nat.zero_add]
  have hz : n / d.x / d.y < d.z := by
    rw [Nat.div_div_eq_div_mul]
    apply Nat.div_lt_of_lt_mul
    simpa [total] using h
  rw [Nat.mod_eq_of_lt hz, Nat.div_add_mod, Nat.div_add_mod]

theorem realCn_eq (d c : Vec3 Nat) :
    realCoordinatesToCellNo d c = coordinatesToCellNo d ⟨c.x + 1, c.y + 1, c.z + 1⟩ := by
  simp only [realCoordinatesToCellNo, coordinatesToCellNo, Nat.mul_zero, Nat.zero_add]; ring

/-- Coordinates of the neighbour `n` (components 0, 1, 2) of `c`. -/
def sh (c n : Vec3 Nat) : Vec3 Nat := ⟨c.x + n.x - 1, c.y + n.y - 1, c.z + n.z - 1⟩

/-- Neighbour directions have components 0, 1, 2. -/
def IsDir (n : Vec3 Nat) : Prop := n.x ≤ 2 ∧ n.y ≤ 2 ∧ n.z ≤ 2

theorem sh_inRange {d c n : Vec3 Nat} (hc : IsReal d c) (hn : IsDir n) : InRange d (sh c n) := by
  unfold IsReal IsDir InRange sh at *; simp only; omega

/-- Divisions are representable. -/
def Small (d : Vec3 Nat) : Prop := total d < SIZE

theorem Small.each {d : Vec3 Nat} (h3 : Divs3 d) (h : Small d) : d.x < SIZE ∧ d.y < SIZE ∧ d.z < SIZE := by
  obtain ⟨hx, hy, hz⟩ := h3
  unfold Small total at h
  have px : 0 < d.x := by omega
  have py : 0 < d.y := by omega
  have pz : 0 < d.z := by omega
  refine ⟨?_, ?_, ?_⟩
  · have := Nat.le_mul_of_pos_right d.x (Nat.mul_pos py pz)
    rw [← Nat.mul_assoc] at this; omega
  · have := Nat.le_mul_of_pos_right d.y (Nat.mul_pos px pz)
    have e : d.y * (d.x * d.z) = d.x * d.y * d.z := by ring
    rw [e] at this; omega
  · have := Nat.le_mul_of_pos_left d.z (Nat.mul_pos px py)
    omega

theorem subAdd_one {a n d : Nat} (hd : d < SIZE) (ha : 1 ≤ a) (h : a + n - 1 < d) :
    subWrap (addWrap a n) 1 = a + n - 1 := by
  unfold subWrap addWrap SIZE at *
  rcases Nat.lt_or_ge (a + n) (2 ^ 64) with h1 | h1
  · rw [Nat.mod_eq_of_lt h1]; omega
  · omega

theorem cellNeighbour_eq {d c n : Vec3 Nat} (h3 : Divs3 d) (hs : Small d) (hc : IsReal d c) (hn : IsDir n) :
    cellNeighbourToCellNo d c n = .ok (coordinatesToCellNo d (sh c n)) := by
  obtain ⟨ex, ey, ez⟩ := hs.each h3
  obtain ⟨rx, ry, rz⟩ := sh_inRange hc hn
  simp only [sh] at rx ry rz
  obtain ⟨⟨hx, _⟩, ⟨hy, _⟩, ⟨hz, _⟩⟩ := hc
  simp only [cellNeighbourToCellNo, subAdd_one ex hx rx, subAdd_one ey hy ry, subAdd_one ez hz rz, rx, ry, rz,
    decide_true, Outcome.require_true, Outcome.ok_bind, coordinatesToCellNo, sh, Outcome.pure_eq]

/-- The 27 directions in the order in which `increment` produces them. -/
def dirs : List (Vec3 Nat) :=
  (List.range 3).flatMap fun z => (List.range 3).flatMap fun y => (List.range 3).map fun x => ⟨x, y, z⟩

/-- The condition on line 130. -/
def isPos (n : Vec3 Nat) : Bool := 9 * n.x + 3 * n.y + n.z > 13

theorem mem_dirs {n : Vec3 Nat} : n ∈ dirs ↔ IsDir n := by
  simp only [dirs, List.mem_flatMap, List.mem_range, List.mem_map, IsDir]
  constructor
  · rintro ⟨z, hz, y, hy, x, hx, rfl⟩; simp only; omega
  · rintro ⟨hx, hy, hz⟩; exact ⟨n.z, by omega, n.y, by omega, n.x, by omega, rfl⟩

theorem dirs_nodup : dirs.Nodup := by decide

/-- The directions visited from a given one. -/
def dirsLoop : Nat → Vec3 Nat → Option (List (Vec3 Nat))
  | 0, _ => none
  | fuel + 1, nb => if (increment nb).2 then (dirsLoop fuel (increment nb).1).map (nb :: ·) else some [nb]

theorem dirsLoop_eq : dirsLoop 28 ⟨0, 0, 0⟩ = some dirs := by decide

theorem increment_dir {n : Vec3 Nat} (h : IsDir n) (hg : (increment n).2 = true) : IsDir (increment n).1 := by
  unfold IsDir increment at *
  simp only at *
  split at hg <;> rename_i h1
  · rw [if_pos h1]
    split at hg <;> rename_i h2
    · rw [if_pos h2]; simp at *; omega
    · rw [if_neg h2]; simp at *; omega
  · rw [if_neg h1]; simp at *; omega

/-- The stored offset of a direction. -/
def offset (d : Vec3 Nat) (n : Vec3 Nat) : Nat :=
  subWrap (coordinatesToCellNo d (sh ⟨d.x / 2, d.y / 2, d.z / 2⟩ n)) (coordinatesToCellNo d ⟨d.x / 2, d.y / 2, d.z / 2⟩)

theorem test_isReal {d : Vec3 Nat} (h3 : Divs3 d) : IsReal d ⟨d.x / 2, d.y / 2, d.z / 2⟩ := by
  unfold Divs3 IsReal at *; simp only; omega

theorem offsetsLoop_eq {d : Vec3 Nat} (h3 : Divs3 d) (hs : Small d) : ∀ (fuel : Nat) (nb : Vec3 Nat) (l : List (Vec3 Nat))
    (offs pos : List Nat), IsDir nb → dirsLoop fuel nb = some l →
    offsetsLoop d ⟨d.x / 2, d.y / 2, d.z / 2⟩ (coordinatesToCellNo d ⟨d.x / 2, d.y / 2, d.z / 2⟩) fuel nb (offs, pos) =
      .ok (offs ++ l.map (offset d), pos ++ (l.filter isPos).map (offset d))
  | 0, nb, l, offs, pos, hd, h => by simp [dirsLoop] at h
  | fuel + 1, nb, l, offs, pos, hd, h => by
    rw [offsetsLoop, cellNeighbour_eq h3 hs (test_isReal h3) hd, Outcome.ok_bind]
    rw [dirsLoop] at h
    split at h <;> rename_i hg
    · simp only [Option.map_eq_some_iff] at h
      obtain ⟨l', hl', rfl⟩ := h
      simp only [hg, if_true]
      rw [offsetsLoop_eq h3 hs fuel _ l' _ _ (increment_dir hd hg) hl']
      by_cases hp : isPos nb = true
      · have hp' : 9 * nb.x + 3 * nb.y + nb.z > 13 := by simpa [isPos] using hp
        simp [hp, hp', offset, List.append_assoc]
      · have hp' : ¬ 9 * nb.x + 3 * nb.y + nb.z > 13 := by simpa [isPos] using hp
        simp [hp, hp', offset, List.append_assoc]
    · simp only [Option.some.injEq] at h
      subst h
      simp only [hg]
      by_cases hp : isPos nb = true
      · have hp' : 9 * nb.x + 3 * nb.y + nb.z > 13 := by simpa [isPos] using hp
        simp [hp, hp', offset]
      · have hp' : ¬ 9 * nb.x + 3 * nb.y + nb.z > 13 := by simpa [isPos] using hp
        simp [hp, hp', offset]

theorem uniqueAdj_nodup : ∀ {l : List Nat}, l.Nodup → uniqueAdj l = l
  | [], _ => rfl
  | [a], _ => rfl
  | a :: b :: l, h => by
    rw [List.nodup_cons] at h
    have : a ≠ b := fun e => h.1 (by simp [e])
    rw [uniqueAdj, if_neg this, uniqueAdj_nodup h.2]

theorem unique_sort_perm {l : List Nat} (h : l.Nodup) : (uniqueAdj (l.mergeSort (· ≤ ·))).Perm l := by
  have hp := List.mergeSort_perm l (fun a b => decide (a ≤ b))
  rw [uniqueAdj_nodup (hp.nodup_iff.mpr h)]
  exact hp

/-- Adding a stored offset to the number of a real cell gives the number of the neighbour. -/
theorem add_offset {d c n : Vec3 Nat} (h3 : Divs3 d) (hs : Small d) (hc : IsReal d c) (hn : IsDir n) :
    addWrap (coordinatesToCellNo d c) (offset d n) = coordinatesToCellNo d (sh c n) := by
  have h1 := cn_lt hc.inRange
  have h2 := cn_lt (sh_inRange hc hn)
  have h3' := cn_lt (test_isReal h3).inRange
  have h4 := cn_lt (sh_inRange (test_isReal h3) hn)
  have key : coordinatesToCellNo d c + coordinatesToCellNo d (sh ⟨d.x / 2, d.y / 2, d.z / 2⟩ n) =
      coordinatesToCellNo d (sh c n) + coordinatesToCellNo d ⟨d.x / 2, d.y / 2, d.z / 2⟩ := by
    have ht := test_isReal h3
    obtain ⟨⟨cx, _⟩, ⟨cy, _⟩, ⟨cz, _⟩⟩ := hc
    obtain ⟨⟨tx, _⟩, ⟨ty, _⟩, ⟨tz, _⟩⟩ := ht
    simp only at tx ty tz
    simp only [coordinatesToCellNo, sh, Nat.mul_zero, Nat.zero_add]
    obtain ⟨a, ha⟩ := Nat.exists_eq_add_of_le cx
    obtain ⟨b, hb⟩ := Nat.exists_eq_add_of_le cy
    obtain ⟨e, he⟩ := Nat.exists_eq_add_of_le cz
    obtain ⟨a', ha'⟩ := Nat.exists_eq_add_of_le tx
    obtain ⟨b', hb'⟩ := Nat.exists_eq_add_of_le ty
    obtain ⟨e', he'⟩ := Nat.exists_eq_add_of_le tz
    rw [ha, hb, he, ha', hb', he']
    have q : ∀ u v : Nat, 1 + u + v - 1 = u + v := by intros; omega
    simp only [q]
    ring
  unfold Small at hs
  unfold addWrap offset subWrap
  generalize coordinatesToCellNo d c = A at *
  generalize coordinatesToCellNo d (sh c n) = B at *
  generalize coordinatesToCellNo d (sh ⟨d.x / 2, d.y / 2, d.z / 2⟩ n) = C at *
  generalize coordinatesToCellNo d ⟨d.x / 2, d.y / 2, d.z / 2⟩ = D at *
  unfold SIZE at *
  omega

theorem sh_inj {d c n m : Vec3 Nat} (hc : IsReal d c) (e : sh c n = sh c m) : n = m := by
  obtain ⟨⟨cx, _⟩, ⟨cy, _⟩, ⟨cz, _⟩⟩ := hc
  simp only [sh, Vec3.mk.injEq] at e
  ext <;> omega

theorem offset_inj {d n m : Vec3 Nat} (h3 : Divs3 d) (hs : Small d) (hn : IsDir n) (hm : IsDir m)
    (e : offset d n = offset d m) : n = m := by
  have ht := test_isReal h3
  have := add_offset h3 hs ht hn
  rw [e, add_offset h3 hs ht hm] at this
  exact (sh_inj ht (cn_inj (sh_inRange ht hm) (sh_inRange ht hn) this)).symm

/-- The stored offsets are, up to order, those of the 27 (13) directions. -/
theorem fillOffsets_eq {d : Vec3 Nat} (h3 : Divs3 d) (hs : Small d) : ∃ offs pos,
    fillNeighbouringCellsOffsets d = .ok (offs, pos) ∧ offs.Perm (dirs.map (offset d)) ∧
      pos.Perm ((dirs.filter isPos).map (offset d)) := by
  refine ⟨_, _, ?_, unique_sort_perm (l := dirs.map (offset d)) ?_,
    unique_sort_perm (l := (dirs.filter isPos).map (offset d)) ?_⟩
  · simp only [fillNeighbouringCellsOffsets]
    rw [offsetsLoop_eq h3 hs 28 _ dirs [] [] (by simp [IsDir]) dirsLoop_eq]
    rfl
  · apply List.Nodup.map_on _ dirs_nodup
    intro n hn m hm e
    exact offset_inj h3 hs (mem_dirs.mp hn) (mem_dirs.mp hm) e
  · apply List.Nodup.map_on _ (dirs_nodup.filter _)
    intro n hn m hm e
    exact offset_inj h3 hs (mem_dirs.mp (List.mem_of_mem_filter hn)) (mem_dirs.mp (List.mem_of_mem_filter hm)) e

theorem reflected_eq {d e : Vec3 Nat} (h : InRange d e) :
    getReflectedCellData d (coordinatesToCellNo d e) =
      (coordinatesToCellNo d ⟨(reflectCoord d.x e.x).1, (reflectCoord d.y e.y).1, (reflectCoord d.z e.z).1⟩,
        flattenTranslationIndex (reflectCoord d.x e.x).2 (reflectCoord d.y e.y).2 (reflectCoord d.z e.z).2) := by
  simp only [getReflectedCellData, isCellReflected, coords_cn h]
  split
  · rename_i hr
    simp only [Bool.or_eq_true, beq_iff_eq, not_or] at hr
    obtain ⟨⟨⟨x0, x1⟩, y0, y1⟩, z0, z1⟩ := hr
    simp [reflectCoord, x0, x1, y0, y1, z0, z1]
  · rfl

/-- Number of real cells per axis. -/
def nreal (d : Vec3 Nat) : Vec3 Nat := ⟨d.x - 2, d.y - 2, d.z - 2⟩

/-- The real cell (zero-based coordinate) in direction `n` from `c`, along one axis. -/
def wrap1 (N c n : Nat) : Nat := (c + n + N - 1) % N
/-- The number of boxes crossed on the way, along one axis. -/
def tau1 (N c n : Nat) : Int := ((c : Int) + n - 1) / N

def wrapCell (N c n : Vec3 Nat) : Vec3 Nat := ⟨wrap1 N.x c.x n.x, wrap1 N.y c.y n.y, wrap1 N.z c.z n.z⟩
def tau (N c n : Vec3 Nat) : Vec3 Int := ⟨tau1 N.x c.x n.x, tau1 N.y c.y n.y, tau1 N.z c.z n.z⟩

theorem wrap_tau_cases {N c n : Nat} (hc : c < N) (hn : n ≤ 2) :
    (c + n = 0 ∧ wrap1 N c n = N - 1 ∧ tau1 N c n = -1) ∨ (c + n = N + 1 ∧ wrap1 N c n = 0 ∧ tau1 N c n = 1) ∨
      (1 ≤ c + n ∧ c + n ≤ N ∧ wrap1 N c n = c + n - 1 ∧ tau1 N c n = 0) := by
  unfold wrap1 tau1
  rcases Nat.eq_zero_or_pos (c + n) with h | h
  · left
    refine ⟨h, ?_, ?_⟩
    · rw [h, Nat.zero_add, Nat.mod_eq_of_lt (by omega)]
    · have : (c : Int) + n - 1 = -1 := by omega
      rw [this, Int.ediv_eq_iff_of_pos (by omega)]; constructor <;> omega
  · by_cases h2 : c + n = N + 1
    · right; left
      refine ⟨h2, ?_, ?_⟩
      · have : c + n + N - 1 = N + N := by omega
        rw [this]; simp
      · have : (c : Int) + n - 1 = N := by omega
        rw [this]; exact Int.ediv_self (by omega)
    · right; right
      refine ⟨h, by omega, ?_, ?_⟩
      · have : c + n + N - 1 = c + n - 1 + N := by omega
        rw [this, Nat.add_mod_right, Nat.mod_eq_of_lt (by omega)]
      · exact Int.ediv_eq_zero_of_lt (by omega) (by omega)

theorem wrap_tau_eq {N c n : Nat} (hc : c < N) (hn : n ≤ 2) :
    (wrap1 N c n : Int) + N * tau1 N c n = (c : Int) + n - 1 ∧ wrap1 N c n < N ∧ -1 ≤ tau1 N c n ∧ tau1 N c n ≤ 1 := by
  rcases wrap_tau_cases hc hn with ⟨h, e1, e2⟩ | ⟨h, e1, e2⟩ | ⟨h, h', e1, e2⟩ <;> rw [e1, e2] <;> omega

theorem reflect_wrap {N c n : Nat} (hc : c < N) (hn : n ≤ 2) :
    (reflectCoord (N + 2) (c + 1 + n - 1)).1 = wrap1 N c n + 1 ∧
      ((reflectCoord (N + 2) (c + 1 + n - 1)).2 : Int) = tau1 N c n + 1 ∧ (reflectCoord (N + 2) (c + 1 + n - 1)).2 ≤ 2 := by
  unfold reflectCoord
  rcases wrap_tau_cases hc hn with ⟨h, e1, e2⟩ | ⟨h, e1, e2⟩ | ⟨h, h', e1, e2⟩ <;> rw [e1, e2]
  · rw [if_pos (by omega)]; simp; omega
  · rw [if_neg (by omega), if_pos (by omega)]; simp
  · rw [if_neg (by omega), if_neg (by omega)]; simp; omega

theorem translations_get (b : Box) {i j k : Nat} (hi : i ≤ 2) (hj : j ≤ 2) (hk : k ≤ 2) :
    vget (translations b) (flattenTranslationIndex i j k) = .ok (b.relToAbs ⟨(i : ℝ) - 1, (j : ℝ) - 1, (k : ℝ) - 1⟩) := by
  interval_cases i <;> interval_cases j <;> interval_cases k <;> rfl

end Rampack.Grid
