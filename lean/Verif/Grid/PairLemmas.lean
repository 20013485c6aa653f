import Verif.Grid.GridLemmas
/-
Helper lemmas: the full and the half enumeration of neighbour pairs, on the level of integer translations.
-/
namespace Rampack.Grid

open Rampack.Spec

theorem nodup_flatMap_of {α β : Type} {l : List α} {f : α → List β} (hl : l.Nodup) (hf : ∀ x ∈ l, (f x).Nodup)
    (hd : ∀ x ∈ l, ∀ y ∈ l, ∀ a, a ∈ f x → a ∈ f y → x = y) : (l.flatMap f).Nodup := by
  rw [List.nodup_flatMap]
  refine ⟨hf, ?_⟩
  refine List.Nodup.pairwise_of_forall_ne hl ?_
  intro x hx y hy hne a h1 h2
  exact hne (hd x hx y hy a h1 h2)

/-- The pairs of different positions of a list, in the order of a double loop `for i, for j after i`. -/
def pairs {α : Type} : List α → List (α × α)
  | [] => []
  | a :: l => l.map (fun b => (a, b)) ++ pairs l

theorem mem_pairs_mem {α : Type} : ∀ {l : List α} {p : α × α}, p ∈ pairs l → p.1 ∈ l ∧ p.2 ∈ l
  | [], p, h => by simp [pairs] at h
  | a :: l, p, h => by
    rw [pairs, List.mem_append] at h
    rcases h with h | h
    · obtain ⟨b, hb, rfl⟩ := List.mem_map.mp h
      exact ⟨by simp, by simp [hb]⟩
    · have := mem_pairs_mem h
      exact ⟨by simp [this.1], by simp [this.2]⟩

theorem pairs_ne {α : Type} : ∀ {l : List α}, l.Nodup → ∀ {p : α × α}, p ∈ pairs l → p.1 ≠ p.2
  | [], _, p, h => by simp [pairs] at h
  | a :: l, hn, p, h => by
    rw [List.nodup_cons] at hn
    rw [pairs, List.mem_append] at h
    rcases h with h | h
    · obtain ⟨b, hb, rfl⟩ := List.mem_map.mp h
      exact fun e => hn.1 (by simp only at e; rwa [e])
    · exact pairs_ne hn.2 h

theorem pairs_nodup {α : Type} : ∀ {l : List α}, l.Nodup → (pairs l).Nodup
  | [], _ => List.nodup_nil
  | a :: l, hn => by
    rw [List.nodup_cons] at hn
    rw [pairs, List.nodup_append]
    refine ⟨hn.2.map (fun x y h => by simpa using h), pairs_nodup hn.2, ?_⟩
    intro p hp q hq e
    subst e
    obtain ⟨b, hb, rfl⟩ := List.mem_map.mp hp
    exact hn.1 (mem_pairs_mem hq).1

theorem pairs_total {α : Type} : ∀ {l : List α} {i j : α}, i ∈ l → j ∈ l → i ≠ j → (i, j) ∈ pairs l ∨ (j, i) ∈ pairs l
  | [], i, j, h, _, _ => by simp at h
  | a :: l, i, j, hi, hj, hne => by
    simp only [pairs, List.mem_append, List.mem_map, Prod.mk.injEq]
    rcases List.mem_cons.mp hi with e | hi'
    · subst e
      rcases List.mem_cons.mp hj with e | hj'
      · exact absurd e.symm hne
      · exact Or.inl (Or.inl ⟨j, hj', rfl, rfl⟩)
    · rcases List.mem_cons.mp hj with e | hj'
      · subst e; exact Or.inr (Or.inl ⟨i, hi', rfl, rfl⟩)
      · rcases pairs_total hi' hj' hne with h | h
        · exact Or.inl (Or.inr h)
        · exact Or.inr (Or.inr h)

theorem pairs_asymm {α : Type} : ∀ {l : List α}, l.Nodup → ∀ {i j : α}, (i, j) ∈ pairs l → (j, i) ∉ pairs l
  | [], _, i, j, h => by simp [pairs] at h
  | a :: l, hn, i, j, h => by
    rw [List.nodup_cons] at hn
    simp only [pairs, List.mem_append, List.mem_map, Prod.mk.injEq, not_or] at h ⊢
    rcases h with ⟨b, hb, rfl, rfl⟩ | h
    · refine ⟨fun ⟨c, hc, e1, e2⟩ => hn.1 (by rw [e1]; exact hb), fun h => hn.1 (mem_pairs_mem h).2⟩
    · refine ⟨fun ⟨c, hc, e1, e2⟩ => ?_, pairs_asymm hn.2 h⟩
      exact hn.1 (by rw [e1]; exact (mem_pairs_mem h).2)

/-- The opposite direction. -/
def opp (n : Vec3 Nat) : Vec3 Nat := ⟨2 - n.x, 2 - n.y, 2 - n.z⟩

/-- The direction of the cell itself. -/
def here : Vec3 Nat := ⟨1, 1, 1⟩

theorem opp_dir {n : Vec3 Nat} : IsDir (opp n) := by unfold IsDir opp; simp only; omega

theorem opp_opp {n : Vec3 Nat} (h : IsDir n) : opp (opp n) = n := by
  unfold IsDir at h; unfold opp; ext <;> simp only <;> omega

theorem isPos_opp {n : Vec3 Nat} (h : IsDir n) (hne : n ≠ here) : isPos (opp n) = !isPos n := by
  obtain ⟨x, y, z⟩ := n
  unfold IsDir at h
  simp only [isPos, opp, here, Vec3.mk.injEq, ne_eq] at *
  by_cases h1 : 9 * x + 3 * y + z > 13
  · simp [h1]; omega
  · simp [h1]; omega

theorem isPos_here : isPos here = false := by decide

theorem opp1 {N c n : Nat} (hc : c < N) (hn : n ≤ 2) :
    wrap1 N (wrap1 N c n) (2 - n) = c ∧ tau1 N (wrap1 N c n) (2 - n) = -tau1 N c n := by
  have h1 := wrap_tau_cases hc hn
  have h2 := wrap_tau_cases (wrap_tau_eq hc hn).2.1 (show 2 - n ≤ 2 by omega)
  generalize wrap1 N c n = w at *
  generalize tau1 N c n = t at *
  generalize wrap1 N w (2 - n) = w' at *
  generalize tau1 N w (2 - n) = t' at *
  omega

theorem wrapCell_opp {N c n : Vec3 Nat} (hc : InRange N c) (hn : IsDir n) :
    wrapCell N (wrapCell N c n) (opp n) = c := by
  ext
  · exact (opp1 hc.1 hn.1).1
  · exact (opp1 hc.2.1 hn.2.1).1
  · exact (opp1 hc.2.2 hn.2.2).1

theorem tau_opp {N c n : Vec3 Nat} (hc : InRange N c) (hn : IsDir n) :
    tau N (wrapCell N c n) (opp n) = -tau N c n := by
  ext
  · exact (opp1 hc.1 hn.1).2
  · exact (opp1 hc.2.1 hn.2.1).2
  · exact (opp1 hc.2.2 hn.2.2).2

theorem here1 {N c : Nat} (hc : c < N) : wrap1 N c 1 = c ∧ tau1 N c 1 = 0 := by
  have := wrap_tau_cases hc (show 1 ≤ 2 by omega)
  omega

theorem wrapCell_here {N c : Vec3 Nat} (hc : InRange N c) : wrapCell N c here = c := by
  ext
  · exact (here1 hc.1).1
  · exact (here1 hc.2.1).1
  · exact (here1 hc.2.2).1

theorem tau_here {N c : Vec3 Nat} (hc : InRange N c) : tau N c here = 0 := by
  ext
  · exact (here1 hc.1).2
  · exact (here1 hc.2.1).2
  · exact (here1 hc.2.2).2

/-- A direction is determined by the cell it leads to and the boxes crossed. -/
theorem dir_unique {N c n m : Vec3 Nat} (hc : InRange N c) (hn : IsDir n) (hm : IsDir m)
    (h1 : wrapCell N c n = wrapCell N c m) (h2 : tau N c n = tau N c m) : n = m := by
  simp only [wrapCell, tau, Vec3.mk.injEq] at h1 h2
  have ax := (wrap_tau_eq hc.1 hn.1).1
  have ay := (wrap_tau_eq hc.2.1 hn.2.1).1
  have az := (wrap_tau_eq hc.2.2 hn.2.2).1
  have bx := (wrap_tau_eq hc.1 hm.1).1
  have bY := (wrap_tau_eq hc.2.1 hm.2.1).1
  have bz := (wrap_tau_eq hc.2.2 hm.2.2).1
  rw [h1.1, h2.1] at ax
  rw [h1.2.1, h2.2.1] at ay
  rw [h1.2.2, h2.2.2] at az
  ext <;> omega

/-- Assignment of disjoint duplicate-free lists to real cells. -/
structure CellsOk (N : Vec3 Nat) (cells : Vec3 Nat → List Nat) : Prop where
  nodup : ∀ c, InRange N c → (cells c).Nodup
  disj : ∀ c c' i, InRange N c → InRange N c' → i ∈ cells c → i ∈ cells c' → c = c'

theorem Rep.cellsOk {g : NG} {cells : Nat → List Nat} (hr : Rep g cells) :
    CellsOk (nreal g.divs) (fun c => cells (realCoordinatesToCellNo g.divs c)) :=
  ⟨fun _ _ => hr.nodup _, fun _ _ i hc hc' h h' => realCn_inj hc hc' (hr.disj _ _ i h h')⟩

/-- A triple `(i, j, t)` stands for the object `i` and the image of `j` translated by `t` boxes. -/
abbrev Triple := Nat × Nat × Vec3 Int

/-- The same pair seen from the other object. -/
def flip3 (p : Triple) : Triple := (p.2.1, p.1, -p.2.2)

/-- Pairs seen from the cell `c` in the given directions. -/
def fromCell (N : Vec3 Nat) (cells : Vec3 Nat → List Nat) (ds : List (Vec3 Nat)) (c : Vec3 Nat) : List Triple :=
  (cells c).flatMap fun i => ds.flatMap fun n => (cells (wrapCell N c n)).map fun j => (i, j, tau N c n)

/-- Full enumeration. -/
def fullT (N : Vec3 Nat) (cells : Vec3 Nat → List Nat) (allC : List (Vec3 Nat)) : List Triple :=
  allC.flatMap (fromCell N cells dirs)

/-- Half enumeration. -/
def halfT (N : Vec3 Nat) (cells : Vec3 Nat → List Nat) (allC : List (Vec3 Nat)) : List Triple :=
  allC.flatMap fun c => (pairs (cells c)).map (fun p => (p.1, p.2, (0 : Vec3 Int))) ++
    fromCell N cells (dirs.filter isPos) c

variable {N : Vec3 Nat} {cells : Vec3 Nat → List Nat} {allC : List (Vec3 Nat)}

theorem mem_fromCell {ds : List (Vec3 Nat)} {c : Vec3 Nat} {p : Triple} : p ∈ fromCell N cells ds c ↔
    p.1 ∈ cells c ∧ ∃ n ∈ ds, p.2.1 ∈ cells (wrapCell N c n) ∧ p.2.2 = tau N c n := by
  obtain ⟨i, j, t⟩ := p
  simp only [fromCell, List.mem_flatMap, List.mem_map, Prod.mk.injEq]
  constructor
  · rintro ⟨i', hi, n, hn, j', hj, rfl, rfl, rfl⟩; exact ⟨hi, n, hn, hj, rfl⟩
  · rintro ⟨hi, n, hn, hj, ht⟩; exact ⟨i, hi, n, hn, j, hj, rfl, rfl, ht.symm⟩

theorem fromCell_nodup (hc : CellsOk N cells) {ds : List (Vec3 Nat)} (hds : ds.Nodup) (hdir : ∀ n ∈ ds, IsDir n)
    {c : Vec3 Nat} (hin : InRange N c) : (fromCell N cells ds c).Nodup := by
  apply nodup_flatMap_of (hc.nodup c hin)
  · intro i hi
    apply nodup_flatMap_of hds
    · intro n hn
      exact (hc.nodup _ (wrapCell_inRange hin (hdir n hn))).map (fun x y h => by simpa using h)
    · intro n hn m hm a ha hb
      obtain ⟨j, hj, rfl⟩ := List.mem_map.mp ha
      obtain ⟨k, hk, e⟩ := List.mem_map.mp hb
      simp only [Prod.mk.injEq, true_and] at e
      obtain ⟨rfl, e⟩ := e
      exact dir_unique hin (hdir n hn) (hdir m hm) (hc.disj _ _ _ (wrapCell_inRange hin (hdir n hn))
        (wrapCell_inRange hin (hdir m hm)) hj hk) e.symm
  · intro i hi i' hi' a ha hb
    simp only [List.mem_flatMap, List.mem_map] at ha hb
    obtain ⟨n, _, j, _, rfl⟩ := ha
    obtain ⟨m, _, k, _, e⟩ := hb
    exact (Prod.mk.inj e).1.symm

theorem fullT_nodup (hc : CellsOk N cells) (hn : allC.Nodup) (hall : ∀ c ∈ allC, InRange N c) :
    (fullT N cells allC).Nodup := by
  apply nodup_flatMap_of hn
  · intro c h; exact fromCell_nodup hc dirs_nodup (fun n h => mem_dirs.mp h) (hall c h)
  · intro c h c' h' a ha hb
    exact hc.disj _ _ a.1 (hall c h) (hall c' h') (mem_fromCell.mp ha).1 (mem_fromCell.mp hb).1

theorem mem_posDirs {n : Vec3 Nat} : n ∈ dirs.filter isPos ↔ IsDir n ∧ isPos n = true := by
  rw [List.mem_filter, mem_dirs]

theorem halfT_nodup (hc : CellsOk N cells) (hn : allC.Nodup) (hall : ∀ c ∈ allC, InRange N c) :
    (halfT N cells allC).Nodup := by
  apply nodup_flatMap_of hn
  · intro c h
    rw [List.nodup_append]
    refine ⟨(pairs_nodup (hc.nodup c (hall c h))).map (fun x y e => ?_),
      fromCell_nodup hc (dirs_nodup.filter _) (fun n h => (mem_posDirs.mp h).1) (hall c h), ?_⟩
    · simp only [Prod.mk.injEq, and_true] at e; exact Prod.ext e.1 e.2
    · intro a ha b hb e
      subst e
      obtain ⟨p, hp, rfl⟩ := List.mem_map.mp ha
      obtain ⟨_, n, hn, hj, ht⟩ := mem_fromCell.mp hb
      obtain ⟨hd, hpos⟩ := mem_posDirs.mp hn
      have hin := hall c h
      have h1 : wrapCell N c n = c :=
        hc.disj _ _ p.2 (wrapCell_inRange hin hd) hin hj (mem_pairs_mem hp).2
      have : n = here := by
        apply dir_unique hin hd (by unfold IsDir here; simp)
        · rw [h1, wrapCell_here hin]
        · rw [tau_here hin]; exact ht.symm
      rw [this, isPos_here] at hpos
      cases hpos
  · intro c h c' h' a ha hb
    have key : ∀ c ∈ allC, a ∈ (pairs (cells c)).map (fun p => (p.1, p.2, (0 : Vec3 Int))) ++
        fromCell N cells (dirs.filter isPos) c → a.1 ∈ cells c := by
      intro c h ha
      rcases List.mem_append.mp ha with ha | ha
      · obtain ⟨p, hp, rfl⟩ := List.mem_map.mp ha
        exact (mem_pairs_mem hp).1
      · exact (mem_fromCell.mp ha).1
    exact hc.disj _ _ a.1 (hall c h) (hall c' h') (key c h ha) (key c' h' hb)

theorem flip3_flip3 (p : Triple) : flip3 (flip3 p) = p := by
  obtain ⟨i, j, t⟩ := p; simp [flip3]

/-- Not the pair of an object with itself (in the same image). -/
def notSelf (p : Triple) : Bool := !(decide (p.1 = p.2.1) && decide (p.2.2 = 0))

theorem mem_half {p : Triple} : p ∈ halfT N cells allC ↔
    (∃ c ∈ allC, (p.1, p.2.1) ∈ pairs (cells c) ∧ p.2.2 = 0) ∨
      (∃ c ∈ allC, p.1 ∈ cells c ∧ ∃ n, IsDir n ∧ isPos n = true ∧ p.2.1 ∈ cells (wrapCell N c n) ∧ p.2.2 = tau N c n) := by
  obtain ⟨i, j, t⟩ := p
  simp only [halfT, List.mem_flatMap, List.mem_append, List.mem_map, Prod.mk.injEq, mem_fromCell, mem_posDirs]
  constructor
  · rintro ⟨c, hc, ⟨q, hq, rfl, rfl, rfl⟩ | ⟨hi, n, ⟨hd, hp⟩, hj, ht⟩⟩
    · exact Or.inl ⟨c, hc, hq, rfl⟩
    · exact Or.inr ⟨c, hc, hi, n, hd, hp, hj, ht⟩
  · rintro (⟨c, hc, hq, rfl⟩ | ⟨c, hc, hi, n, hd, hp, hj, ht⟩)
    · exact ⟨c, hc, Or.inl ⟨_, hq, rfl, rfl, rfl⟩⟩
    · exact ⟨c, hc, Or.inr ⟨hi, n, ⟨hd, hp⟩, hj, ht⟩⟩

theorem mem_full {p : Triple} : p ∈ fullT N cells allC ↔
    ∃ c ∈ allC, p.1 ∈ cells c ∧ ∃ n, IsDir n ∧ p.2.1 ∈ cells (wrapCell N c n) ∧ p.2.2 = tau N c n := by
  simp only [fullT, List.mem_flatMap, mem_fromCell, mem_dirs]

/-- The full enumeration is the half one together with its mirror image, each pair exactly once. -/
theorem full_perm_half (hc : CellsOk N cells) (hn : allC.Nodup) (hall : ∀ c, c ∈ allC ↔ InRange N c) :
    ((fullT N cells allC).filter notSelf).Perm (halfT N cells allC ++ (halfT N cells allC).map flip3) := by
  have hin : ∀ c ∈ allC, InRange N c := fun c h => (hall c).mp h
  have hflip : ∀ p : Triple, p ∈ (halfT N cells allC).map flip3 ↔ flip3 p ∈ halfT N cells allC := by
    intro p
    rw [List.mem_map]
    constructor
    · rintro ⟨q, hq, rfl⟩; rwa [flip3_flip3]
    · intro h; exact ⟨_, h, flip3_flip3 p⟩
  -- an element of the second part of `halfT` has a direction
  rw [List.perm_ext_iff_of_nodup ((fullT_nodup hc hn hin).filter _)]
  · intro p
    rw [List.mem_filter, List.mem_append, hflip, mem_full, mem_half, mem_half]
    obtain ⟨i, j, t⟩ := p
    simp only [flip3]
    constructor
    · rintro ⟨⟨c, hcm, hi, n, hd, hj, ht⟩, hs⟩
      have hcr := hin c hcm
      by_cases hh : n = here
      · subst hh
        rw [wrapCell_here hcr] at hj
        rw [tau_here hcr] at ht
        have hij : i ≠ j := by
          intro e; simp [notSelf, e, ht] at hs
        rcases pairs_total hi hj hij with h | h
        · exact Or.inl (Or.inl ⟨c, hcm, h, ht⟩)
        · exact Or.inr (Or.inl ⟨c, hcm, h, by rw [ht, neg_zero]⟩)
      · by_cases hp : isPos n = true
        · exact Or.inl (Or.inr ⟨c, hcm, hi, n, hd, hp, hj, ht⟩)
        · refine Or.inr (Or.inr ⟨wrapCell N c n, (hall _).mpr (wrapCell_inRange hcr hd), hj, opp n, opp_dir, ?_, ?_, ?_⟩)
          · rw [isPos_opp hd hh]; simpa using hp
          · rw [wrapCell_opp hcr hd]; exact hi
          · rw [tau_opp hcr hd, ht]
    · rintro ((⟨c, hcm, hp, ht⟩ | ⟨c, hcm, hi, n, hd, hp, hj, ht⟩) | (⟨c, hcm, hp, ht⟩ | ⟨c, hcm, hj, n, hd, hp, hi, ht⟩))
      · have hcr := hin c hcm
        refine ⟨⟨c, hcm, (mem_pairs_mem hp).1, here, by unfold IsDir here; simp, ?_, ?_⟩, ?_⟩
        · rw [wrapCell_here hcr]; exact (mem_pairs_mem hp).2
        · rw [tau_here hcr]; exact ht
        · have := pairs_ne (hc.nodup c hcr) hp
          simp only at this
          simp [notSelf, this]
      · refine ⟨⟨c, hcm, hi, n, hd, hj, ht⟩, ?_⟩
        have hcr := hin c hcm
        simp only [notSelf, Bool.not_eq_true', Bool.and_eq_false_iff, decide_eq_false_iff_not]
        by_contra hcon
        push Not at hcon
        obtain ⟨e, e0⟩ := hcon
        subst e
        have h1 := hc.disj _ _ _ (wrapCell_inRange hcr hd) hcr hj hi
        have : n = here := by
          apply dir_unique hcr hd (by unfold IsDir here; simp)
          · rw [h1, wrapCell_here hcr]
          · rw [tau_here hcr, ← ht, e0]
        rw [this, isPos_here] at hp
        cases hp
      · have hcr := hin c hcm
        have ht' : t = 0 := neg_eq_zero.mp ht
        refine ⟨⟨c, hcm, (mem_pairs_mem hp).2, here, by unfold IsDir here; simp, ?_, ?_⟩, ?_⟩
        · rw [wrapCell_here hcr]; exact (mem_pairs_mem hp).1
        · rw [tau_here hcr]; exact ht'
        · have := pairs_ne (hc.nodup c hcr) hp
          simp only at this
          simp [notSelf, Ne.symm this]
      · have hcr := hin c hcm
        refine ⟨⟨wrapCell N c n, (hall _).mpr (wrapCell_inRange hcr hd), hi, opp n, opp_dir, ?_, ?_⟩, ?_⟩
        · rw [wrapCell_opp hcr hd]; exact hj
        · rw [tau_opp hcr hd, ← ht, neg_neg]
        · simp only [notSelf, Bool.not_eq_true', Bool.and_eq_false_iff, decide_eq_false_iff_not]
          by_contra hcon
          push Not at hcon
          obtain ⟨e, e0⟩ := hcon
          subst e
          have h1 := hc.disj _ _ _ (wrapCell_inRange hcr hd) hcr hi hj
          have : n = here := by
            apply dir_unique hcr hd (by unfold IsDir here; simp)
            · rw [h1, wrapCell_here hcr]
            · rw [tau_here hcr, ← ht, e0, neg_zero]
          rw [this, isPos_here] at hp
          cases hp
  · rw [List.nodup_append]
    refine ⟨halfT_nodup hc hn hin, (halfT_nodup hc hn hin).map (fun a b h => ?_), ?_⟩
    · rw [← flip3_flip3 a, h, flip3_flip3]
    · intro p hp q hq e
      subst e
      rw [hflip] at hq
      rw [mem_half] at hp hq
      obtain ⟨i, j, t⟩ := p
      simp only [flip3] at hp hq
      have clash : ∀ (c c' : Vec3 Nat) (n : Vec3 Nat) (i j : Nat), c ∈ allC → c' ∈ allC → i ∈ cells c → j ∈ cells c →
          (i ∈ cells c') → IsDir n → isPos n = true → j ∈ cells (wrapCell N c' n) → (0 : Vec3 Int) = tau N c' n → False := by
        intro c c' n i j hcm hcm' hi hj hi' hd hp hj' ht
        have hcr := hin c hcm
        have hcr' := hin c' hcm'
        have e := hc.disj _ _ _ hcr' hcr hi' hi
        subst e
        have h1 := hc.disj _ _ _ (wrapCell_inRange hcr' hd) hcr' hj' hj
        have : n = here := by
          apply dir_unique hcr' hd (by unfold IsDir here; simp)
          · rw [h1, wrapCell_here hcr']
          · rw [tau_here hcr', ← ht]
        rw [this, isPos_here] at hp
        cases hp
      rcases hp with ⟨c, hcm, hp, ht⟩ | ⟨c, hcm, hi, n, hd, hp, hj, ht⟩
      · rcases hq with ⟨c', hcm', hp', ht'⟩ | ⟨c', hcm', hi', n', hd', hp', hj', ht'⟩
        · have e := hc.disj _ _ _ (hin c hcm) (hin c' hcm') (mem_pairs_mem hp).1 (mem_pairs_mem hp').2
          subst e
          exact pairs_asymm (hc.nodup c (hin c hcm)) hp hp'
        · exact clash c c' n' j i hcm hcm' (mem_pairs_mem hp).2 (mem_pairs_mem hp).1 hi' hd' hp' hj'
            (by rw [← ht', ht, neg_zero])
      · rcases hq with ⟨c', hcm', hp', ht'⟩ | ⟨c', hcm', hi', n', hd', hp', hj', ht'⟩
        · exact clash c' c n i j hcm' hcm (mem_pairs_mem hp').2 (mem_pairs_mem hp').1 hi hd hp hj
            (by rw [← ht]; exact (neg_eq_zero.mp ht').symm)
        · have hcr := hin c hcm
          have hcr' := hin c' hcm'
          have e := hc.disj _ _ _ (wrapCell_inRange hcr hd) hcr' hj hi'
          subst e
          have hne : n ≠ here := by rintro rfl; rw [isPos_here] at hp; cases hp
          have : n' = opp n := by
            apply dir_unique hcr' hd' opp_dir
            · rw [wrapCell_opp hcr hd]
              exact hc.disj _ _ _ (wrapCell_inRange hcr' hd') hcr hj' hi
            · rw [tau_opp hcr hd, ← ht, ht']
          rw [this, isPos_opp hd hne, hp] at hp'
          cases hp'

end Rampack.Grid
