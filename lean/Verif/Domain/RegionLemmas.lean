import Verif.Domain.Lemmas
/-
Helper lemmas: lists of molecules of active domains.
-/
namespace Rampack.Domain

open Rampack.Spec Rampack.Packing

/-- The index of a domain. -/
def flat (divs c : Vec3 Nat) : Nat := divs.z * (divs.y * c.x + c.y) + c.z

theorem coordToIdx_ok {D : Decomposition} {c : Vec3 Nat} (h : ∀ a, c.get a < D.divs.get a) : D.coordToIdx c = .ok (flat D.divs c) := by
  have hx := h 0
  have hy := h 1
  have hz := h 2
  simp only [Vec3.get_zero, Vec3.get_one, Vec3.get_two] at hx hy hz
  unfold Decomposition.coordToIdx flat
  simp [hx, hy, hz]

theorem coordToIdx_lt {D : Decomposition} {c : Vec3 Nat} {i : Nat} (h : D.coordToIdx c = .ok i) : ∀ a, c.get a < D.divs.get a := by
  rw [forall_axis]
  simp only [Vec3.get_zero, Vec3.get_one, Vec3.get_two]
  by_cases hx : c.x < D.divs.x
  · by_cases hy : c.y < D.divs.y
    · by_cases hz : c.z < D.divs.z
      · exact ⟨hx, hy, hz⟩
      · unfold Decomposition.coordToIdx at h; simp [hx, hy, hz] at h
    · unfold Decomposition.coordToIdx at h; simp [hx, hy] at h
  · unfold Decomposition.coordToIdx at h; simp [hx] at h

theorem flat_lt {divs c : Vec3 Nat} (h : ∀ a, c.get a < divs.get a) : flat divs c < divs.x * divs.y * divs.z := by
  have hx := h 0
  have hy := h 1
  have hz := h 2
  simp only [Vec3.get_zero, Vec3.get_one, Vec3.get_two] at hx hy hz
  unfold flat
  have h1 : divs.y * c.x + c.y + 1 ≤ divs.x * divs.y := by
    have := Nat.mul_le_mul_left divs.y (show c.x + 1 ≤ divs.x by omega)
    rw [Nat.mul_add, Nat.mul_comm divs.y divs.x] at this
    omega
  have h2 := Nat.mul_le_mul_left divs.z h1
  rw [Nat.mul_add, Nat.mul_comm divs.z (divs.x * divs.y)] at h2
  omega

theorem flat_inj {divs c c' : Vec3 Nat} (h : ∀ a, c.get a < divs.get a) (h' : ∀ a, c'.get a < divs.get a)
    (e : flat divs c = flat divs c') : c = c' := by
  have hy := h 1
  have hz := h 2
  have hy' := h' 1
  have hz' := h' 2
  simp only [Vec3.get_one, Vec3.get_two] at hy hz hy' hz'
  unfold flat at e
  have e1 : c.z = c'.z := by
    have := congrArg (· % divs.z) e
    simpa [Nat.mul_add_mod, Nat.mod_eq_of_lt hz, Nat.mod_eq_of_lt hz'] using this
  have e2 : divs.y * c.x + c.y = divs.y * c'.x + c'.y := by
    have := congrArg (· / divs.z) e
    simpa [Nat.mul_add_div (by omega : divs.z > 0), Nat.div_eq_of_lt hz, Nat.div_eq_of_lt hz'] using this
  have e3 : c.y = c'.y := by
    have := congrArg (· % divs.y) e2
    simpa [Nat.mul_add_mod, Nat.mod_eq_of_lt hy, Nat.mod_eq_of_lt hy'] using this
  have e4 : c.x = c'.x := by
    have := congrArg (· / divs.y) e2
    simpa [Nat.mul_add_div (by omega : divs.y > 0), Nat.div_eq_of_lt hy, Nat.div_eq_of_lt hy'] using this
  ext <;> assumption

theorem push_fold : ∀ (l : List (Nat × Option Nat)) (regs : List (List Nat)), (∀ p ∈ l, ∀ r, p.2 = some r → r < regs.length) →
    ∃ regs', l.foldlM pushRegion regs = .ok regs' ∧ regs'.length = regs.length ∧
      ∀ r, regs'[r]? = regs[r]?.map (· ++ (l.filter fun p => p.2 = some r).map Prod.fst)
  | [], regs, _ => ⟨regs, rfl, rfl, fun r => by simp⟩
  | p :: l, regs, h => by
    rw [List.foldlM_cons]
    have hl : ∀ q ∈ l, ∀ r, q.2 = some r → r < regs.length := fun q hq => h q (List.mem_cons_of_mem _ hq)
    obtain ⟨i, o⟩ := p
    cases o with
    | none =>
      obtain ⟨regs', h1, h2, h3⟩ := push_fold l regs hl
      refine ⟨regs', ?_, h2, fun r => ?_⟩
      · exact h1
      · rw [h3]; simp
    | some k =>
      have hk : k < regs.length := h (i, some k) (List.mem_cons_self ..) k rfl
      obtain ⟨regs', h1, h2, h3⟩ := push_fold l (regs.set k (regs[k] ++ [i])) (by simpa using hl)
      refine ⟨regs', ?_, by simpa using h2, fun r => ?_⟩
      · simp only [pushRegion]
        rw [vget_ok hk, Outcome.ok_bind, vset_ok hk, Outcome.ok_bind, h1]
      · rw [h3]
        by_cases hkr : k = r
        · subst hkr
          rw [List.getElem?_set_self hk, List.getElem?_eq_getElem hk]
          simp
        · rw [List.getElem?_set_ne hkr]
          simp [hkr]

theorem push_length : ∀ (l : List (Nat × Option Nat)) (regs regs' : List (List Nat)), l.foldlM pushRegion regs = .ok regs' → regs'.length = regs.length
  | [], regs, regs', h => by cases h; rfl
  | p :: l, regs, regs', h => by
    rw [List.foldlM_cons] at h
    cases hp : pushRegion regs p with
    | throw m => rw [hp] at h; cases h
    | ub => rw [hp] at h; cases h
    | diverge => rw [hp] at h; cases h
    | ok r =>
      rw [hp, Outcome.ok_bind] at h
      rw [push_length l r regs' h]
      unfold pushRegion at hp
      split at hp
      · cases hp; rfl
      · next k _ =>
        by_cases hk : k < regs.length
        · rw [vget_ok hk, Outcome.ok_bind, vset_ok hk] at hp
          cases hp
          simp
        · have : vget regs k = .ub := by simp [vget, hk]
          rw [this] at hp; cases hp

theorem populate_length {P : Packing} {divs : Vec3 Nat} {bounds : Vec3 (List Bounds)} {b : Box} {origin : Vec3 ℝ} {D : Decomposition}
    (h : Decomposition.populate ⟨b, divs, bounds, []⟩ P origin = .ok D) : D.regions.length = divs.x * divs.y * divs.z := by
  unfold Decomposition.populate at h
  simp only [] at h
  revert h
  generalize (List.range P.size).mapM (m := Outcome) _ = w
  intro h
  cases w with
  | throw m => cases h
  | ub => cases h
  | diverge => cases h
  | ok idx =>
    rw [Outcome.ok_bind] at h
    cases hf : idx.foldlM pushRegion (List.replicate (divs.x * divs.y * divs.z) []) with
    | ok r =>
      rw [hf, Outcome.ok_bind] at h
      injection h with h
      rw [← h, push_length _ _ _ hf, List.length_replicate]
    | throw m => rw [hf] at h; cases h
    | ub => rw [hf] at h; cases h
    | diverge => rw [hf] at h; cases h

theorem mapM_split {α β : Type} {f : α → Outcome β} : ∀ {l : List α} {r : List β}, l.mapM f = .ok r → List.Forall₂ (fun a b => f a = .ok b) l r
  | [], r, h => by cases h; exact .nil
  | a :: l, r, h => by
    rw [List.mapM_cons] at h
    cases ha : f a with
    | ok b =>
      rw [ha, Outcome.ok_bind] at h
      cases hl : l.mapM f with
      | ok bs =>
        rw [hl, Outcome.ok_bind] at h
        cases h
        exact .cons ha (mapM_split hl)
      | throw m => rw [hl] at h; cases h
      | ub => rw [hl] at h; cases h
      | diverge => rw [hl] at h; cases h
    | throw m => rw [ha] at h; cases h
    | ub => rw [ha] at h; cases h
    | diverge => rw [ha] at h; cases h

namespace Made

variable {P : Packing} {I : Interaction} {divs grid : Vec3 Nat} {origin : Vec3 ℝ} {D : Decomposition}

/-- Domain coordinates of a relative position. -/
noncomputable def _root_.Rampack.Domain.dcoord (r o : Vec3 ℝ) (divs : Vec3 Nat) : Vec3 Nat :=
  ⟨domainCoord r.x o.x divs.x, domainCoord r.y o.y divs.y, domainCoord r.z o.z divs.z⟩

theorem dcoord_get (r o : Vec3 ℝ) (divs : Vec3 Nat) (a : Fin 3) : (dcoord r o divs).get a = domainCoord (r.get a) (o.get a) (divs.get a) := by
  match a with | 0 => rfl | 1 => rfl | 2 => rfl

theorem dcoord_lt (h : Made P I divs grid origin D) (hb : P.box.WF) (hI : I.range ≤ I.totalRange) (r o : Vec3 ℝ) (a : Fin 3) :
    (dcoord r o divs).get a < divs.get a := by
  rw [dcoord_get]
  exact Nat.mod_lt _ (h.fact hb hI a).1

/-- Points of active domains have the right domain coordinates. -/
theorem coord_of_inAxis (h : Made P I divs grid origin D) (hb : P.box.WF) (hI : I.range ≤ I.totalRange) {r : Vec3 ℝ}
    (hr : ∀ a, 0 ≤ r.get a ∧ r.get a < 1) {c : Vec3 Nat} (hc : ∀ a, c.get a < divs.get a) (hs : ∀ a, divs.get a < 2 ^ 63)
    (hin : ∀ a, InAxis P I divs grid origin c r a) : dcoord r (P.box.absToRel origin) divs = c := by
  refine Vec3.ext_get fun a => ?_
  rw [dcoord_get]
  by_cases h2 : 2 ≤ divs.get a
  · obtain ⟨t, ht⟩ := hin a h2
    obtain ⟨_, _, h3⟩ := h.fact hb hI a
    obtain ⟨_, h4, _⟩ := h3 h2
    exact h4.gap_domain (hc a) (hr a).1 (hr a).2 (hs a) ht
  · have := hc a
    have h1 : divs.get a = 1 := by omega
    unfold domainCoord
    simp only []
    rw [h1]
    omega

theorem axisActive_ok (h : Made P I divs grid origin D) (hb : P.box.WF) (hI : I.range ≤ I.totalRange) {c : Vec3 Nat} {r : Vec3 ℝ}
    (a : Fin 3) (hc : c.get a < divs.get a) (hr : 0 ≤ r.get a ∧ r.get a < 1) : ∃ v, axisActive (divs.get a) (D.bounds.get a) (c.get a) (r.get a) = .ok v ∧
      (v = true ↔ InAxis P I divs grid origin c r a) := by
  have hw := h.withinOpt_axis hb hI (c := c) a hr
  unfold axisActive
  rw [require_true'' hc, Outcome.ok_bind]
  by_cases h2 : divs.get a < 2
  · rw [if_pos h2] at hw ⊢
    exact ⟨true, rfl, by simpa [withinOpt] using hw⟩
  · rw [if_neg h2] at hw ⊢
    rw [h.bounds_get hb hI a hc (by omega), Outcome.ok_bind]
    exact ⟨_, rfl, hw⟩

theorem isRelActive_ok (h : Made P I divs grid origin D) (hb : P.box.WF) (hI : I.range ≤ I.totalRange) {c : Vec3 Nat} {r : Vec3 ℝ}
    (hc : ∀ a, c.get a < divs.get a) (hr : ∀ a, 0 ≤ r.get a ∧ r.get a < 1) (regs : List (List Nat)) :
    ∃ v, Decomposition.isRelActive ⟨P.box, divs, D.bounds, regs⟩ r c = .ok v ∧ (v = true ↔ ∀ a, InAxis P I divs grid origin c r a) := by
  obtain ⟨x, hx, hx'⟩ := h.axisActive_ok hb hI 0 (hc 0) (hr 0)
  obtain ⟨y, hy, hy'⟩ := h.axisActive_ok hb hI 1 (hc 1) (hr 1)
  obtain ⟨z, hz, hz'⟩ := h.axisActive_ok hb hI 2 (hc 2) (hr 2)
  simp only [Vec3.get_zero, Vec3.get_one, Vec3.get_two] at hx hy hz
  unfold Decomposition.isRelActive
  simp only [hx, Outcome.ok_bind]
  rw [forall_axis]
  cases x with
  | false => exact ⟨false, rfl, by simp at hx' ⊢; exact fun h => absurd h hx'⟩
  | true =>
    simp only [Bool.not_true, Bool.false_eq_true, if_false, hy, Outcome.ok_bind]
    cases y with
    | false => exact ⟨false, rfl, by simp at hy' ⊢; exact fun _ h => absurd h hy'⟩
    | true =>
      simp only [Bool.not_true, Bool.false_eq_true, if_false, hz]
      exact ⟨z, rfl, by rw [hz']; exact ⟨fun h => ⟨hx'.mp rfl, hy'.mp rfl, h⟩, fun h => h.2.2⟩⟩

theorem particleRegion_ok (h : Made P I divs grid origin D) (hb : P.box.WF) (hI : I.range ≤ I.totalRange) (hs : ∀ a, divs.get a < 2 ^ 63)
    {p : Vec3 ℝ} (hp : Inside P.box p) : ∃ v, Decomposition.particleRegion ⟨P.box, divs, D.bounds, []⟩ (P.box.absToRel origin) p = .ok v ∧
      ∀ c : Vec3 Nat, (∀ a, c.get a < divs.get a) → (v = some (flat divs c) ↔ ∀ a, InAxis P I divs grid origin c (P.box.absToRel p) a) := by
  have hr := unit_get ((Box.inside_iff hb p).mp hp)
  set r := P.box.absToRel p with hrdef
  have hd := h.dcoord_lt hb hI r (P.box.absToRel origin)
  obtain ⟨v, hv, hv'⟩ := h.isRelActive_ok hb hI hd hr []
  have key : Decomposition.particleRegion ⟨P.box, divs, D.bounds, []⟩ (P.box.absToRel origin) p =
      .ok (if v = true then some (flat divs (dcoord r (P.box.absToRel origin) divs)) else none) := by
    unfold Decomposition.particleRegion
    simp only []
    have hv2 : Decomposition.isRelActive ⟨P.box, divs, D.bounds, []⟩ r ⟨domainCoord r.x (P.box.absToRel origin).x divs.x,
      domainCoord r.y (P.box.absToRel origin).y divs.y, domainCoord r.z (P.box.absToRel origin).z divs.z⟩ = .ok v := hv
    rw [hv2, Outcome.ok_bind]
    cases v with
    | false => rfl
    | true =>
      simp only [if_true]
      have := coordToIdx_ok (D := ⟨P.box, divs, D.bounds, []⟩) hd
      unfold dcoord at this
      rw [this]
      rfl
  refine ⟨_, key, fun c hc => ?_⟩
  constructor
  · intro e
    cases v with
    | false => simp at e
    | true =>
      simp only [if_true] at e
      injection e with e
      have := flat_inj hd hc e
      rw [← this]
      exact hv'.mp rfl
  · intro hin
    have e := h.coord_of_inAxis hb hI hr hc hs hin
    rw [e] at hv' ⊢
    rw [if_pos (hv'.mpr hin)]

theorem particleRegion_lt {D : Decomposition} {o p : Vec3 ℝ} {k : Nat} (h : D.particleRegion o p = .ok (some k)) :
    k < D.divs.x * D.divs.y * D.divs.z := by
  unfold Decomposition.particleRegion at h
  simp only [] at h
  revert h
  generalize Decomposition.isRelActive D (D.box.absToRel p) _ = w
  intro h
  cases w with
  | throw m => cases h
  | ub => cases h
  | diverge => cases h
  | ok v =>
    rw [Outcome.ok_bind] at h
    cases v with
    | false => cases h
    | true =>
      simp only [if_true] at h
      revert h
      generalize hc : (⟨_, _, _⟩ : Vec3 Nat) = c
      intro h
      cases hi : D.coordToIdx c with
      | throw m => rw [hi] at h; cases h
      | ub => rw [hi] at h; cases h
      | diverge => rw [hi] at h; cases h
      | ok i =>
        have hlt := coordToIdx_lt hi
        rw [coordToIdx_ok hlt] at h
        cases h
        exact flat_lt hlt

/-- The molecules listed in a region. -/
theorem region_ok (h : Made P I divs grid origin D) (hb : P.box.WF) (hI : I.range ≤ I.totalRange) (hs : ∀ a, divs.get a < 2 ^ 63)
    (hpop : Decomposition.populate ⟨P.box, divs, D.bounds, []⟩ P origin = .ok D)
    (hin : ∀ s ∈ mols P, Inside P.box s.pos) (hsz : P.size ≤ P.shapes.length) {c : Vec3 Nat} {L : List Nat}
    (hL : D.getParticlesInRegion c = .ok L) : (∀ a, c.get a < divs.get a) ∧ L.Nodup ∧
      ∀ i, i ∈ L ↔ ∃ s, (mols P)[i]? = some s ∧ ∀ a, InAxis P I divs grid origin c (P.box.absToRel s.pos) a := by
  unfold Decomposition.getParticlesInRegion at hL
  cases hci : D.coordToIdx c with
  | throw m => rw [hci] at hL; cases hL
  | ub => rw [hci] at hL; cases hL
  | diverge => rw [hci] at hL; cases hL
  | ok ci =>
  have hc : ∀ a, c.get a < divs.get a := by have := coordToIdx_lt hci; rwa [h.divs_eq] at this
  have hci' : ci = flat divs c := by
    rw [coordToIdx_ok (by rw [h.divs_eq]; exact hc), h.divs_eq] at hci
    injection hci with e; exact e.symm
  rw [hci, Outcome.ok_bind, hci'] at hL
  refine ⟨hc, ?_⟩
  unfold Decomposition.populate at hpop
  simp only [] at hpop
  cases hm : (List.range P.size).mapM (fun i => do
    let s ← vget P.shapes i
    let r ← Decomposition.particleRegion ⟨P.box, divs, D.bounds, []⟩ (P.box.absToRel origin) s.pos
    return (i, r)) with
  | throw m => rw [hm] at hpop; cases hpop
  | ub => rw [hm] at hpop; cases hpop
  | diverge => rw [hm] at hpop; cases hpop
  | ok idx =>
  rw [hm, Outcome.ok_bind] at hpop
  have hF := mapM_split hm
  have each : ∀ i p, i < P.size → (do
      let s ← vget P.shapes i
      let r ← Decomposition.particleRegion ⟨P.box, divs, D.bounds, []⟩ (P.box.absToRel origin) s.pos
      return (i, r) : Outcome (Nat × Option Nat)) = .ok p → p.1 = i ∧ ∃ s, (mols P)[i]? = some s ∧
        Decomposition.particleRegion ⟨P.box, divs, D.bounds, []⟩ (P.box.absToRel origin) s.pos = .ok p.2 := by
    intro i p hi hp
    have hil : i < P.shapes.length := by omega
    rw [vget_ok hil, Outcome.ok_bind] at hp
    cases hr : Decomposition.particleRegion ⟨P.box, divs, D.bounds, []⟩ (P.box.absToRel origin) P.shapes[i].pos with
    | throw m => rw [hr] at hp; cases hp
    | ub => rw [hr] at hp; cases hp
    | diverge => rw [hr] at hp; cases hp
    | ok r =>
      rw [hr, Outcome.ok_bind] at hp
      cases hp
      refine ⟨rfl, P.shapes[i], ?_, hr⟩
      unfold mols
      rw [List.getElem?_take, if_pos hi, List.getElem?_eq_getElem hil]
  have hfst : idx.map Prod.fst = List.range P.size := by
    have : List.Forall₂ (fun a b => b.1 = a) (List.range P.size) idx := by
      have hF' : List.Forall₂ (fun a (b : Nat × Option Nat) => a ∈ List.range P.size → b.1 = a) (List.range P.size) idx :=
        hF.imp fun a b hab ha => (each a b (List.mem_range.mp ha) hab).1
      exact List.forall₂_iff_get.mpr ⟨hF'.length_eq, fun k h1 h2 => (List.forall₂_iff_get.mp hF').2 k h1 h2 (List.get_mem ..)⟩
    have h2 : List.Forall₂ (· = ·) (List.range P.size) (idx.map Prod.fst) := by
      rw [List.forall₂_map_right_iff]
      exact this.imp fun a b e => e.symm
    exact (List.forall₂_eq_eq_eq ▸ h2 : List.range P.size = _).symm
  have hmem : ∀ p ∈ idx, ∃ s, (mols P)[p.1]? = some s ∧
      Decomposition.particleRegion ⟨P.box, divs, D.bounds, []⟩ (P.box.absToRel origin) s.pos = .ok p.2 := by
    intro p hp
    obtain ⟨k, hk, e⟩ := List.getElem_of_mem hp
    have hk' : k < (List.range P.size).length := by rw [hF.length_eq]; exact hk
    have := (List.forall₂_iff_get.mp hF).2 k hk' hk
    simp only [List.get_eq_getElem, List.getElem_range] at this
    rw [e] at this
    have hks : k < P.size := by simpa using hk'
    obtain ⟨h1, h2⟩ := each k p hks this
    rw [h1]; exact h2
  obtain ⟨regs', hf1, hf2, hf3⟩ := push_fold idx (List.replicate (divs.x * divs.y * divs.z) []) (by
    intro p hp r hr
    obtain ⟨s, _, hs2⟩ := hmem p hp
    rw [hr] at hs2
    rw [List.length_replicate]
    exact particleRegion_lt hs2)
  rw [hf1, Outcome.ok_bind] at hpop
  injection hpop with hpop
  have hregs : D.regions = regs' := by rw [← hpop]
  have hLeq : L = (idx.filter fun p => p.2 = some (flat divs c)).map Prod.fst := by
    have h1 := hf3 (flat divs c)
    rw [List.getElem?_replicate, if_pos (flat_lt hc)] at h1
    simp only [Option.map_some, List.nil_append] at h1
    rw [hregs, Grid.vget_eq_of_getElem? h1] at hL
    injection hL with e; exact e.symm
  rw [hLeq]
  constructor
  · refine List.Nodup.sublist (List.Sublist.map _ List.filter_sublist) ?_
    rw [hfst]; exact List.nodup_range
  · intro i
    rw [List.mem_map]
    constructor
    · rintro ⟨p, hp, rfl⟩
      rw [List.mem_filter] at hp
      obtain ⟨s, hs1, hs2⟩ := hmem p hp.1
      have hpin : Inside P.box s.pos := hin s (List.mem_of_getElem? hs1)
      obtain ⟨v, hv, hv'⟩ := h.particleRegion_ok hb hI hs hpin
      rw [hs2] at hv
      injection hv with hv
      refine ⟨s, hs1, (hv' c hc).mp ?_⟩
      rw [← hv]; simpa using hp.2
    · rintro ⟨s, hs1, hs2⟩
      have hi : i < P.size := by
        have := (List.getElem?_eq_some_iff.mp hs1).1
        unfold mols at this
        rw [List.length_take] at this
        omega
      have : i ∈ idx.map Prod.fst := by rw [hfst]; exact List.mem_range.mpr hi
      obtain ⟨p, hp, rfl⟩ := List.mem_map.mp this
      refine ⟨p, List.mem_filter.mpr ⟨hp, ?_⟩, rfl⟩
      obtain ⟨s', hs1', hs2'⟩ := hmem p hp
      rw [hs1] at hs1'
      injection hs1' with e
      subst e
      have hpin : Inside P.box s.pos := hin s (List.mem_of_getElem? hs1)
      obtain ⟨v, hv, hv'⟩ := h.particleRegion_ok hb hI hs hpin
      rw [hs2'] at hv
      injection hv with hv
      simpa [hv] using (hv' c hc).mpr hs2

end Made

end Rampack.Domain
