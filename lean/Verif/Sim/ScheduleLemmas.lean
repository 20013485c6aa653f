import Verif.Sim.RunLemmas
/-
The schedule of runs.
-/
namespace Rampack

open Spec

namespace Sim

theorem performCycle_ok {S S' : Sim} {T : Traits} (h : S.performCycle T = .ok S') :
    ∃ S₁ S₂ S₃, S.performMoves T = .ok S₁ ∧ S₁.cycleScaling T.I = .ok S₂ ∧ S₂.cycleAdjust = .ok S₃ ∧ S' = S₃.cycleEnd := by
  unfold performCycle at h
  obtain ⟨S₁, h1, h⟩ := Outcome.bind_eq_ok.mp h
  obtain ⟨S₂, h2, h⟩ := Outcome.bind_eq_ok.mp h
  obtain ⟨S₃, h3, h⟩ := Outcome.bind_eq_ok.mp h
  injection h with h
  exact ⟨S₁, S₂, S₃, h1, h2, h3, h.symm⟩

theorem packingAfter_append {L M : List Event} (h : ∀ e ∈ M, (∀ n P ss sc, e ≠ .cycle n P ss sc) ∧ ∀ P, e ≠ .fixed P) :
    packingAfter (L ++ M) = packingAfter L := by
  unfold packingAfter
  rw [List.foldl_append]
  generalize List.foldl _ none L = x
  induction M with
  | nil => rfl
  | cons e M ih =>
    rw [List.foldl_cons]
    obtain ⟨h1, h2⟩ := h e List.mem_cons_self
    have h' := fun y hy => h y (List.mem_cons_of_mem _ hy)
    cases e with
    | cycle n P ss sc => exact absurd rfl (h1 n P ss sc)
    | fixed P => exact absurd rfl (h2 P)
    | _ => exact ih h'

theorem currentPackings_concat {L : List Event} {e : Event} (h : CurrentPackings L)
    (he : match e with
      | .snapshot _ P => packingAfter L = some P
      | .recorded _ _ P => packingAfter L = some P
      | .averaged P => packingAfter L = some P
      | _ => True) : CurrentPackings (L ++ [e]) := by
  intro L₁ x L₂ hx
  rcases split_concat hx with ⟨rfl, rfl⟩ | ⟨L₃, h3⟩
  · exact he
  · exact h L₁ x L₃ h3

/-- The event shows a packing which was not changed. -/
def isReport : Event → Bool
  | .snapshot _ _ => true
  | .recorded _ _ _ => true
  | .averaged _ => true
  | _ => false

theorem currentPackings_append {L M : List Event} (h : CurrentPackings L) (hM : ∀ e ∈ M, isReport e = false) :
    CurrentPackings (L ++ M) := by
  induction M using List.reverseRecOn with
  | nil => rwa [List.append_nil]
  | append_singleton M e ih =>
    rw [← List.append_assoc]
    refine currentPackings_concat (ih fun x hx => hM x (List.mem_append_left _ hx)) ?_
    have := hM e (List.mem_append_right _ (List.mem_singleton.mpr rfl))
    cases e <;> first | trivial | cases this

/-- Everything known about a run in progress. -/
structure Progress (ss₀ : List Sampler) (sc₀ : ScalerStatus) (base : List Event) (marks : List Mark) (performed total : Nat)
    (adjust : Bool) (L : List Event) (S : Sim) : Prop where
  run : RunInv ss₀ sc₀ base L S
  marks : L.filterMap mark = marks
  performed : S.performed = performed
  total : S.total = total
  interrupted : S.interrupted = false
  adjust : S.shouldAdjust = adjust
  current : CurrentPackings L

theorem marks_nil {M : List Event} (h : ∀ e ∈ M, mark e = none) : M.filterMap mark = [] :=
  List.filterMap_eq_nil_iff.mpr h

theorem isMove_mark {e : Event} (h : isMove e = true) : mark e = none ∧ isReport e = false := by
  cases e <;> first | exact ⟨rfl, rfl⟩ | cases h

/-- A cycle. -/
theorem performCycle_progress {ss₀ : List Sampler} {sc₀ : ScalerStatus} {base L : List Event} {marks : List Mark}
    {performed total : Nat} {adjust : Bool} {S S' : Sim} {T : Traits} (h : Progress ss₀ sc₀ base marks performed total adjust L S)
    (hc : S.performCycle T = .ok S') :
    ∃ M, Progress ss₀ sc₀ base (marks ++ [.cycle (total + 1)]) (performed + 1) (total + 1) adjust (L ++ M) S' ∧
      packingAfter (L ++ M) = some S'.P := by
  obtain ⟨h1, h2, h3, h4, h5, h6, h7⟩ := h
  obtain ⟨S₁, S₂, S₃, b1, b2, b3, rfl⟩ := performCycle_ok hc
  obtain ⟨M₁, r1, m1⟩ := Swept.runInv h1 (performMoves_swept b1)
  obtain ⟨M₂, r2, m2⟩ := cycleScaling_runInv r1 b2
  have r3 := cycleEnd_runInv r2 b3
  have e2 : S₂.performed = S₁.performed ∧ S₂.total = S₁.total ∧ S₂.interrupted = S₁.interrupted ∧
      S₂.shouldAdjust = S₁.shouldAdjust := by
    rcases cycleScaling_ok b2 with ⟨-, rfl⟩ | ⟨-, S', b, h1, rfl⟩
    · exact ⟨rfl, rfl, rfl, rfl⟩
    · obtain ⟨t, s, box, t', P', -, -, -, -, rfl, -⟩ := tryScaling_ok h1
      exact ⟨rfl, rfl, rfl, rfl⟩
  have e3 : S₃.performed = S₂.performed ∧ S₃.total = S₂.total ∧ S₃.interrupted = S₂.interrupted ∧
      S₃.shouldAdjust = S₂.shouldAdjust ∧ S₃.P = S₂.P := by
    obtain ⟨cs, bs, ss, c, sc, rfl, -⟩ := cycleAdjust_ok b3
    exact ⟨rfl, rfl, rfl, rfl, rfl⟩
  have e4 : S₂.total = total := by rw [e2.2.1, m1.total, h4]
  rw [e4] at r3
  have f1 : ∀ e ∈ M₁, mark e = none ∧ isReport e = false := fun e he => isMove_mark (m1.only e he)
  have f2 : ∀ e ∈ M₂, mark e = none ∧ isReport e = false := by
    rcases m2 with rfl | ⟨b, rfl⟩
    · simp
    · unfold scalingLog
      cases b <;> simp [mark, isReport]
  refine ⟨M₁ ++ M₂ ++ [.cycle (total + 1) S₂.P S₃.env.samplers S₃.env.scaler], ⟨?_, ?_, ?_, ?_, ?_, ?_, ?_⟩, ?_⟩
  · simpa only [List.append_assoc] using r3
  · rw [List.filterMap_append, h2, List.filterMap_append, List.filterMap_append, marks_nil (fun e he => (f1 e he).1),
      marks_nil (fun e he => (f2 e he).1)]
    rfl
  · change S₃.performed + 1 = _
    rw [e3.1, e2.1, m1.performed, h3]
  · change S₃.total + 1 = _
    rw [e3.2.1, e4]
  · change S₃.interrupted = _
    rw [e3.2.2.1, e2.2.2.1, m1.interrupted, h5]
  · change S₃.shouldAdjust = _
    rw [e3.2.2.2.1, e2.2.2.2, m1.shouldAdjust, h6]
  · refine currentPackings_append h7 ?_
    intro e he
    rw [List.mem_append, List.mem_append] at he
    rcases he with (he | he) | he
    · exact (f1 e he).2
    · exact (f2 e he).2
    · rw [List.mem_singleton] at he
      subst he
      rfl
  · rw [← List.append_assoc]
    unfold packingAfter
    rw [List.foldl_append]
    change some S₂.P = some S₃.P
    rw [e3.2.2.2.2]

theorem divisible_ok {n k : Nat} {b : Bool} (h : divisible n k = .ok b) : (b = true ↔ k ∣ n) ∧ 0 < k := by
  unfold divisible at h
  split_ifs at h with h0
  injection h with h
  subst h
  rw [beq_iff_eq, Nat.dvd_iff_mod_eq_zero]
  exact ⟨Iff.rfl, by omega⟩

/-- Silent steps. -/
theorem Progress.silent {ss₀ : List Sampler} {sc₀ : ScalerStatus} {base L M : List Event} {marks : List Mark}
    {performed total : Nat} {adjust : Bool} {S S' : Sim} (h : Progress ss₀ sc₀ base marks performed total adjust L S)
    (hM : ∀ e ∈ M, Sim.silent e = true) (hl : S'.log = S.log ++ M)
    (hs : S'.env = S.env) (hc : S'.counters = S.counters) (hcs : S'.scalingCounter = S.scalingCounter)
    (ha : S'.shouldAdjust = S.shouldAdjust) (hp : S'.performed = S.performed) (ht : S'.total = S.total)
    (hi : S'.interrupted = S.interrupted) (hcur : CurrentPackings (L ++ M)) :
    Progress ss₀ sc₀ base (marks ++ M.filterMap mark) performed total adjust (L ++ M) S' := by
  obtain ⟨h1, h2, h3, h4, h5, h6, h7⟩ := h
  refine ⟨h1.silent hM hl hs hc hcs ha, ?_, hp.trans h3, ht.trans h4, hi.trans h5, ha.trans h6, hcur⟩
  rw [List.filterMap_append, h2]

theorem updateThermo_progress {ss₀ : List Sampler} {sc₀ : ScalerStatus} {base L : List Event} {marks : List Mark}
    {performed total : Nat} {adjust : Bool} {S S' : Sim} (h : Progress ss₀ sc₀ base marks performed total adjust L S)
    (hp : packingAfter L = some S.P) (hc : S.updateThermo = .ok S') :
    ∃ M, Progress ss₀ sc₀ base marks performed total adjust (L ++ M) S' ∧ packingAfter (L ++ M) = some S'.P := by
  unfold updateThermo at hc
  obtain ⟨_, h1, hc⟩ := Outcome.bind_eq_ok.mp hc
  obtain ⟨t, h2, hc⟩ := Outcome.bind_eq_ok.mp hc
  obtain ⟨p, h3, hc⟩ := Outcome.bind_eq_ok.mp hc
  injection hc with hc
  subst hc
  refine ⟨[.thermo t p], ?_, ?_⟩
  · have := h.silent (S' := { S with temperature := t, pressure := p, log := S.log ++ [.thermo t p] }) (M := [.thermo t p])
      (by simp [Sim.silent]) rfl rfl rfl rfl rfl rfl rfl rfl (currentPackings_append h.current (by simp [isReport]))
    rw [show List.filterMap mark [.thermo t p] = [] from rfl, List.append_nil] at this
    exact this
  · rw [packingAfter_append (by simp)]
    exact hp

theorem fixStep_progress {ss₀ : List Sampler} {sc₀ : ScalerStatus} {base L : List Event} {marks : List Mark}
    {performed total : Nat} {adjust : Bool} {S S' : Sim} {p : RunParams} {I : Interaction}
    (h : Progress ss₀ sc₀ base marks performed total adjust L S)
    (hp : packingAfter L = some S.P) (hc : fixStep p I S = .ok S') :
    ∃ M, Progress ss₀ sc₀ base (marks ++ if p.rotationMatrixFixEvery ∣ total then [.fixed] else []) performed total adjust
      (L ++ M) S' ∧ packingAfter (L ++ M) = some S'.P := by
  unfold fixStep at hc
  obtain ⟨b, h1, hc⟩ := Outcome.bind_eq_ok.mp hc
  obtain ⟨h1, -⟩ := divisible_ok h1
  rw [h.total] at h1
  rcases Outcome.ite_eq_ok.mp hc with ⟨h0, hc⟩ | ⟨h0, hc⟩
  · rw [if_pos (h1.mp h0)]
    unfold fixRotationMatrices at hc
    obtain ⟨⟨P, n⟩, h2, hc⟩ := Outcome.bind_eq_ok.mp hc
    injection hc with hc
    subst hc
    refine ⟨[.fixed P], ?_, ?_⟩
    · exact h.silent (M := [.fixed P]) (by simp [Sim.silent]) rfl rfl rfl rfl rfl rfl rfl rfl
        (currentPackings_append h.current (by simp [isReport]))
    · unfold packingAfter
      rw [List.foldl_append]
      rfl
  · rw [if_neg (fun h => h0 (h1.mpr h))]
    injection hc with hc
    subst hc
    exact ⟨[], by simpa using h, by simpa using hp⟩

theorem recorded_current {L : List Event} {n : Nat} {P : Packing} (h : CurrentPackings L) (hp : packingAfter L = some P) :
    ∀ l : List Nat, CurrentPackings (L ++ .snapshot n P :: l.map fun r => .recorded r n P) := by
  intro l
  induction l using List.reverseRecOn with
  | nil => exact currentPackings_concat h hp
  | append_singleton l r ih =>
    rw [List.map_append, ← List.cons_append, ← List.append_assoc]
    refine currentPackings_concat ih ?_
    rw [packingAfter_append (by simp)]
    exact hp

theorem snapshotStep_progress {ss₀ : List Sampler} {sc₀ : ScalerStatus} {base L : List Event} {marks : List Mark}
    {performed total : Nat} {adjust : Bool} {S S' : Sim} {p : RunParams}
    (h : Progress ss₀ sc₀ base marks performed total adjust L S)
    (hp : packingAfter L = some S.P) (hc : snapshotStep p S = .ok S') :
    ∃ M, Progress ss₀ sc₀ base (marks ++ if p.snapshotEvery ∣ total then
      .snapshot total :: (List.range p.recorders).map fun r => .recorded r total else []) performed total adjust
      (L ++ M) S' ∧ packingAfter (L ++ M) = some S'.P := by
  unfold snapshotStep at hc
  obtain ⟨b, h1, hc⟩ := Outcome.bind_eq_ok.mp hc
  obtain ⟨h1, -⟩ := divisible_ok h1
  rw [h.total] at h1
  rcases Outcome.ite_eq_ok.mp hc with ⟨h0, hc⟩ | ⟨h0, hc⟩
  · rw [if_pos (h1.mp h0)]
    injection hc with hc
    subst hc
    refine ⟨.snapshot S.total S.P :: (List.range p.recorders).map fun r => .recorded r S.total S.P, ?_, ?_⟩
    · have := h.silent (S' := { S with log := S.log ++ .snapshot S.total S.P :: ((List.range p.recorders).map
          (fun r => .recorded r S.total S.P)) }) (M := .snapshot S.total S.P :: ((List.range p.recorders).map
          (fun r => .recorded r S.total S.P))) (by simp [Sim.silent]) rfl rfl rfl rfl rfl rfl rfl rfl
        (recorded_current h.current hp _)
      have e : List.filterMap mark (.snapshot S.total S.P :: (List.range p.recorders).map fun r => .recorded r S.total S.P) =
          .snapshot total :: (List.range p.recorders).map fun r => .recorded r total := by
        rw [h.total, List.filterMap_cons]
        simp only [mark]
        rw [List.filterMap_map, List.filterMap_eq_map_iff_forall_eq_some.mpr]
        simp [mark]
      rw [e] at this
      exact this
    · rw [packingAfter_append (by simp)]
      exact hp
  · rw [if_neg (fun h => h0 (h1.mpr h))]
    injection hc with hc
    subst hc
    exact ⟨[], by simpa using h, by simpa using hp⟩

theorem infoStep_progress {ss₀ : List Sampler} {sc₀ : ScalerStatus} {base L : List Event} {marks : List Mark}
    {performed total : Nat} {adjust : Bool} {S S' : Sim} {p : RunParams}
    (h : Progress ss₀ sc₀ base marks performed total adjust L S)
    (hp : packingAfter L = some S.P) (hc : infoStep p S = .ok S') :
    ∃ M, Progress ss₀ sc₀ base (marks ++ if p.inlineInfoEvery ∣ total then [.info total] else []) performed total adjust
      (L ++ M) S' ∧ packingAfter (L ++ M) = some S'.P := by
  unfold infoStep at hc
  obtain ⟨b, h1, hc⟩ := Outcome.bind_eq_ok.mp hc
  obtain ⟨h1, -⟩ := divisible_ok h1
  rw [h.total] at h1
  rcases Outcome.ite_eq_ok.mp hc with ⟨h0, hc⟩ | ⟨h0, hc⟩
  · rw [if_pos (h1.mp h0)]
    injection hc with hc
    subst hc
    refine ⟨[.info S.total], ?_, ?_⟩
    · have := h.silent (S' := S.note (.info S.total)) (M := [.info S.total]) (by simp [Sim.silent]) rfl rfl rfl rfl rfl rfl rfl rfl
        (currentPackings_append h.current (by simp [isReport]))
      rw [h.total] at this ⊢
      exact this
    · rw [packingAfter_append (by simp)]
      exact hp
  · rw [if_neg (fun h => h0 (h1.mpr h))]
    injection hc with hc
    subst hc
    exact ⟨[], by simpa using h, by simpa using hp⟩

theorem averagingStep_progress {ss₀ : List Sampler} {sc₀ : ScalerStatus} {base L : List Event} {marks : List Mark}
    {performed total : Nat} {adjust : Bool} {S S' : Sim} {every : Nat}
    (h : Progress ss₀ sc₀ base marks performed total adjust L S)
    (hp : packingAfter L = some S.P) (hc : averagingStep every S = .ok S') :
    ∃ M, Progress ss₀ sc₀ base (marks ++ if every ∣ total then [.averaged] else []) performed total adjust
      (L ++ M) S' ∧ packingAfter (L ++ M) = some S'.P := by
  unfold averagingStep at hc
  obtain ⟨b, h1, hc⟩ := Outcome.bind_eq_ok.mp hc
  obtain ⟨h1, -⟩ := divisible_ok h1
  rw [h.total] at h1
  rcases Outcome.ite_eq_ok.mp hc with ⟨h0, hc⟩ | ⟨h0, hc⟩
  · rw [if_pos (h1.mp h0)]
    injection hc with hc
    subst hc
    refine ⟨[.averaged S.P], ?_, ?_⟩
    · exact h.silent (S' := S.note (.averaged S.P)) (M := [.averaged S.P]) (by simp [Sim.silent]) rfl rfl rfl rfl rfl rfl rfl rfl
        (currentPackings_concat h.current hp)
    · rw [packingAfter_append (by simp)]
      exact hp
  · rw [if_neg (fun h => h0 (h1.mpr h))]
    injection hc with hc
    subst hc
    exact ⟨[], by simpa using h, by simpa using hp⟩

/-- A thermalisation cycle. -/
theorem thermalisationCycle_progress {ss₀ : List Sampler} {sc₀ : ScalerStatus} {base L : List Event} {marks : List Mark}
    {performed total : Nat} {adjust : Bool} {S S' : Sim} {p : RunParams} {T : Traits}
    (h : Progress ss₀ sc₀ base marks performed total adjust L S) (hc : thermalisationCycle p T S = .ok S') :
    ∃ M, Progress ss₀ sc₀ base (marks ++ cycleMarks p none (total + 1)) (performed + 1) (total + 1) adjust (L ++ M) S' := by
  unfold thermalisationCycle at hc
  obtain ⟨S₁, h1, hc⟩ := Outcome.bind_eq_ok.mp hc
  obtain ⟨S₂, h2, hc⟩ := Outcome.bind_eq_ok.mp hc
  obtain ⟨S₃, h3, hc⟩ := Outcome.bind_eq_ok.mp hc
  obtain ⟨S₄, h4, hc⟩ := Outcome.bind_eq_ok.mp hc
  obtain ⟨M₁, p1, q1⟩ := performCycle_progress h h1
  obtain ⟨M₂, p2, q2⟩ := updateThermo_progress p1 q1 h2
  obtain ⟨M₃, p3, q3⟩ := fixStep_progress p2 q2 h3
  obtain ⟨M₄, p4, q4⟩ := snapshotStep_progress p3 q3 h4
  obtain ⟨M₅, p5, q5⟩ := infoStep_progress p4 q4 hc
  refine ⟨M₁ ++ M₂ ++ M₃ ++ M₄ ++ M₅, ?_⟩
  have := p5
  unfold cycleMarks
  simp only [List.append_assoc, List.nil_append] at this ⊢
  exact this

/-- An averaging cycle. -/
theorem averagingCycle_progress {ss₀ : List Sampler} {sc₀ : ScalerStatus} {base L : List Event} {marks : List Mark}
    {performed total : Nat} {adjust : Bool} {S S' : Sim} {p : RunParams} {T : Traits} {every : Nat}
    (h : Progress ss₀ sc₀ base marks performed total adjust L S) (hc : averagingCycle p every T S = .ok S') :
    ∃ M, Progress ss₀ sc₀ base (marks ++ cycleMarks p (some every) (total + 1)) (performed + 1) (total + 1) adjust (L ++ M) S' := by
  unfold averagingCycle at hc
  obtain ⟨S₁, h1, hc⟩ := Outcome.bind_eq_ok.mp hc
  obtain ⟨S₂, h2, hc⟩ := Outcome.bind_eq_ok.mp hc
  obtain ⟨S₃, h3, hc⟩ := Outcome.bind_eq_ok.mp hc
  obtain ⟨S₄, h4, hc⟩ := Outcome.bind_eq_ok.mp hc
  obtain ⟨M₁, p1, q1⟩ := performCycle_progress h h1
  obtain ⟨M₂, p2, q2⟩ := fixStep_progress p1 q1 h2
  obtain ⟨M₃, p3, q3⟩ := snapshotStep_progress p2 q2 h3
  obtain ⟨M₄, p4, q4⟩ := averagingStep_progress p3 q3 h4
  obtain ⟨M₅, p5, q5⟩ := infoStep_progress p4 q4 hc
  refine ⟨M₁ ++ M₂ ++ M₃ ++ M₄ ++ M₅, ?_⟩
  have := p5
  unfold cycleMarks
  simp only [List.append_assoc] at this ⊢
  exact this

end Sim

end Rampack
