import Verif.Sim.RelaxLemmas
import Verif.Sim.CompleteLemmas
/-
Consequences of the schedule of a run: numbers of cycles and snapshots, averages, statistics; no adjustments in averaging.
-/
namespace Rampack

open Rampack.Spec

namespace Sim

/-! ### Numbers -/

/-- The number of a mark of a cycle. -/
def markCycle : Mark → Option Nat
  | .cycle n => some n
  | _ => none

/-- The number of a mark of a snapshot. -/
def markSnapshot : Mark → Option Nat
  | .snapshot n => some n
  | _ => none

/-- The number of a mark of a record. -/
def markRecorded (r : Nat) : Mark → Option Nat
  | .recorded r' n => if r' = r then some n else none
  | _ => none

/-- A mark of averaging. -/
def markAveraged : Mark → Bool
  | .averaged => true
  | _ => false

theorem cycleNumbers_marks (L : List Event) : cycleNumbers L = (L.filterMap mark).filterMap markCycle := by
  unfold cycleNumbers
  rw [List.filterMap_filterMap]
  congr 1
  funext e
  cases e <;> rfl

theorem snapshotNumbers_marks (L : List Event) : snapshotNumbers L = (L.filterMap mark).filterMap markSnapshot := by
  unfold snapshotNumbers
  rw [List.filterMap_filterMap]
  congr 1
  funext e
  cases e <;> rfl

theorem recordedNumbers_marks (r : Nat) (L : List Event) : recordedNumbers r L = (L.filterMap mark).filterMap (markRecorded r) := by
  unfold recordedNumbers
  rw [List.filterMap_filterMap]
  congr 1
  funext e
  cases e <;> rfl

theorem countP_filterMap' {α β : Type} {f : α → Option β} {q : β → Bool} {p : α → Bool}
    (h : ∀ a, p a = match f a with | some b => q b | none => false) : ∀ L : List α, L.countP p = (L.filterMap f).countP q
  | [] => rfl
  | a :: L => by
    rw [List.countP_cons, List.filterMap_cons, countP_filterMap' h L, h a]
    cases f a with
    | none => simp
    | some b => simp [List.countP_cons]

theorem averaged_marks (L : List Event) : L.countP isAveraged = (L.filterMap mark).countP markAveraged :=
  countP_filterMap' (fun e => by cases e <;> rfl) L

theorem filterMap_ite {α β : Type} {g : α → Option β} {c : Prop} [Decidable c] {x : α} (h : g x = none) :
    (if c then [x] else []).filterMap g = [] := by
  split_ifs
  · rw [List.filterMap_cons, h]; rfl
  · rfl

theorem cycleMarks_filterMap (p : RunParams) (a : Option Nat) (n : Nat) {g : Mark → Option Nat} (h1 : g .fixed = none)
    (h2 : g .averaged = none) (h3 : g (.info n) = none) : (cycleMarks p a n).filterMap g = [Mark.cycle n].filterMap g ++
      if p.snapshotEvery ∣ n then [Mark.snapshot n].filterMap g ++ ((List.range p.recorders).map fun r => Mark.recorded r n).filterMap g else [] := by
  unfold cycleMarks
  simp only [List.filterMap_append]
  rw [filterMap_ite h1, filterMap_ite h3]
  have h4 : ∀ l : List Mark, l.filterMap g = [] → ∀ u : List Nat, u ++ l.filterMap g ++ [] = u := by
    intro l hl u
    rw [hl, List.append_nil, List.append_nil]
  rw [h4]
  swap
  · cases a
    · rfl
    · exact filterMap_ite h2
  rw [List.append_nil]
  congr 1
  by_cases h : p.snapshotEvery ∣ n
  · rw [if_pos h, if_pos h, ← List.filterMap_append]; rfl
  · rw [if_neg h, if_neg h]; rfl

theorem cycleMarks_cycle (p : RunParams) (a : Option Nat) (n : Nat) : (cycleMarks p a n).filterMap markCycle = [n] := by
  have h : ((List.range p.recorders).map fun r => Mark.recorded r n).filterMap markCycle = [] := by
    rw [List.filterMap_map]
    exact List.filterMap_eq_nil_iff.mpr fun r _ => rfl
  rw [cycleMarks_filterMap p a n rfl rfl rfl, h]
  split_ifs <;> rfl

theorem cycleMarks_snapshot (p : RunParams) (a : Option Nat) (n : Nat) :
    (cycleMarks p a n).filterMap markSnapshot = if p.snapshotEvery ∣ n then [n] else [] := by
  have h : ((List.range p.recorders).map fun r => Mark.recorded r n).filterMap markSnapshot = [] := by
    rw [List.filterMap_map]
    exact List.filterMap_eq_nil_iff.mpr fun r _ => rfl
  rw [cycleMarks_filterMap p a n rfl rfl rfl, h]
  split_ifs <;> rfl

theorem range_recorded {r n : Nat} : ∀ (k : Nat), ((List.range k).map fun r => Mark.recorded r n).filterMap (markRecorded r) = if r < k then [n] else []
  | 0 => rfl
  | k + 1 => by
    rw [List.range_succ, List.map_append, List.filterMap_append, range_recorded k]
    simp only [List.map_cons, List.map_nil, List.filterMap_cons, List.filterMap_nil, markRecorded]
    by_cases h : k = r
    · subst h; simp
    · rw [if_neg h]
      by_cases h2 : r < k
      · rw [if_pos h2, if_pos (by omega)]; rfl
      · rw [if_neg h2, if_neg (by omega)]; rfl

theorem cycleMarks_recorded (p : RunParams) (a : Option Nat) (n : Nat) {r : Nat} (hr : r < p.recorders) :
    (cycleMarks p a n).filterMap (markRecorded r) = if p.snapshotEvery ∣ n then [n] else [] := by
  have h := range_recorded (r := r) (n := n) p.recorders
  rw [if_pos hr] at h
  rw [cycleMarks_filterMap p a n rfl rfl rfl, h]
  split_ifs <;> rfl

theorem cycleMarks_averaged (p : RunParams) (a : Option Nat) (n : Nat) :
    (cycleMarks p a n).countP markAveraged = match a with | none => 0 | some k => if k ∣ n then 1 else 0 := by
  have h : ((List.range p.recorders).map fun r => Mark.recorded r n).countP markAveraged = 0 := by
    rw [List.countP_map]
    exact List.countP_eq_zero.mpr fun r _ => by simp [markAveraged]
  unfold cycleMarks
  simp only [List.countP_append]
  have h1 : (if p.rotationMatrixFixEvery ∣ n then [Mark.fixed] else []).countP markAveraged = 0 := by split_ifs <;> rfl
  have h2 : (if p.inlineInfoEvery ∣ n then [Mark.info n] else []).countP markAveraged = 0 := by split_ifs <;> rfl
  have h3 : (if p.snapshotEvery ∣ n then Mark.snapshot n :: (List.range p.recorders).map fun r => Mark.recorded r n else []).countP
      markAveraged = 0 := by
    split_ifs
    · rw [List.countP_cons, h]; rfl
    · rfl
  rw [h1, h2, h3]
  cases a with
  | none => rfl
  | some k => simp only; split_ifs <;> rfl

theorem range'_flatMap {α : Type} (f : Nat → List α) (o k : Nat) :
    ((List.range k).flatMap fun i => f (o + i + 1)) = (List.range' (o + 1) k).flatMap f := by
  rw [List.range'_eq_map_range, List.flatMap_map]
  apply List.flatMap_congr
  intro i _
  congr 1
  omega

theorem filterMap_flatMap' {α β γ : Type} {f : α → List β} {g : β → Option γ} (l : List α) :
    (l.flatMap f).filterMap g = l.flatMap fun a => (f a).filterMap g := by
  induction l with
  | nil => rfl
  | cons a l ih => rw [List.flatMap_cons, List.filterMap_append, ih, List.flatMap_cons]

theorem flatMap_ite {α : Type} (q : α → Prop) [DecidablePred q] (l : List α) : (l.flatMap fun a => if q a then [a] else []) = l.filter fun a => decide (q a) := by
  induction l with
  | nil => rfl
  | cons a l ih =>
    rw [List.flatMap_cons, ih, List.filter_cons]
    by_cases h : q a
    · simp [h]
    · simp [h]

theorem phaseMarks_cycle (p : RunParams) (a : Option Nat) (o k : Nat) : (phaseMarks p a o k).filterMap markCycle = List.range' (o + 1) k := by
  unfold phaseMarks
  rw [range'_flatMap (cycleMarks p a), filterMap_flatMap']
  simp only [cycleMarks_cycle]
  simp

theorem phaseMarks_snapshot (p : RunParams) (a : Option Nat) (o k : Nat) :
    (phaseMarks p a o k).filterMap markSnapshot = (List.range' (o + 1) k).filter fun n => decide (p.snapshotEvery ∣ n) := by
  unfold phaseMarks
  rw [range'_flatMap (cycleMarks p a), filterMap_flatMap']
  simp only [cycleMarks_snapshot]
  exact flatMap_ite _ _

theorem phaseMarks_recorded (p : RunParams) (a : Option Nat) (o k : Nat) {r : Nat} (hr : r < p.recorders) :
    (phaseMarks p a o k).filterMap (markRecorded r) = (List.range' (o + 1) k).filter fun n => decide (p.snapshotEvery ∣ n) := by
  unfold phaseMarks
  rw [range'_flatMap (cycleMarks p a), filterMap_flatMap']
  simp only [cycleMarks_recorded p a _ hr]
  exact flatMap_ite _ _

theorem phaseMarks_averaged (p : RunParams) (a : Option Nat) (o k : Nat) :
    (phaseMarks p a o k).countP markAveraged = match a with | none => 0 | some j => (List.range' (o + 1) k).countP fun n => decide (j ∣ n) := by
  unfold phaseMarks
  rw [range'_flatMap (cycleMarks p a)]
  generalize List.range' (o + 1) k = l
  induction l with
  | nil => cases a <;> rfl
  | cons n l ih =>
    rw [List.flatMap_cons, List.countP_append, ih, cycleMarks_averaged]
    cases a with
    | none => rfl
    | some j =>
      simp only [List.countP_cons, decide_eq_true_eq]
      omega

/-- The cycles of a run. -/
theorem schedule_numbers (p : IntegrationParams) (stop : Nat → Bool) :
    (schedule p stop).filterMap markCycle = List.range' (p.cycleOffset + 1) (runCycles p stop) ∧
    (schedule p stop).filterMap markSnapshot =
      (List.range' (p.cycleOffset + 1) (runCycles p stop)).filter (fun n => decide (p.snapshotEvery ∣ n)) ∧
    (∀ r, r < p.recorders → (schedule p stop).filterMap (markRecorded r) =
      (List.range' (p.cycleOffset + 1) (runCycles p stop)).filter (fun n => decide (p.snapshotEvery ∣ n))) ∧
    (schedule p stop).countP markAveraged =
      (List.range' (p.cycleOffset + 1) (runCycles p stop)).countP
        (fun n => decide (p.cycleOffset + p.thermalisationCycles < n ∧ p.averagingEvery ∣ n)) := by
  have hc0 : ∀ n : Nat, n ≤ p.thermalisationCycles → (List.range' (p.cycleOffset + 1) n).countP
      (fun n => decide (p.cycleOffset + p.thermalisationCycles < n ∧ p.averagingEvery ∣ n)) = 0 := by
    intro n hn
    refine List.countP_eq_zero.mpr fun i hi => ?_
    have := List.mem_range'_1.mp hi
    simp only [decide_eq_true_eq]
    omega
  unfold schedule runCycles
  by_cases hs : stopped stop p.cycleOffset p.thermalisationCycles = true
  · rw [if_pos hs, if_pos hs]
    simp only [List.append_nil, List.filterMap_cons, Nat.add_zero, phaseMarks_cycle, phaseMarks_snapshot]
    refine ⟨rfl, rfl, fun r hr => ?_, ?_⟩
    · rw [phaseMarks_recorded _ _ _ _ hr]
      rfl
    · rw [List.countP_cons, phaseMarks_averaged, hc0 _ (cyclesDone_le _ _ _)]
      rfl
  · rw [if_neg hs, if_neg hs]
    have h1 : cyclesDone stop p.cycleOffset p.thermalisationCycles = p.thermalisationCycles := cyclesDone_all _ _ _ (by simpa using hs)
    rw [h1]
    set k := cyclesDone stop (p.cycleOffset + p.thermalisationCycles) p.averagingCycles
    have hr : List.range' (p.cycleOffset + 1) (p.thermalisationCycles + k) =
        List.range' (p.cycleOffset + 1) p.thermalisationCycles ++ List.range' (p.cycleOffset + p.thermalisationCycles + 1) k := by
      rw [show p.cycleOffset + p.thermalisationCycles + 1 = p.cycleOffset + 1 + 1 * p.thermalisationCycles from by omega, List.range'_append]
    rw [hr]
    refine ⟨?_, ?_, fun r h => ?_, ?_⟩
    · simp only [List.cons_append, List.filterMap_cons, List.filterMap_append, phaseMarks_cycle]
      rfl
    · simp only [List.cons_append, List.filterMap_cons, List.filterMap_append, phaseMarks_snapshot, List.filter_append]
      rfl
    · simp only [List.cons_append, List.filterMap_cons, List.filterMap_append, phaseMarks_recorded _ _ _ _ h, List.filter_append]
      rfl
    · rw [List.countP_append (l₁ := List.range' (p.cycleOffset + 1) p.thermalisationCycles), hc0 _ le_rfl]
      simp only [List.cons_append, List.countP_cons, List.countP_append, phaseMarks_averaged, markAveraged]
      simp only [Nat.zero_add, Bool.false_eq_true, if_false, Nat.add_zero]
      apply List.countP_congr
      intro i hi
      have := List.mem_range'_1.mp hi
      simp only [decide_eq_true_eq]
      constructor
      · intro h; exact ⟨by omega, h⟩
      · intro h; exact h.2

/-! ### No adjustments in averaging -/

/-- The beginning of thermalisation. -/
def isThermalisation : Event → Bool
  | .thermalisation => true
  | _ => false

/-- The mark of the beginning of thermalisation. -/
def markThermalisation : Mark → Bool
  | .thermalisation => true
  | _ => false

theorem phaseMarks_thermalisation (p : RunParams) (a : Option Nat) (o k : Nat) : (phaseMarks p a o k).countP markThermalisation = 0 := by
  refine List.countP_eq_zero.mpr fun m hm => ?_
  obtain ⟨i, -, hm⟩ := List.mem_flatMap.mp hm
  have h : ∀ r, Mark.recorded r (o + i + 1) ≠ Mark.thermalisation := fun r h => by cases h
  unfold cycleMarks at hm
  intro hc
  cases m <;> first | (cases hc; done) | skip
  cases a <;> simp only [List.mem_append] at hm <;> split_ifs at hm <;> simp at hm

theorem after_averaging {p : IntegrationParams} {stop : Nat → Bool} {L L₁ L₂ : List Event} (h : L.filterMap mark = schedule p stop)
    (hs : L = L₁ ++ .averaging :: L₂) : ∀ e ∈ L₂, isThermalisation e = false := by
  have h1 : L.countP isThermalisation = 1 := by
    rw [countP_filterMap' (f := mark) (q := markThermalisation) (fun e => by cases e <;> rfl), h]
    unfold schedule
    split_ifs <;> simp [List.countP_cons, List.countP_append, phaseMarks_thermalisation, markThermalisation]
  have h2 : 0 < L₁.countP isThermalisation := by
    rw [hs, List.filterMap_append] at h
    rw [countP_filterMap' (f := mark) (q := markThermalisation) (fun e => by cases e <;> rfl)]
    cases h3 : L₁.filterMap mark with
    | nil =>
      rw [h3] at h
      unfold schedule at h
      rw [List.nil_append, List.filterMap_cons] at h
      simp only [mark, List.cons_append, List.cons.injEq] at h
      exact absurd h.1 (by simp)
    | cons m l =>
      rw [h3] at h
      unfold schedule at h
      simp only [List.cons_append, List.cons.injEq] at h
      rw [h.1]
      simp [List.countP_cons, markThermalisation]
  rw [hs, List.countP_append, List.countP_cons] at h1
  have h3 : L₂.countP isThermalisation = 0 := by omega
  intro e he
  have := List.countP_eq_zero.mp h3 e he
  simpa using this

theorem adjusting_append {f k : Event → Bool} {len : Nat → Nat} {L : List Event} : ∀ (M : List Event) (_ : ∀ e ∈ M, isThermalisation e = false),
    (window f k len L).adjusting = false → (window f k len (L ++ M)).adjusting = false := by
  intro M hM h
  unfold window at h ⊢
  rw [List.foldl_append]
  generalize List.foldl (Window.step f k len) ⟨false, 0, 0⟩ L = w at h
  induction M generalizing w with
  | nil => exact h
  | cons e M ih =>
    rw [List.foldl_cons]
    refine ih (fun e he => hM e (List.mem_cons_of_mem _ he)) _ ?_
    have he := hM e List.mem_cons_self
    cases e <;> simp [Window.step, h, isThermalisation] at he ⊢

/-- The same step sizes. -/
def SameSteps (l l' : List Sampler) : Prop := l.length = l'.length ∧ ∀ (g : Nat) (s s' : Sampler), l[g]? = some s → l'[g]? = some s' → s'.stepSizes = s.stepSizes

theorem SameSteps.refl (l : List Sampler) : SameSteps l l := ⟨rfl, fun g s s' h h' => by rw [h] at h'; injection h' with h'; rw [h']⟩

theorem SameSteps.trans {l l' l'' : List Sampler} (h : SameSteps l l') (h' : SameSteps l' l'') : SameSteps l l'' := by
  refine ⟨h.1.trans h'.1, fun g s s'' e e'' => ?_⟩
  have hg : g < l'.length := by
    rw [← h.1]
    exact (List.getElem?_eq_some_iff.mp e).1
  exact (h'.2 g _ s'' (List.getElem?_eq_getElem hg) e'').trans (h.2 g s _ e (List.getElem?_eq_getElem hg))

theorem frozen_samplers {ss₀ : List Sampler} {L L₁ L₂ : List Event} (h : WellAdjusted ss₀ L) (hl : ∀ L', L' <+: L → (samplersAfter ss₀ L').length = ss₀.length)
    (ha : ∀ e ∈ L₂, isThermalisation e = false) : L = L₁ ++ .averaging :: L₂ →
    ∀ M, M <+: L₂ → SameSteps (samplersAfter ss₀ L₁) (samplersAfter ss₀ (L₁ ++ .averaging :: M)) := by
  intro hL M
  induction M using List.reverseRecOn with
  | nil =>
    intro _
    have : samplersAfter ss₀ (L₁ ++ [.averaging]) = samplersAfter ss₀ L₁ := by unfold samplersAfter; rw [List.foldl_append]; rfl
    rw [this]
    exact SameSteps.refl _
  | append_singleton M e ih =>
    intro hM
    have hM' : M <+: L₂ := (List.prefix_append M [e]).trans hM
    have h1 := ih hM'
    obtain ⟨R, hR⟩ := hM
    have hsplit : L = (L₁ ++ .averaging :: M) ++ e :: R := by rw [hL, ← hR]; simp
    have hstep : samplersAfter ss₀ (L₁ ++ .averaging :: (M ++ [e])) = match e with | .cycle _ _ ss _ => ss | _ => samplersAfter ss₀ (L₁ ++ .averaging :: M) := by
      rw [show L₁ ++ Event.averaging :: (M ++ [e]) = (L₁ ++ .averaging :: M) ++ [e] by simp]
      unfold samplersAfter
      rw [List.foldl_append]
      cases e <;> rfl
    rw [hstep]
    cases e with
    | cycle n P ss sc =>
      refine h1.trans ?_
      have h2 := h _ _ _ _ _ _ hsplit
      refine ⟨h2.1.symm, fun g old new e1 e2 => ?_⟩
      have hg : g < ss₀.length := by
        have := (List.getElem?_eq_some_iff.mp e1).1
        rw [hl _ ⟨_, hsplit.symm⟩] at this
        exact this
      have h3 := h2.2 g _ old new (List.getElem?_eq_getElem hg) e1 e2
      have h4 : (window (isTried g) (isAccepted g) (groupLength ss₀[g]) (L₁ ++ .averaging :: M)).adjusting = false := by
        rw [show L₁ ++ Event.averaging :: M = (L₁ ++ [.averaging]) ++ M by simp]
        refine adjusting_append M (fun e he => ha e (hM'.subset he)) ?_
        unfold window
        rw [List.foldl_append]
        rfl
      unfold Adjusted at h3
      rw [if_neg (by rw [h4]; simp), if_neg (by rw [h4]; simp)] at h3
      exact h3
    | _ => exact h1

/-- The same scaler. -/
def SameScaler : ScalerStatus → ScalerStatus → Prop
  | .enabled old, .enabled new => new.kind = old.kind ∧ new.step = old.step
  | .disabled, .disabled => True
  | .unset, .unset => True
  | _, _ => False

theorem SameScaler.refl (s : ScalerStatus) : SameScaler s s := by cases s <;> simp [SameScaler]

theorem SameScaler.eq {s s' : ScalerStatus} (h : SameScaler s s') : s' = s := by
  cases s <;> cases s' <;> simp_all [SameScaler]
  rename_i a b
  cases a; cases b; simp_all

theorem frozen_scaler {sc₀ : ScalerStatus} {L L₁ L₂ : List Event} (h : WellScaled sc₀ L)
    (ha : ∀ e ∈ L₂, isThermalisation e = false) : L = L₁ ++ .averaging :: L₂ →
    ∀ M, M <+: L₂ → scalerAfter sc₀ (L₁ ++ .averaging :: M) = scalerAfter sc₀ L₁ := by
  intro hL M
  induction M using List.reverseRecOn with
  | nil =>
    intro _
    unfold scalerAfter; rw [List.foldl_append]; rfl
  | append_singleton M e ih =>
    intro hM
    have hM' : M <+: L₂ := (List.prefix_append M [e]).trans hM
    have h1 := ih hM'
    obtain ⟨R, hR⟩ := hM
    have hsplit : L = (L₁ ++ .averaging :: M) ++ e :: R := by rw [hL, ← hR]; simp
    have hstep : scalerAfter sc₀ (L₁ ++ .averaging :: (M ++ [e])) = match e with | .cycle _ _ _ sc => sc | _ => scalerAfter sc₀ (L₁ ++ .averaging :: M) := by
      rw [show L₁ ++ Event.averaging :: (M ++ [e]) = (L₁ ++ .averaging :: M) ++ [e] by simp]
      unfold scalerAfter
      rw [List.foldl_append]
      cases e <;> rfl
    rw [hstep]
    cases e with
    | cycle n P ss sc =>
      rw [← h1]
      have h2 := h _ _ _ _ _ _ hsplit
      have h4 : (window isTriedScaling isAcceptedScaling (fun _ => 100) (L₁ ++ .averaging :: M)).adjusting = false := by
        rw [show L₁ ++ Event.averaging :: M = (L₁ ++ [.averaging]) ++ M by simp]
        refine adjusting_append M (fun e he => ha e (hM'.subset he)) ?_
        unfold window
        rw [List.foldl_append]
        rfl
      apply SameScaler.eq
      generalize scalerAfter sc₀ (L₁ ++ .averaging :: M) = old at h2 ⊢
      cases old <;> cases sc <;> simp only [AdjustedStatus, SameScaler] at h2 ⊢
      unfold AdjustedScaler at h2
      rw [if_neg (by rw [h4]; simp), if_neg (by rw [h4]; simp)] at h2
      exact h2
    | _ => exact h1

theorem samplersAfter_length {ss₀ : List Sampler} {L : List Event} (h : WellAdjusted ss₀ L) : ∀ L', L' <+: L → (samplersAfter ss₀ L').length = ss₀.length := by
  intro L'
  induction L' using List.reverseRecOn with
  | nil => intro _; rfl
  | append_singleton M e ih =>
    intro hM
    have h1 := ih ((List.prefix_append M [e]).trans hM)
    obtain ⟨R, hR⟩ := hM
    have hstep : samplersAfter ss₀ (M ++ [e]) = match e with | .cycle _ _ ss _ => ss | _ => samplersAfter ss₀ M := by
      unfold samplersAfter
      rw [List.foldl_append]
      cases e <;> rfl
    rw [hstep]
    cases e with
    | cycle n P ss sc => exact (h M n P ss sc R (by rw [← hR]; simp)).1.trans h1
    | _ => exact h1

/-! ### Statistics -/

theorem groupStats_ok : ∀ {ss : List Sampler} {cs : List Counter} {l : List Stats}, ss.length = cs.length → groupStats ss cs = .ok l →
    l.length = ss.length ∧ ∀ (g : Nat) (s : Sampler) (c : Counter), ss[g]? = some s → cs[g]? = some c →
      ∃ x, l[g]? = some x ∧ x.total = c.moves ∧ x.accepted = c.accepted ∧ s.stepSizes = .ok x.steps
  | [], [], l, _, h => by
    injection h with h
    subst h
    exact ⟨rfl, fun g s c e => by simp at e⟩
  | s :: ss, c :: cs, l, hl, h => by
    simp only [groupStats] at h
    obtain ⟨steps, h1, h⟩ := Outcome.bind_eq_ok.mp h
    obtain ⟨rest, h2, h⟩ := Outcome.bind_eq_ok.mp h
    injection h with h
    subst h
    obtain ⟨h3, h4⟩ := groupStats_ok (by simpa using hl) h2
    refine ⟨by simp [h3], fun g s' c' e1 e2 => ?_⟩
    cases g with
    | zero =>
      simp only [List.getElem?_cons_zero, Option.some.injEq] at e1 e2
      subst e1 e2
      exact ⟨_, rfl, rfl, rfl, h1⟩
    | succ g =>
      rw [List.getElem?_cons_succ] at e1 e2
      obtain ⟨x, h5⟩ := h4 g s' c' e1 e2
      exact ⟨x, by rw [List.getElem?_cons_succ]; exact h5.1, h5.2⟩
  | [], _ :: _, _, hl, _ => by simp at hl
  | _ :: _, [], _, hl, _ => by simp at hl

theorem groupStats_total {m : Nat} : ∀ {ss : List Sampler} (cs : List Counter), (∀ s ∈ ss, Usable m s) → ∃ l, groupStats ss cs = .ok l
  | [], cs, _ => ⟨[], by cases cs <;> rfl⟩
  | s :: ss, [], _ => ⟨[], rfl⟩
  | s :: ss, c :: cs, h => by
    obtain ⟨l, e⟩ := groupStats_total (ss := ss) cs (fun s hs => h s (List.mem_cons_of_mem _ hs))
    obtain ⟨st, e'⟩ := Sampler.stepSizes_total (h s List.mem_cons_self)
    simp only [groupStats]
    rw [e', Outcome.ok_bind, e]
    exact ⟨_, rfl⟩

theorem stats_total {T : Traits} {n : Nat} {S : Sim} (h : Live T n S) (hl : S.env.samplers.length = S.counters.length) :
    ∃ l, S.getMovesStatistics = .ok l := by
  obtain ⟨l, e⟩ := groupStats_total S.counters h.usable
  have : ∃ l', S.scalingStats = .ok l' := by
    unfold scalingStats
    cases S.env.scaler <;> exact ⟨_, rfl⟩
  obtain ⟨l', e'⟩ := this
  unfold getMovesStatistics
  rw [getMoveSamplers_total h.groups, Outcome.ok_bind, decide_eq_true hl]
  show ∃ l, (groupStats _ _ >>= _) = _
  rw [e, Outcome.ok_bind, e']
  exact ⟨_, rfl⟩

theorem runInv_stats {ss₀ : List Sampler} {sc₀ : ScalerStatus} {base L : List Event} {S : Sim} {l : List Stats} (h : RunInv ss₀ sc₀ base L S)
    (hs : S.getMovesStatistics = .ok l) :
    (∀ g, g < ss₀.length → ∃ x s, l[g]? = some x ∧ x.total = L.countP (isTried g) ∧ x.accepted = L.countP (isAccepted g) ∧
      (samplersAfter ss₀ L)[g]? = some s ∧ s.stepSizes = .ok x.steps) ∧
    l.drop ss₀.length = match scalerAfter sc₀ L with
      | .enabled s => [⟨L.countP isTriedScaling, L.countP isAcceptedScaling, [s.step]⟩]
      | _ => [] := by
  unfold getMovesStatistics at hs
  obtain ⟨ss, h1, ha⟩ := Outcome.bind_eq_ok.mp hs
  obtain ⟨u, h2, hb⟩ := Outcome.bind_eq_ok.mp ha
  obtain ⟨a, h3, hc⟩ := Outcome.bind_eq_ok.mp hb
  obtain ⟨b, h4, hd⟩ := Outcome.bind_eq_ok.mp hc
  clear hs ha hb hc
  have hs : a ++ b = l := Outcome.ok_inj.mp hd
  have e1 : ss = S.env.samplers := by
    unfold Env.getMoveSamplers at h1
    obtain ⟨-, -, h1⟩ := Outcome.bind_eq_ok.mp h1
    injection h1 with h1
    exact h1.symm
  subst e1
  obtain ⟨h5, h6⟩ := groupStats_ok (by rw [h.len, h.lenC]) h3
  have e0 : (a ++ b).drop ss₀.length = b := by
    rw [List.drop_append_of_le_length (by rw [h5, h.len]), List.drop_of_length_le (by rw [h5, h.len]), List.nil_append]
  refine ⟨fun g hg => ?_, ?_⟩
  · obtain ⟨old, s, c, g1, g2, g3, g4, -, g6⟩ := h.group g _ (List.getElem?_eq_getElem hg)
    obtain ⟨x, f1, f2, f3, f4⟩ := h6 g s c g2 g3
    refine ⟨x, old, ?_, by rw [f2, g6.moves], by rw [f3, g6.accepted], g1, ?_⟩
    · rw [← hs, List.getElem?_append_left (List.getElem?_eq_some_iff.mp f1).1, f1]
    · rw [← f4]; exact g4.1.symm
  · show l.drop ss₀.length = _
    rw [← hs, e0]
    unfold scalingStats at h4
    rw [← h.scaler]
    cases hsc : S.env.scaler <;> rw [hsc] at h4 <;> simp only at h4 <;> injection h4 with h4 <;> rw [← h4]
    rw [h.scaling.moves, h.scaling.accepted]

end Sim

end Rampack
