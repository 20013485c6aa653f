import Verif.Sim.ThermoSpec
import Verif.Sim.RelaxLemmas
/-
The temperature and the pressure of runs.
-/
namespace Rampack

open Spec

namespace Sim

/-- The event tells neither the temperature nor the end of a cycle. -/
def isQuiet : Event → Bool
  | .thermo _ _ => false
  | .cycle _ _ _ _ => false
  | _ => true

theorem thermoAfter_quiet {L M : List Event} (h : ∀ e ∈ M, isQuiet e = true) : thermoAfter (L ++ M) = thermoAfter L := by
  unfold thermoAfter
  rw [List.foldl_append]
  generalize List.foldl _ none L = x
  induction M with
  | nil => rfl
  | cons e M ih =>
    rw [List.foldl_cons]
    have h1 := h e List.mem_cons_self
    have h' := fun y hy => h y (List.mem_cons_of_mem _ hy)
    cases e <;> first | exact ih h' | cases h1

theorem thermoAfter_cycle {L : List Event} {n : Nat} {P : Packing} {ss : List Sampler} {sc : ScalerStatus} :
    thermoAfter (L ++ [.cycle n P ss sc]) = thermoAfter L := by
  unfold thermoAfter
  rw [List.foldl_append]
  rfl

theorem thermoAfter_thermo {L : List Event} {t p : ℝ} : thermoAfter (L ++ [.thermo t p]) = some (t, p) := by
  unfold thermoAfter
  rw [List.foldl_append]
  rfl

theorem _root_.Rampack.Spec.CyclesInForce.concat {e : Env} {m : Nat} {f : Nat → Nat} {L : List Event} {x : Event} (h : CyclesInForce e m f L)
    (hx : ∀ n P ss sc, x ≠ .cycle n P ss sc) : CyclesInForce e m f (L ++ [x]) := by
  intro A n P ss sc B hL
  rcases split_concat hL with ⟨rfl, h1⟩ | ⟨L₃, h3⟩
  · exact absurd h1.symm (hx n P ss sc)
  · exact h A n P ss sc L₃ h3

theorem _root_.Rampack.Spec.CyclesInForce.append {e : Env} {m : Nat} {f : Nat → Nat} {L M : List Event} (h : CyclesInForce e m f L)
    (hM : ∀ x ∈ M, isQuiet x = true) : CyclesInForce e m f (L ++ M) := by
  induction M using List.reverseRecOn with
  | nil => rwa [List.append_nil]
  | append_singleton M x ih =>
    rw [← List.append_assoc]
    refine Spec.CyclesInForce.concat (ih fun y hy => hM y (List.mem_append_left _ hy)) ?_
    rintro n P ss sc rfl
    have := hM _ (List.mem_append_right _ (List.mem_singleton.mpr rfl))
    cases this

theorem _root_.Rampack.Spec.CyclesInForce.cycle {e : Env} {m : Nat} {f : Nat → Nat} {L : List Event} {n : Nat} {P : Packing} {ss : List Sampler} {sc : ScalerStatus}
    (h : CyclesInForce e m f L) {t p : ℝ} (h1 : thermoAfter L = some (t, p)) (h2 : InForce e (f n) m t p) :
    CyclesInForce e m f (L ++ [.cycle n P ss sc]) := by
  intro A n' P' ss' sc' B hL
  rcases split_concat hL with ⟨rfl, h3⟩ | ⟨L₃, h3⟩
  · injection h3 with h3
    subst h3
    exact ⟨t, p, h1, h2⟩
  · exact h A n' P' ss' sc' L₃ h3

/-- What is known of the temperature and the pressure of a run after `c` cycles, those given for cycle `k` being in force. -/
structure Thermal (e : Env) (m : Nat) (f : Nat → Nat) (c k : Nat) (base L : List Event) (S : Sim) : Prop where
  log : S.log = base ++ L
  envT : S.env.temperature = e.temperature
  envP : S.env.pressure = e.pressure
  scaling : S.env.isBoxScalingEnabled = e.isBoxScalingEnabled
  max : S.max = m
  total : S.total = c
  last : thermoAfter L = some (S.temperature, S.pressure)
  force : InForce e k m S.temperature S.pressure
  past : CyclesInForce e m f L
  upto : ∀ n P ss sc, .cycle n P ss sc ∈ L → 0 < n ∧ n ≤ c
  has : S.env.hasBoxScaler = e.hasBoxScaler

theorem upto_quiet {c : Nat} {L M : List Event} (h : ∀ n P ss sc, .cycle n P ss sc ∈ L → 0 < n ∧ n ≤ c) (hM : ∀ x ∈ M, isQuiet x = true) :
    ∀ n P ss sc, .cycle n P ss sc ∈ L ++ M → 0 < n ∧ n ≤ c := by
  intro n P ss sc hx
  rcases List.mem_append.mp hx with hx | hx
  · exact h n P ss sc hx
  · cases hM _ hx

variable {e : Env} {m : Nat} {f : Nat → Nat} {c k : Nat} {base L : List Event} {S S' : Sim}

theorem Thermal.quiet {M : List Event} (h : Thermal e m f c k base L S) (hM : ∀ x ∈ M, isQuiet x = true) (hl : S'.log = S.log ++ M)
    (he : S'.env = S.env) (hm : S'.max = S.max) (hc : S'.total = S.total) (ht : S'.temperature = S.temperature) (hp : S'.pressure = S.pressure) :
    Thermal e m f c k base (L ++ M) S' := by
  obtain ⟨h1, h2, h3, h4, h5, h6, h7, h8, h9, h10, h11⟩ := h
  refine ⟨by rw [hl, h1, List.append_assoc], by rw [he, h2], by rw [he, h3], by rw [he, h4], hm.trans h5, hc.trans h6, ?_, ?_, Spec.CyclesInForce.append h9 hM, upto_quiet h10 hM, by rw [he, h11]⟩
  · rw [thermoAfter_quiet hM, h7, ht, hp]
  · rw [ht, hp]; exact h8

theorem scalerEnd_enabled (a : Bool) (n : Counter) (s : ScalerStatus) (E : Env) :
    Env.isBoxScalingEnabled { E with scaler := (scalerEnd a n s).2 } = Env.isBoxScalingEnabled { E with scaler := s } := by
  unfold scalerEnd
  split <;> rfl

theorem scalerEnd_has (a : Bool) (n : Counter) (s : ScalerStatus) (E : Env) :
    Env.hasBoxScaler { E with scaler := (scalerEnd a n s).2 } = Env.hasBoxScaler { E with scaler := s } := by
  unfold scalerEnd
  split <;> rfl

theorem performCycle_thermal {T : Traits} (h : Thermal e m f c k base L S) (hf : f (c + 1) = k) (hc : S.performCycle T = .ok S') :
    ∃ M, Thermal e m f (c + 1) k base (L ++ M) S' := by
  obtain ⟨h1, h2, h3, h4, h5, h6, h7, h8, h9, h10, h11⟩ := h
  obtain ⟨S₁, S₂, S₃, b1, b2, b3, rfl⟩ := performCycle_ok hc
  obtain ⟨M₁, m1, -⟩ := performMoves_swept b1
  obtain ⟨M₂, q2, l2, e2, x2, c2, t2, p2⟩ : ∃ M₂, (∀ x ∈ M₂, isQuiet x = true) ∧ S₂.log = S₁.log ++ M₂ ∧ S₂.env = S₁.env ∧ S₂.max = S₁.max ∧
      S₂.total = S₁.total ∧ S₂.temperature = S₁.temperature ∧ S₂.pressure = S₁.pressure := by
    rcases cycleScaling_ok b2 with ⟨-, rfl⟩ | ⟨-, S', b, h1, rfl⟩
    · exact ⟨[], by simp, (List.append_nil _).symm, rfl, rfl, rfl, rfl, rfl⟩
    · obtain ⟨t, s, box, t', P', -, -, -, -, rfl, -⟩ := tryScaling_ok h1
      refine ⟨scalingLog b P', ?_, rfl, rfl, rfl, rfl, rfl, rfl⟩
      unfold scalingLog
      cases b <;> simp [isQuiet]
  obtain ⟨cs, bs, ss, cc, sc, rfl, -, -, -, hsc⟩ := cycleAdjust_ok b3
  have q1 : ∀ x ∈ M₁, isQuiet x = true := by
    intro x hx
    have := m1.only x hx
    cases x <;> first | rfl | cases this
  have q12 : ∀ x ∈ M₁ ++ M₂, isQuiet x = true := by
    intro x hx
    rcases List.mem_append.mp hx with hx | hx
    · exact q1 x hx
    · exact q2 x hx
  have hte : S₂.temperature = S.temperature := t2.trans m1.temperature
  have hpe : S₂.pressure = S.pressure := p2.trans m1.pressure
  have hto : S₂.total = c := by rw [c2, m1.total, h6]
  have hL : thermoAfter (L ++ (M₁ ++ M₂)) = some (S.temperature, S.pressure) := by rw [thermoAfter_quiet q12, h7]
  refine ⟨M₁ ++ M₂ ++ [.cycle (S₂.total + 1) S₂.P ss sc], ?_, ?_, ?_, ?_, ?_, ?_, ?_, ?_, ?_, ?_, ?_⟩
  · change S₂.log ++ [_] = _
    rw [l2, m1.log, h1]
    simp only [List.append_assoc]
    rfl
  · change S₂.env.temperature = _
    rw [e2, m1.envT, h2]
  · change S₂.env.pressure = _
    rw [e2, m1.envP, h3]
  · have hs : sc = (scalerEnd S₂.shouldAdjust S₂.scalingCounter S₂.env.scaler).2 := by rw [← hsc]
    change Env.isBoxScalingEnabled { S₂.env with samplers := ss, scaler := sc } = _
    rw [hs, ← h4]
    have := scalerEnd_enabled S₂.shouldAdjust S₂.scalingCounter S₂.env.scaler { S₂.env with samplers := ss }
    refine this.trans ?_
    change Env.isBoxScalingEnabled { S₂.env with samplers := ss } = _
    unfold Env.isBoxScalingEnabled
    rw [e2]
    simp only [m1.scaler]
  · change S₂.max = _
    rw [x2, m1.max, h5]
  · change S₂.total + 1 = _
    rw [hto]
  · rw [← List.append_assoc, thermoAfter_cycle, hL]
    change _ = some (S₂.temperature, S₂.pressure)
    rw [hte, hpe]
  · change InForce e k m S₂.temperature S₂.pressure
    rw [hte, hpe]
    exact h8
  · rw [← List.append_assoc]
    refine Spec.CyclesInForce.cycle (Spec.CyclesInForce.append h9 q12) hL ?_
    rw [hto, hf]
    exact h8
  · intro n P ss' sc' hx
    rw [← List.append_assoc] at hx
    rcases List.mem_append.mp hx with hx | hx
    · obtain ⟨a, b⟩ := upto_quiet h10 q12 n P ss' sc' hx
      exact ⟨a, by omega⟩
    · injection List.mem_singleton.mp hx with hx
      omega
  · have hs : sc = (scalerEnd S₂.shouldAdjust S₂.scalingCounter S₂.env.scaler).2 := by rw [← hsc]
    change Env.hasBoxScaler { S₂.env with samplers := ss, scaler := sc } = _
    rw [hs, ← h11]
    have := scalerEnd_has S₂.shouldAdjust S₂.scalingCounter S₂.env.scaler { S₂.env with samplers := ss }
    refine this.trans ?_
    change Env.hasBoxScaler { S₂.env with samplers := ss } = _
    unfold Env.hasBoxScaler
    rw [e2]
    simp only [m1.scaler]

theorem currentPressure_ok {S : Sim} {p : ℝ} (h : S.currentPressure = .ok p) :
    (S.env.isBoxScalingEnabled = true → ∃ q, S.env.pressure = some q ∧ q.value S.total S.max = .ok p) ∧
      (S.env.isBoxScalingEnabled = false → p = 0) := by
  unfold currentPressure at h
  rcases Outcome.ite_eq_ok.mp h with ⟨h0, h⟩ | ⟨h0, h⟩
  · obtain ⟨q, h1, h2⟩ := Outcome.bind_eq_ok.mp h
    refine ⟨fun _ => ⟨q, ?_, h2⟩, fun h => absurd (h0.symm.trans h) (by decide)⟩
    unfold Env.getPressure at h1
    split at h1
    · cases h1
    · injection h1 with h1; rw [← h1]; assumption
  · injection h with h
    exact ⟨fun h => absurd h h0, fun _ => h.symm⟩

theorem getTemperature_ok {E : Env} {q : Param} (h : E.getTemperature = .ok q) : E.temperature = some q := by
  unfold Env.getTemperature at h
  split at h
  · cases h
  · injection h with h; rw [← h]; assumption

theorem updateThermo_ok {S S' : Sim} (h : S.updateThermo = .ok S') :
    ∃ t p, S' = { S with temperature := t, pressure := p, log := S.log ++ [.thermo t p] } ∧
      InForce S.env S.total S.max t p := by
  unfold updateThermo at h
  obtain ⟨q, h1, h⟩ := Outcome.bind_eq_ok.mp h
  obtain ⟨t, h2, h⟩ := Outcome.bind_eq_ok.mp h
  obtain ⟨p, h3, h⟩ := Outcome.bind_eq_ok.mp h
  injection h with h
  obtain ⟨h4, h5⟩ := currentPressure_ok h3
  exact ⟨t, p, h.symm, ⟨q, getTemperature_ok h1, h2⟩, h4, h5⟩

theorem _root_.Rampack.Spec.InForce.congr {E E' : Env} {n m : Nat} {t p : ℝ} (h : InForce E n m t p) (h1 : E.temperature = E'.temperature) (h2 : E.pressure = E'.pressure)
    (h3 : E.isBoxScalingEnabled = E'.isBoxScalingEnabled) : InForce E' n m t p := by
  obtain ⟨a, b, c⟩ := h
  rw [h1] at a
  rw [h2, h3] at b
  rw [h3] at c
  exact ⟨a, b, c⟩

theorem updateThermo_thermal (h : Thermal e m f c k base L S) (hc : S.updateThermo = .ok S') : ∃ M, Thermal e m f c c base (L ++ M) S' := by
  obtain ⟨h1, h2, h3, h4, h5, h6, h7, h8, h9, h10, h11⟩ := h
  obtain ⟨t, p, rfl, hf⟩ := updateThermo_ok hc
  refine ⟨[.thermo t p], ?_, h2, h3, h4, h5, h6, thermoAfter_thermo, ?_, ?_, ?_, h11⟩
  · change S.log ++ _ = _
    rw [h1, List.append_assoc]
  · rw [h5, h6] at hf
    exact hf.congr h2 h3 h4
  · exact Spec.CyclesInForce.concat h9 (by simp)
  · intro n P ss sc hx
    rcases List.mem_append.mp hx with hx | hx
    · exact h10 n P ss sc hx
    · cases List.mem_singleton.mp hx

theorem fixStep_thermal {p : RunParams} {I : Interaction} (h : Thermal e m f c k base L S) (hc : fixStep p I S = .ok S') :
    ∃ M, Thermal e m f c k base (L ++ M) S' := by
  unfold fixStep at hc
  obtain ⟨b, -, hc⟩ := Outcome.bind_eq_ok.mp hc
  rcases Outcome.ite_eq_ok.mp hc with ⟨-, hc⟩ | ⟨-, hc⟩
  · unfold fixRotationMatrices at hc
    obtain ⟨⟨P, n⟩, -, hc⟩ := Outcome.bind_eq_ok.mp hc
    injection hc with hc
    subst hc
    exact ⟨[.fixed P], h.quiet (by simp [isQuiet]) rfl rfl rfl rfl rfl rfl⟩
  · injection hc with hc
    subst hc
    exact ⟨[], by rwa [List.append_nil]⟩

theorem snapshotStep_thermal {p : RunParams} (h : Thermal e m f c k base L S) (hc : snapshotStep p S = .ok S') :
    ∃ M, Thermal e m f c k base (L ++ M) S' := by
  unfold snapshotStep at hc
  obtain ⟨b, -, hc⟩ := Outcome.bind_eq_ok.mp hc
  rcases Outcome.ite_eq_ok.mp hc with ⟨-, hc⟩ | ⟨-, hc⟩
  · injection hc with hc
    subst hc
    refine ⟨_, h.quiet (M := .snapshot S.total S.P :: (List.range p.recorders).map fun r => .recorded r S.total S.P) ?_ rfl rfl rfl rfl rfl rfl⟩
    intro x hx
    rcases List.mem_cons.mp hx with rfl | hx
    · rfl
    · obtain ⟨r, -, rfl⟩ := List.mem_map.mp hx
      rfl
  · injection hc with hc
    subst hc
    exact ⟨[], by rwa [List.append_nil]⟩

theorem infoStep_thermal {p : RunParams} (h : Thermal e m f c k base L S) (hc : infoStep p S = .ok S') :
    ∃ M, Thermal e m f c k base (L ++ M) S' := by
  unfold infoStep at hc
  obtain ⟨b, -, hc⟩ := Outcome.bind_eq_ok.mp hc
  rcases Outcome.ite_eq_ok.mp hc with ⟨-, hc⟩ | ⟨-, hc⟩
  · injection hc with hc
    subst hc
    exact ⟨[.info S.total], h.quiet (by simp [isQuiet]) rfl rfl rfl rfl rfl rfl⟩
  · injection hc with hc
    subst hc
    exact ⟨[], by rwa [List.append_nil]⟩

theorem averagingStep_thermal {n : Nat} (h : Thermal e m f c k base L S) (hc : averagingStep n S = .ok S') :
    ∃ M, Thermal e m f c k base (L ++ M) S' := by
  unfold averagingStep at hc
  obtain ⟨b, -, hc⟩ := Outcome.bind_eq_ok.mp hc
  rcases Outcome.ite_eq_ok.mp hc with ⟨-, hc⟩ | ⟨-, hc⟩
  · injection hc with hc
    subst hc
    exact ⟨[.averaged S.P], h.quiet (by simp [isQuiet]) rfl rfl rfl rfl rfl rfl⟩
  · injection hc with hc
    subst hc
    exact ⟨[], by rwa [List.append_nil]⟩

theorem thermalisationCycle_thermal {p : RunParams} {T : Traits} (h : Thermal e m f c c base L S) (hf : f (c + 1) = c)
    (hc : thermalisationCycle p T S = .ok S') : ∃ M, Thermal e m f (c + 1) (c + 1) base (L ++ M) S' := by
  unfold thermalisationCycle at hc
  obtain ⟨S₁, h1, hc⟩ := Outcome.bind_eq_ok.mp hc
  obtain ⟨S₂, h2, hc⟩ := Outcome.bind_eq_ok.mp hc
  obtain ⟨S₃, h3, hc⟩ := Outcome.bind_eq_ok.mp hc
  obtain ⟨S₄, h4, h5⟩ := Outcome.bind_eq_ok.mp hc
  obtain ⟨M₁, t1⟩ := performCycle_thermal h hf h1
  obtain ⟨M₂, t2⟩ := updateThermo_thermal t1 h2
  obtain ⟨M₃, t3⟩ := fixStep_thermal t2 h3
  obtain ⟨M₄, t4⟩ := snapshotStep_thermal t3 h4
  obtain ⟨M₅, t5⟩ := infoStep_thermal t4 h5
  exact ⟨M₁ ++ M₂ ++ M₃ ++ M₄ ++ M₅, by simpa only [List.append_assoc] using t5⟩

theorem averagingCycle_thermal {p : RunParams} {n : Nat} {T : Traits} (h : Thermal e m f c k base L S) (hf : f (c + 1) = k)
    (hc : averagingCycle p n T S = .ok S') : ∃ M, Thermal e m f (c + 1) k base (L ++ M) S' := by
  unfold averagingCycle at hc
  obtain ⟨S₁, h1, hc⟩ := Outcome.bind_eq_ok.mp hc
  obtain ⟨S₃, h3, hc⟩ := Outcome.bind_eq_ok.mp hc
  obtain ⟨S₄, h4, hc⟩ := Outcome.bind_eq_ok.mp hc
  obtain ⟨S₅, h5, h6⟩ := Outcome.bind_eq_ok.mp hc
  obtain ⟨M₁, t1⟩ := performCycle_thermal h hf h1
  obtain ⟨M₃, t3⟩ := fixStep_thermal t1 h3
  obtain ⟨M₄, t4⟩ := snapshotStep_thermal t3 h4
  obtain ⟨M₅, t5⟩ := averagingStep_thermal t4 h5
  obtain ⟨M₆, t6⟩ := infoStep_thermal t5 h6
  exact ⟨M₁ ++ M₃ ++ M₄ ++ M₅ ++ M₆, by simpa only [List.append_assoc] using t6⟩

theorem Thermal.interrupt (h : Thermal e m f c k base L S) (b : Bool) : Thermal e m f c k base L { S with interrupted := b } :=
  ⟨h.log, h.envT, h.envP, h.scaling, h.max, h.total, h.last, h.force, h.past, h.upto, h.has⟩

/-- Loops over cycles, in which the cycle in force is `g` of the number of cycles. -/
theorem cycleLoop_thermal {step : Sim → Outcome Sim} {g : Nat → Nat} {stop : Nat → Bool} :
    ∀ (n : Nat) {c : Nat} {L : List Event} {S S' : Sim},
    (∀ (c' : Nat) (L : List Event) (S S' : Sim), c ≤ c' → c' < c + n → Thermal e m f c' (g c') base L S → step S = .ok S' →
      ∃ M, Thermal e m f (c' + 1) (g (c' + 1)) base (L ++ M) S') →
    Thermal e m f c (g c) base L S → cycleLoop step stop n S = .ok S' →
    (∃ c' M, Thermal e m f c' (g c') base (L ++ M) S' ∧ (S'.interrupted = true ∨ c' = c + n) ∧ c' ≤ c + n)
  | 0, c, L, S, S', _, h, hc => by
    injection hc with hc
    subst hc
    exact ⟨c, [], by rwa [List.append_nil], .inr rfl, le_rfl⟩
  | n + 1, c, L, S, S', hs, h, hc => by
    simp only [cycleLoop] at hc
    obtain ⟨S₁, h1, hc⟩ := Outcome.bind_eq_ok.mp hc
    obtain ⟨M, t⟩ := hs c L S S₁ le_rfl (by omega) h h1
    rcases Outcome.ite_eq_ok.mp hc with ⟨-, hc⟩ | ⟨-, hc⟩
    · injection hc with hc
      subst hc
      exact ⟨c + 1, M, t.interrupt true, .inl rfl, by omega⟩
    · obtain ⟨c', M', t', h', hle⟩ := cycleLoop_thermal n (fun c' L S S' a b => hs c' L S S' (by omega) (by omega)) t hc
      exact ⟨c', M ++ M', by simpa only [List.append_assoc] using t', h'.imp id fun h => by omega, by omega⟩

theorem relaxLoop_thermal {p : RunParams} {T : Traits} {stop : Nat → Bool} (hf : ∀ n, f (n + 1) = n) :
    ∀ (fuel : Nat) {c : Nat} {L : List Event} {S S' : Sim}, Thermal e m f c c base L S → relaxLoop p T stop fuel S = .ok S' →
    ∃ c' M, Thermal e m f c' c' base (L ++ M) S'
  | 0, _, _, _, _, _, hc => by cases hc
  | fuel + 1, c, L, S, S', h, hc => by
    simp only [relaxLoop] at hc
    obtain ⟨n, -, hc⟩ := Outcome.bind_eq_ok.mp hc
    rcases Outcome.ite_eq_ok.mp hc with ⟨-, hc⟩ | ⟨-, hc⟩
    · obtain ⟨S₁, h1, hc⟩ := Outcome.bind_eq_ok.mp hc
      obtain ⟨M, t⟩ := thermalisationCycle_thermal h (hf c) h1
      rcases Outcome.ite_eq_ok.mp hc with ⟨-, hc⟩ | ⟨-, hc⟩
      · injection hc with hc
        subst hc
        exact ⟨c + 1, M, t.interrupt true⟩
      · obtain ⟨c', M', t'⟩ := relaxLoop_thermal hf fuel t hc
        exact ⟨c', M ++ M', by simpa only [List.append_assoc] using t'⟩
    · injection hc with hc
      subst hc
      exact ⟨c, [], by rwa [List.append_nil]⟩

/-- What a run begins with. -/
theorem begin_thermal {E : Env} {S₁ S₂ : Sim} {T : Traits} {o : Nat} {b a : Bool} (h1 : S.start E T = .ok S₁) (h2 : S₁.prepare T o m b = .ok S₂) :
    ∃ t p, Thermal (S.env.combine E) m f o o (S.log ++ [.clear]) [.thermo t p, .thermalisation]
      { S₂ with shouldAdjust := a, log := S₂.log ++ [.thermalisation] } := by
  obtain ⟨ss₀, -, -, rfl⟩ := start_ok h1
  unfold prepare at h2
  obtain ⟨S₃, h3, h⟩ := Outcome.bind_eq_ok.mp h2
  obtain ⟨P₁, -, h⟩ := Outcome.bind_eq_ok.mp h
  obtain ⟨P, -, h⟩ := Outcome.bind_eq_ok.mp h
  injection h with h
  subst h
  obtain ⟨t, p, rfl, hf⟩ := updateThermo_ok h3
  refine ⟨t, p, ?_, rfl, rfl, rfl, rfl, rfl, rfl, hf.congr rfl rfl rfl, ?_, by simp, rfl⟩
  · simp only [List.append_assoc]
    rfl
  · intro A n P ss sc B hL
    rcases A with _ | ⟨_, _ | ⟨_, A⟩⟩ <;> simp at hL

/-- The number of the cycle for which the temperature and the pressure in cycle `n` are given: that before the cycle, but not after the thermalisation. -/
def thermoCycle (o : Nat) (n : Nat) : Nat := min (n - 1) o

theorem integrate_thermal {E : Env} {p : IntegrationParams} {T : Traits} {stop : Nat → Bool} (h : S.integrate E p T stop = .ok S') :
    ∃ c k L, Thermal (S.env.combine E) (p.cycleOffset + p.thermalisationCycles + p.averagingCycles) (thermoCycle (p.cycleOffset + p.thermalisationCycles))
      c k (S.log ++ [.clear]) L S' ∧ c ≤ p.cycleOffset + p.thermalisationCycles + p.averagingCycles := by
  unfold integrate at h
  obtain ⟨_, h0, h⟩ := Outcome.bind_eq_ok.mp h
  obtain ⟨S₁, h1, h⟩ := Outcome.bind_eq_ok.mp h
  obtain ⟨S₂, h2, h⟩ := Outcome.bind_eq_ok.mp h
  obtain ⟨n, h3, h⟩ := Outcome.bind_eq_ok.mp h
  obtain ⟨_, h4, h⟩ := Outcome.bind_eq_ok.mp h
  obtain ⟨S₃, h5, h⟩ := Outcome.bind_eq_ok.mp h
  obtain ⟨t, pr, a1⟩ := begin_thermal (f := thermoCycle (p.cycleOffset + p.thermalisationCycles)) (a := true) h1 h2
  unfold thermalisationPhase at h5
  obtain ⟨c', M, t1, hi, hle⟩ := cycleLoop_thermal (g := id) p.thermalisationCycles (fun c' L S S' a b h hs =>
    thermalisationCycle_thermal h (by unfold thermoCycle; omega) hs) a1 h5
  rcases Outcome.ite_eq_ok.mp h with ⟨-, h⟩ | ⟨hn, h⟩
  · injection h with h
    subst h
    exact ⟨_, _, _, t1, by omega⟩
  · obtain rfl := hi.resolve_left hn
    unfold averagingPhase at h
    have a2 := t1.quiet (S' := { S₃ with shouldAdjust := false, log := S₃.log ++ [.averaging] }) (M := [.averaging]) (by simp [isQuiet]) rfl rfl rfl rfl rfl rfl
    obtain ⟨c', M', t2, -, hle'⟩ := cycleLoop_thermal (g := fun _ => p.cycleOffset + p.thermalisationCycles) p.averagingCycles (fun c' L S S' a b h hs =>
      averagingCycle_thermal h (by unfold thermoCycle; omega) hs) a2 h
    exact ⟨_, _, _, t2, hle'⟩

theorem relaxOverlaps_thermal {E : Env} {p : RunParams} {T : Traits} {stop : Nat → Bool} {fuel : Nat} (h : S.relaxOverlaps E p T stop fuel = .ok S') :
    ∃ c k L, Thermal (S.env.combine E) sizeMax (fun n => n - 1) c k (S.log ++ [.clear]) L S' := by
  unfold relaxOverlaps at h
  obtain ⟨_, h0, h⟩ := Outcome.bind_eq_ok.mp h
  obtain ⟨S₁, h1, h⟩ := Outcome.bind_eq_ok.mp h
  obtain ⟨S₂, h2, h⟩ := Outcome.bind_eq_ok.mp h
  obtain ⟨t, pr, a1⟩ := begin_thermal (f := fun n => n - 1) (a := true) h1 h2
  obtain ⟨c', M, t1⟩ := relaxLoop_thermal (fun n => rfl) fuel a1 h
  exact ⟨_, _, _, t1⟩

end Sim

end Rampack
