import Verif.Sim.CycleLemmas
/-
The invariant of runs: counters, step sizes and the log.
-/
namespace Rampack

open Spec

namespace Sim

/-- The event ends no cycle and begins no phase. -/
def plain : Event → Bool
  | .cycle _ _ _ _ => false
  | .thermalisation => false
  | .averaging => false
  | _ => true

theorem split_append {α : Type} {L M L₁ L₂ : List α} {x : α} (h : L ++ M = L₁ ++ x :: L₂) (hx : x ∉ M) :
    ∃ L₃, L = L₁ ++ x :: L₃ := by
  rcases List.append_eq_append_iff.mp h with ⟨a, h1, h2⟩ | ⟨a, h1, h2⟩
  · exact absurd (h2 ▸ List.mem_append_right _ List.mem_cons_self) hx
  · cases a with
    | nil =>
      rw [List.nil_append] at h2
      exact absurd (h2 ▸ List.mem_cons_self) hx
    | cons y a =>
      injection h2 with h3 h4
      subst h3
      exact ⟨a, h1⟩

theorem split_concat {α : Type} {L L₁ L₂ : List α} {x y : α} (h : L ++ [y] = L₁ ++ x :: L₂) :
    (L = L₁ ∧ x = y) ∨ ∃ L₃, L = L₁ ++ x :: L₃ := by
  rcases List.append_eq_append_iff.mp h with ⟨a, h1, h2⟩ | ⟨a, h1, h2⟩
  · cases a with
    | nil =>
      rw [List.append_nil] at h1
      injection h2 with h3 h4
      exact Or.inl ⟨h1.symm, h3.symm⟩
    | cons z a =>
      injection h2 with h3 h4
      have := congrArg List.length h4
      simp at this
  · cases a with
    | nil =>
      rw [List.append_nil] at h1
      rw [List.nil_append] at h2
      injection h2 with h3 h4
      exact Or.inl ⟨h1, h3⟩
    | cons z a =>
      injection h2 with h3 h4
      subst h3
      exact Or.inr ⟨a, h1⟩

theorem window_plain {f k : Event → Bool} {len : Nat → Nat} : ∀ (M : List Event) (_ : ∀ e ∈ M, plain e = true) (w : Window),
    M.foldl (Window.step f k len) w = ⟨w.adjusting, w.tried + M.countP f, w.accepted + M.countP k⟩
  | [], _, w => rfl
  | e :: M, h, w => by
    rw [List.foldl_cons, window_plain M (fun x hx => h x (List.mem_cons_of_mem _ hx))]
    have he := h e List.mem_cons_self
    have h1 : w.step f k len e = ⟨w.adjusting, if f e then w.tried + 1 else w.tried, if k e then w.accepted + 1 else w.accepted⟩ := by
      cases e <;> first | rfl | cases he
    rw [h1, List.countP_cons, List.countP_cons]
    simp only [Window.mk.injEq, true_and]
    constructor <;> split_ifs <;> omega

theorem samplersAfter_plain {start : List Sampler} {M : List Event} (h : ∀ e ∈ M, plain e = true) (L : List Event) :
    samplersAfter start (L ++ M) = samplersAfter start L := by
  unfold samplersAfter
  rw [List.foldl_append]
  generalize List.foldl _ start L = x
  induction M with
  | nil => rfl
  | cons e M ih =>
    rw [List.foldl_cons]
    have he := h e List.mem_cons_self
    have h' := fun y hy => h y (List.mem_cons_of_mem _ hy)
    cases e <;> first | exact ih h' | cases he

theorem scalerAfter_plain {start : ScalerStatus} {M : List Event} (h : ∀ e ∈ M, plain e = true) (L : List Event) :
    scalerAfter start (L ++ M) = scalerAfter start L := by
  unfold scalerAfter
  rw [List.foldl_append]
  generalize List.foldl _ start L = x
  induction M with
  | nil => rfl
  | cons e M ih =>
    rw [List.foldl_cons]
    have he := h e List.mem_cons_self
    have h' := fun y hy => h y (List.mem_cons_of_mem _ hy)
    cases e <;> first | exact ih h' | cases he

/-- The event is the end of a cycle. -/
def isCycle : Event → Bool
  | .cycle _ _ _ _ => true
  | _ => false

theorem wellAdjusted_append {start : List Sampler} {L M : List Event} (h : WellAdjusted start L)
    (hM : ∀ e ∈ M, isCycle e = false) : WellAdjusted start (L ++ M) := by
  intro L₁ n P ss sc L₂ he
  obtain ⟨L₃, h3⟩ := split_append he (fun hx => by have := hM _ hx; cases this)
  exact h L₁ n P ss sc L₃ h3

theorem wellScaled_append {start : ScalerStatus} {L M : List Event} (h : WellScaled start L)
    (hM : ∀ e ∈ M, isCycle e = false) : WellScaled start (L ++ M) := by
  intro L₁ n P ss sc L₂ he
  obtain ⟨L₃, h3⟩ := split_append he (fun hx => by have := hM _ hx; cases this)
  exact h L₁ n P ss sc L₃ h3

theorem plain_not_cycle {M : List Event} (h : ∀ e ∈ M, plain e = true) : ∀ e ∈ M, isCycle e = false := by
  intro e he
  have := h e he
  cases e <;> first | rfl | cases this

/-- A counter agrees with a log. -/
structure Agrees (f k : Event → Bool) (len : Nat → Nat) (L : List Event) (adjusting : Bool) (c : Counter) : Prop where
  moves : c.moves = L.countP f
  accepted : c.accepted = L.countP k
  adj : (window f k len L).adjusting = adjusting
  movesSince : c.movesSince = (window f k len L).tried
  acceptedSince : c.acceptedSince = (window f k len L).accepted

/-- The counter of the events of a log. -/
def counted (f k : Event → Bool) (M : List Event) : Counter := ⟨M.countP f, M.countP k, M.countP f, M.countP k⟩

theorem Agrees.extend {f k : Event → Bool} {len : Nat → Nat} {L M : List Event} {a : Bool} {c : Counter}
    (h : Agrees f k len L a c) (hM : ∀ e ∈ M, plain e = true) : Agrees f k len (L ++ M) a (c.add (counted f k M)) := by
  obtain ⟨h1, h2, h3, h4, h5⟩ := h
  have hw : window f k len (L ++ M) = ⟨(window f k len L).adjusting, (window f k len L).tried + M.countP f,
      (window f k len L).accepted + M.countP k⟩ := by
    unfold window
    rw [List.foldl_append, window_plain M hM]
  refine ⟨?_, ?_, ?_, ?_, ?_⟩
  · rw [List.countP_append, ← h1]; rfl
  · rw [List.countP_append, ← h2]; rfl
  · rw [hw]; exact h3
  · rw [hw, ← h4]; rfl
  · rw [hw, ← h5]; rfl

/-- The invariant of a run begun with the given samplers and scaler, when the log was `base`. -/
structure RunInv (ss₀ : List Sampler) (sc₀ : ScalerStatus) (base L : List Event) (S : Sim) : Prop where
  log : S.log = base ++ L
  len : S.env.samplers.length = ss₀.length
  lenC : S.counters.length = ss₀.length
  lenA : (samplersAfter ss₀ L).length = ss₀.length
  group : ∀ (g : Nat) (s₀ : Sampler), ss₀[g]? = some s₀ → ∃ (old s : Sampler) (c : Counter),
    (samplersAfter ss₀ L)[g]? = some old ∧ S.env.samplers[g]? = some s ∧ S.counters[g]? = some c ∧
    SameSampler old s ∧ (∀ n, groupLength s n = groupLength s₀ n) ∧
    Agrees (isTried g) (isAccepted g) (groupLength s₀) L S.shouldAdjust c
  scaling : Agrees isTriedScaling isAcceptedScaling (fun _ => 100) L S.shouldAdjust S.scalingCounter
  scaler : S.env.scaler = scalerAfter sc₀ L
  off : S.env.isBoxScalingEnabled = false → S.scalingCounter.movesSince = 0
  adjusted : WellAdjusted ss₀ L
  scaled : WellScaled sc₀ L

/-- Events other than ends of cycles and beginnings of phases. -/
theorem RunInv.extend {ss₀ : List Sampler} {sc₀ : ScalerStatus} {base L M : List Event} {S S' : Sim}
    (h : RunInv ss₀ sc₀ base L S) (hM : ∀ e ∈ M, plain e = true) (hl : S'.log = S.log ++ M)
    (hs : SameSamplers S.env.samplers S'.env.samplers) (hsc : S'.env.scaler = S.env.scaler)
    (hc : ∀ (g : Nat) (c : Counter), S.counters[g]? = some c → S'.counters[g]? = some (c.add (counted (isTried g) (isAccepted g) M)))
    (hlc : S'.counters.length = S.counters.length)
    (hcs : S'.scalingCounter = S.scalingCounter.add (counted isTriedScaling isAcceptedScaling M))
    (ha : S'.shouldAdjust = S.shouldAdjust) (hoff : S.env.isBoxScalingEnabled = false → M.countP isTriedScaling = 0) :
    RunInv ss₀ sc₀ base (L ++ M) S' := by
  obtain ⟨h1, h2, h3, h4, h5, h6, h7, h10, h8, h9⟩ := h
  refine ⟨?_, hs.1.trans h2, hlc.trans h3, ?_, ?_, ?_, ?_, ?_, wellAdjusted_append h8 (plain_not_cycle hM),
    wellScaled_append h9 (plain_not_cycle hM)⟩
  · rw [hl, h1, List.append_assoc]
  · rw [samplersAfter_plain hM, h4]
  · intro g s₀ hg
    obtain ⟨old, s, c, b1, b2, b3, b4, b5, b6⟩ := h5 g s₀ hg
    obtain ⟨s', b7, b8⟩ := hs.2 g s b2
    refine ⟨old, s', _, ?_, b7, hc g c b3, b4.trans b8, fun n => (b8.2.2 n).trans (b5 n), ?_⟩
    · rw [samplersAfter_plain hM, b1]
    · rw [ha]
      exact b6.extend hM
  · rw [hcs, ha]
    exact h6.extend hM
  · rw [hsc, h7, scalerAfter_plain hM]
  · intro ho
    have ho' : S.env.isBoxScalingEnabled = false := by
      rw [← ho]
      unfold Env.isBoxScalingEnabled
      rw [hsc]
    rw [hcs]
    simp only [Counter.add, counted]
    rw [h10 ho', hoff ho']

/-- Events which are counted nowhere. -/
def silent : Event → Bool
  | .clear => true
  | .thermo _ _ => true
  | .fixed _ => true
  | .snapshot _ _ => true
  | .recorded _ _ _ => true
  | .averaged _ => true
  | .info _ => true
  | _ => false

theorem silent_plain {e : Event} (h : silent e = true) : plain e = true := by
  cases e <;> first | rfl | cases h

theorem silent_counted {M : List Event} (h : ∀ e ∈ M, silent e = true) (c : Counter) :
    (∀ g, c.add (counted (isTried g) (isAccepted g) M) = c) ∧ c.add (counted isTriedScaling isAcceptedScaling M) = c := by
  have h0 : ∀ f : Event → Bool, (∀ e, silent e = true → f e = false) → M.countP f = 0 := by
    intro f hf
    rw [List.countP_eq_zero]
    intro e he h1
    rw [hf e (h e he)] at h1
    cases h1
  refine ⟨fun g => ?_, ?_⟩
  · unfold counted
    rw [h0 (isTried g) (by intro e he; cases e <;> first | rfl | cases he),
      h0 (isAccepted g) (by intro e he; cases e <;> first | rfl | cases he)]
    rfl
  · unfold counted
    rw [h0 isTriedScaling (by intro e he; cases e <;> first | rfl | cases he),
      h0 isAcceptedScaling (by intro e he; cases e <;> first | rfl | cases he)]
    rfl

theorem RunInv.silent {ss₀ : List Sampler} {sc₀ : ScalerStatus} {base L M : List Event} {S S' : Sim}
    (h : RunInv ss₀ sc₀ base L S) (hM : ∀ e ∈ M, silent e = true) (hl : S'.log = S.log ++ M)
    (hs : S'.env = S.env) (hc : S'.counters = S.counters) (hcs : S'.scalingCounter = S.scalingCounter)
    (ha : S'.shouldAdjust = S.shouldAdjust) : RunInv ss₀ sc₀ base (L ++ M) S' := by
  refine h.extend (fun e he => silent_plain (hM e he)) hl ?_ ?_ ?_ ?_ ?_ ha ?_
  · rw [hs]; exact .refl _
  · rw [hs]
  · intro g c hg
    rw [hc, hg, (silent_counted hM c).1]
  · rw [hc]
  · rw [hcs, (silent_counted hM _).2]
  · intro _
    rw [List.countP_eq_zero]
    intro e he h1
    have h2 := hM e he
    cases e <;> first | (cases h1; done) | (cases h2; done)

theorem isMove_plain {e : Event} (h : isMove e = true) : plain e = true := by
  cases e <;> first | rfl | cases h

theorem Swept.runInv {ss₀ : List Sampler} {sc₀ : ScalerStatus} {base L : List Event} {S S' : Sim}
    (h : RunInv ss₀ sc₀ base L S) (hs : Swept S S') : ∃ M, RunInv ss₀ sc₀ base (L ++ M) S' ∧ Moved S S' M := by
  obtain ⟨M, hm, hc⟩ := hs
  refine ⟨M, h.extend (fun e he => isMove_plain (hm.only e he)) hm.log hm.samplers hm.scaler ?_ ?_ ?_ hm.shouldAdjust ?_, hm⟩
  · intro g c hg
    have hlt := (List.getElem?_eq_some_iff.mp hg).1
    rw [hc, List.getElem?_zipWith, hg, countLog_get _ hlt]
    rfl
  · rw [hc, List.length_zipWith, countLog_length, min_self]
  · rw [hm.scalingCounter]
    have h0 : ∀ f : Event → Bool, (∀ e, isMove e = true → f e = false) → M.countP f = 0 := by
      intro f hf
      rw [List.countP_eq_zero]
      intro e he h1
      rw [hf e (hm.only e he)] at h1
      cases h1
    unfold counted
    rw [h0 isTriedScaling (by intro e he; cases e <;> first | rfl | cases he),
      h0 isAcceptedScaling (by intro e he; cases e <;> first | rfl | cases he)]
    rfl
  · intro _
    rw [List.countP_eq_zero]
    intro e he h1
    have h2 := hm.only e he
    cases e <;> first | (cases h1; done) | (cases h2; done)

theorem cycleScaling_runInv {ss₀ : List Sampler} {sc₀ : ScalerStatus} {base L : List Event} {S S' : Sim} {I : Interaction}
    (h : RunInv ss₀ sc₀ base L S) (hs : S.cycleScaling I = .ok S') :
    ∃ M, RunInv ss₀ sc₀ base (L ++ M) S' ∧ (M = [] ∨ ∃ b, M = scalingLog b S'.P) := by
  rcases cycleScaling_ok hs with ⟨-, rfl⟩ | ⟨hen, S₁, b, h1, rfl⟩
  · exact ⟨[], by rwa [List.append_nil], Or.inl rfl⟩
  · obtain ⟨t, s, box, t', P', -, -, -, -, rfl, -⟩ := tryScaling_ok h1
    refine ⟨scalingLog b P', ?_, Or.inr ⟨b, rfl⟩⟩
    refine h.extend ?_ rfl (.refl _) rfl ?_ rfl ?_ rfl (fun ho => by rw [hen] at ho; cases ho)
    · unfold scalingLog
      cases b <;> simp [plain]
    · intro g c hg
      have h0 : (scalingLog b P').countP (isTried g) = 0 ∧ (scalingLog b P').countP (isAccepted g) = 0 := by
        unfold scalingLog
        cases b <;> simp [isTried, isAccepted]
      unfold counted
      rw [h0.1, h0.2]
      exact hg
    · have h0 : (scalingLog b P').countP isTriedScaling = 1 ∧ (scalingLog b P').countP isAcceptedScaling = if b then 1 else 0 := by
        unfold scalingLog
        cases b <;> simp [List.countP_cons, isTriedScaling, isAcceptedScaling]
      unfold counted
      rw [h0.1, h0.2]
      cases b <;> rfl

theorem requested_length {s : Sampler} {n r : Nat} (h : s.requested n = .ok r) : groupLength s n = 100 * r := by
  cases s with
  | flip e a o z =>
    unfold Sampler.requested at h
    obtain ⟨_, -, h⟩ := Outcome.bind_eq_ok.mp h
    injection h with h
    subst h
    rfl
  | _ =>
    injection h with h
    subst h
    rfl

theorem increase_length {s s' : Sampler} {b : Bool} (h : s.increase = .ok (s', b)) (n : Nat) : groupLength s' n = groupLength s n := by
  rcases s with x | ⟨x, m, i⟩ | ⟨x, _ | y, m, i⟩ | ⟨e, a, o, z⟩
  · injection h with h; injection h with h; subst h; rfl
  · unfold Sampler.increase at h
    simp only at h
    split at h <;> (injection h with h; injection h with h; subst h; rfl)
  · cases h
  · unfold Sampler.increase at h
    simp only at h
    split at h <;> (injection h with h; injection h with h; subst h; rfl)
  · injection h with h; injection h with h; subst h; rfl

theorem decrease_length {s s' : Sampler} {b : Bool} (h : s.decrease = .ok (s', b)) (n : Nat) : groupLength s' n = groupLength s n := by
  rcases s with x | ⟨x, m, i⟩ | ⟨x, _ | y, m, i⟩ | ⟨e, a, o, z⟩
  · injection h with h; injection h with h; subst h; rfl
  · injection h with h; injection h with h; subst h; rfl
  · cases h
  · injection h with h; injection h with h; subst h; rfl
  · injection h with h; injection h with h; subst h; rfl

/-- The adjustment of step sizes is the one of the specification. -/
theorem adjustSampler_ok {s s' : Sampler} {c : Counter} {b b' : Bool} (h : adjustSampler s c.currentRate b = .ok (s', b')) :
    (∀ n, groupLength s' n = groupLength s n) ∧
    (if (c.acceptedSince : ℝ) / c.movesSince > 1 / 5 then ∃ b, s.increase = .ok (s', b)
      else if c.movesSince ≠ 0 ∧ (c.acceptedSince : ℝ) / c.movesSince < 1 / 10 then ∃ b, s.decrease = .ok (s', b)
      else s' = s) := by
  unfold adjustSampler Counter.currentRate at h
  by_cases h0 : c.movesSince = 0
  · rw [if_pos h0] at h
    injection h with h
    injection h with h1 h2
    subst h1
    refine ⟨fun _ => rfl, ?_⟩
    rw [h0, if_neg (by norm_num), if_neg (by simp)]
  · rw [if_neg h0] at h
    simp only at h
    have e5 : (2 : ℝ) / 10 = 1 / 5 := by norm_num
    rw [e5] at h
    by_cases h1 : (c.acceptedSince : ℝ) / c.movesSince > 1 / 5
    · rw [if_pos h1] at h ⊢
      obtain ⟨⟨s1, b1⟩, h2, h⟩ := Outcome.bind_eq_ok.mp h
      injection h with h
      injection h with h3 h4
      subst h3
      exact ⟨increase_length h2, b1, h2⟩
    · rw [if_neg h1] at h ⊢
      by_cases h2 : (c.acceptedSince : ℝ) / c.movesSince < 1 / 10
      · rw [if_pos h2] at h
        rw [if_pos ⟨h0, h2⟩]
        obtain ⟨⟨s1, b1⟩, h2, h⟩ := Outcome.bind_eq_ok.mp h
        injection h with h
        injection h with h3 h4
        subst h3
        exact ⟨decrease_length h2, b1, h2⟩
      · rw [if_neg h2] at h
        rw [if_neg (fun h => h2 h.2)]
        injection h with h
        injection h with h3 h4
        exact ⟨fun _ => by rw [h3], h3.symm⟩

/-- The window after the end of a cycle. -/
theorem Agrees.cycle {f k : Event → Bool} {len : Nat → Nat} {L : List Event} {a : Bool} {c : Counter}
    (h : Agrees f k len L a c) {n : Nat} {P : Packing} {ss : List Sampler} {sc : ScalerStatus}
    (hf : f (.cycle n P ss sc) = false) (hk : k (.cycle n P ss sc) = false) :
    Agrees f k len (L ++ [.cycle n P ss sc]) a (if a = true ∧ len P.size ≤ c.movesSince then c.resetCurrent else c) := by
  obtain ⟨h1, h2, h3, h4, h5⟩ := h
  have hw : window f k len (L ++ [.cycle n P ss sc]) = if a = true ∧ len P.size ≤ c.movesSince then
      { window f k len L with tried := 0, accepted := 0 } else window f k len L := by
    unfold window
    rw [List.foldl_append, List.foldl_cons, List.foldl_nil]
    change Window.step f k len (window f k len L) _ = _
    rw [← h3, h4]
    rfl
  have e1 : List.countP f (L ++ [.cycle n P ss sc]) = List.countP f L := by
    rw [List.countP_append, List.countP_singleton, hf]
    rfl
  have e2 : List.countP k (L ++ [.cycle n P ss sc]) = List.countP k L := by
    rw [List.countP_append, List.countP_singleton, hk]
    rfl
  by_cases hc : a = true ∧ len P.size ≤ c.movesSince
  · rw [if_pos hc] at hw ⊢
    exact ⟨e1 ▸ h1, e2 ▸ h2, by rw [hw]; exact h3, by rw [hw]; rfl, by rw [hw]; rfl⟩
  · rw [if_neg hc] at hw ⊢
    exact ⟨e1 ▸ h1, e2 ▸ h2, by rw [hw]; exact h3, by rw [hw]; exact h4, by rw [hw]; exact h5⟩

/-- The state at the end of a cycle. -/
def cycleEnd (S : Sim) : Sim :=
  { S with
    performed := S.performed + 1
    total := S.total + 1
    log := S.log ++ [.cycle (S.total + 1) S.P S.env.samplers S.env.scaler] }

theorem samplersAfter_cycle (start : List Sampler) (L : List Event) (n : Nat) (P : Packing) (ss : List Sampler)
    (sc : ScalerStatus) : samplersAfter start (L ++ [.cycle n P ss sc]) = ss := by
  unfold samplersAfter
  rw [List.foldl_append]
  rfl

theorem scalerAfter_cycle (start : ScalerStatus) (L : List Event) (n : Nat) (P : Packing) (ss : List Sampler)
    (sc : ScalerStatus) : scalerAfter start (L ++ [.cycle n P ss sc]) = sc := by
  unfold scalerAfter
  rw [List.foldl_append]
  rfl

/-- What happens to a group at the end of a cycle. -/
def GroupEnd (a : Bool) (n : Nat) (c : Counter) (s : Sampler) (c' : Counter) (s' : Sampler) : Prop :=
  if a then GroupDone n c s c' s' else c' = c ∧ s' = s

/-- What happens to the scaling counter and the scaler at the end of a cycle. -/
noncomputable def scalerEnd (a : Bool) (c : Counter) (sc : ScalerStatus) : Counter × ScalerStatus :=
  match a, sc with
  | true, .enabled s => ((scalerEvaluated c s).1, .enabled (scalerEvaluated c s).2)
  | _, sc => (c, sc)

/-- What `cycleAdjust` does. -/
theorem cycleAdjust_ok {S S' : Sim} (h : S.cycleAdjust = .ok S') :
    ∃ cs bs ss c sc, S' = { S.withGroups cs bs ss with scalingCounter := c, env := { S.env with samplers := ss, scaler := sc } } ∧
      cs.length = S.counters.length ∧ ss.length = S.env.samplers.length ∧
      (∀ (g : Nat) (c : Counter) (s : Sampler), S.counters[g]? = some c → S.env.samplers[g]? = some s →
        ∃ c' s', cs[g]? = some c' ∧ ss[g]? = some s' ∧ GroupEnd S.shouldAdjust S.P.size c s c' s') ∧
      (c, sc) = scalerEnd S.shouldAdjust S.scalingCounter S.env.scaler := by
  unfold cycleAdjust at h
  rcases Outcome.ite_eq_ok.mp h with ⟨h0, h⟩ | ⟨h0, h⟩
  · unfold evaluateCounters at h
    obtain ⟨S₁, h1, h⟩ := Outcome.bind_eq_ok.mp h
    obtain ⟨cs, bs, ss, rfl, h2, h3, h4⟩ := evaluateMoves_ok h1
    have hg : ∀ (g : Nat) (c : Counter) (s : Sampler), S.counters[g]? = some c → S.env.samplers[g]? = some s →
        ∃ c' s', cs[g]? = some c' ∧ ss[g]? = some s' ∧ GroupEnd S.shouldAdjust S.P.size c s c' s' := by
      intro g c s hc hs
      obtain ⟨c1, s1, c', s', b1, b2, b3, b4, b5⟩ := h4 g (List.getElem?_eq_some_iff.mp hs).1
      rw [hc] at b1
      rw [hs] at b2
      injection b1 with b1
      injection b2 with b2
      subst b1 b2
      refine ⟨c', s', b3, b4, ?_⟩
      unfold GroupEnd
      rw [if_pos h0]
      exact b5
    have e1 : (S.withGroups cs bs ss).env.scaler = S.env.scaler := rfl
    rcases Outcome.ite_eq_ok.mp h with ⟨h5, h⟩ | ⟨h5, h⟩
    · cases hsc : S.env.scaler with
      | enabled s =>
        have h6 := evaluateScaling_ok (e1.trans hsc) h
        subst h6
        refine ⟨cs, bs, ss, _, _, rfl, h2, h3, hg, ?_⟩
        rw [h0]
        rfl
      | _ =>
        unfold Env.isBoxScalingEnabled at h5
        rw [e1, hsc] at h5
        cases h5
    · injection h with h
      subst h
      refine ⟨cs, bs, ss, _, S.env.scaler, rfl, h2, h3, hg, ?_⟩
      cases hsc : S.env.scaler with
      | enabled s =>
        unfold Env.isBoxScalingEnabled at h5
        rw [e1, hsc] at h5
        exact absurd rfl h5
      | _ =>
        rw [h0]
        rfl
  · injection h with h
    subst h
    have h0' : S.shouldAdjust = false := by simpa using h0
    refine ⟨S.counters, S.cancelReported, S.env.samplers, S.scalingCounter, S.env.scaler, rfl, rfl, rfl, ?_, ?_⟩
    · intro g c s hc hs
      refine ⟨c, s, hc, hs, ?_⟩
      unfold GroupEnd
      rw [if_neg h0]
      exact ⟨rfl, rfl⟩
    · rw [h0']
      rfl

theorem groupEnd_adjusted {f k : Event → Bool} {len : Nat → Nat} {L : List Event} {a : Bool} {n : Nat} {c c' : Counter}
    {old s s' : Sampler} (h : Agrees f k len L a c) (hl : groupLength s n = len n) (hs : SameSampler old s)
    (hg : GroupEnd a n c s c' s') :
    c' = (if a = true ∧ len n ≤ c.movesSince then c.resetCurrent else c) ∧ (∀ m, groupLength s' m = groupLength s m) ∧
    Adjusted (window f k len L) (len n) old s' := by
  obtain ⟨h1, h2, h3, h4, h5⟩ := h
  unfold Adjusted Window.rate
  rw [h3, ← h4, ← h5]
  unfold GroupEnd at hg
  cases a with
  | false =>
    rw [if_neg (by simp)] at hg
    obtain ⟨rfl, rfl⟩ := hg
    rw [if_neg (by simp), if_neg (by simp), if_neg (by simp)]
    exact ⟨rfl, fun _ => rfl, hs.1⟩
  | true =>
    rw [if_pos rfl] at hg
    obtain ⟨r, h6, ⟨h7, rfl, rfl⟩ | ⟨h7, rfl, b, b', h8⟩⟩ := hg
    · rw [requested_length h6] at hl
      rw [if_neg (by omega), if_neg (by omega), if_neg (by omega)]
      exact ⟨rfl, fun _ => rfl, hs.1⟩
    · rw [requested_length h6] at hl
      rw [if_pos ⟨rfl, by omega⟩]
      obtain ⟨h9, h10⟩ := adjustSampler_ok h8
      refine ⟨rfl, h9, ?_⟩
      by_cases h11 : (c.acceptedSince : ℝ) / c.movesSince > 1 / 5
      · rw [if_pos h11] at h10
        rw [if_pos ⟨rfl, by omega, h11⟩]
        obtain ⟨b, h10⟩ := h10
        exact ⟨s, s', b, hs.1, h10, rfl⟩
      · rw [if_neg h11] at h10
        rw [if_neg (fun h => h11 h.2.2)]
        by_cases h12 : c.movesSince ≠ 0 ∧ (c.acceptedSince : ℝ) / c.movesSince < 1 / 10
        · rw [if_pos h12] at h10
          rw [if_pos ⟨rfl, by omega, by omega, h12.2⟩]
          obtain ⟨b, h10⟩ := h10
          exact ⟨s, s', b, hs.1, h10, rfl⟩
        · rw [if_neg h12] at h10
          rw [if_neg (fun h => h12 ⟨by omega, h.2.2.2⟩), h10]
          exact hs.1

theorem scalerEvaluated_adjusted {f k : Event → Bool} {L : List Event} {a : Bool} {c c' : Counter}
    {sc sc' : ScalerStatus} (h : Agrees f k (fun _ => 100) L a c)
    (hoff : (match sc with | .enabled _ => true | _ => false) = false → c.movesSince = 0)
    (hg : (c', sc') = scalerEnd a c sc) :
    c' = (if a = true ∧ 100 ≤ c.movesSince then c.resetCurrent else c) ∧
    AdjustedStatus (window f k (fun _ => 100) L) sc sc' := by
  obtain ⟨h1, h2, h3, h4, h5⟩ := h
  cases sc with
  | unset =>
    have : scalerEnd a c .unset = (c, .unset) := by cases a <;> rfl
    rw [this] at hg
    injection hg with hg1 hg2
    subst hg1 hg2
    rw [if_neg (by have := hoff rfl; omega)]
    exact ⟨rfl, trivial⟩
  | disabled =>
    have : scalerEnd a c .disabled = (c, .disabled) := by cases a <;> rfl
    rw [this] at hg
    injection hg with hg1 hg2
    subst hg1 hg2
    rw [if_neg (by have := hoff rfl; omega)]
    exact ⟨rfl, trivial⟩
  | enabled s =>
    cases a with
    | false =>
      injection hg with hg1 hg2
      subst hg1 hg2
      rw [if_neg (by simp)]
      refine ⟨rfl, ?_⟩
      unfold AdjustedStatus AdjustedScaler
      simp only
      rw [h3, if_neg (by simp), if_neg (by simp)]
      exact ⟨by trivial, by trivial⟩
    | true =>
      injection hg with hg1 hg2
      subst hg1 hg2
      unfold AdjustedStatus AdjustedScaler scalerEvaluated Window.rate
      simp only
      rw [h3, ← h4, ← h5]
      by_cases h6 : c.movesSince < 100
      · rw [if_pos h6, if_neg (by omega), if_neg (by omega), if_neg (by omega)]
        exact ⟨rfl, rfl, rfl⟩
      · rw [if_neg h6, if_pos ⟨by trivial, by omega⟩]
        refine ⟨rfl, ?_⟩
        simp only
        unfold adjustScaler Counter.currentRate
        rw [if_neg (by omega)]
        simp only
        have e5 : (2 : ℝ) / 10 = 1 / 5 := by norm_num
        rw [e5]
        by_cases h7 : (c.acceptedSince : ℝ) / c.movesSince > 1 / 5
        · rw [if_pos h7, if_pos ⟨trivial, by omega, h7⟩]
          exact ⟨by trivial, by trivial⟩
        · rw [if_neg h7, if_neg (show ¬ (True ∧ 100 ≤ c.movesSince ∧ (c.acceptedSince : ℝ) / c.movesSince > 1 / 5) from
            fun h => h7 h.2.2)]
          by_cases h8 : (c.acceptedSince : ℝ) / c.movesSince < 1 / 10
          · rw [if_pos h8, if_pos ⟨trivial, by omega, h8⟩]
            exact ⟨by trivial, by trivial⟩
          · rw [if_neg h8, if_neg (show ¬ (True ∧ 100 ≤ c.movesSince ∧ (c.acceptedSince : ℝ) / c.movesSince < 1 / 10) from
              fun h => h8 h.2.2)]
            exact ⟨by trivial, by trivial⟩

/-- The end of a cycle. -/
theorem cycleEnd_runInv {ss₀ : List Sampler} {sc₀ : ScalerStatus} {base L : List Event} {S S' : Sim}
    (h : RunInv ss₀ sc₀ base L S) (hs : S.cycleAdjust = .ok S') :
    RunInv ss₀ sc₀ base (L ++ [.cycle (S.total + 1) S.P S'.env.samplers S'.env.scaler]) S'.cycleEnd := by
  obtain ⟨h1, h2, h3, h4, h5, h6, h7, h10, h8, h9⟩ := h
  obtain ⟨cs, bs, ss, c, sc, rfl, b1, b2, b3, b4⟩ := cycleAdjust_ok hs
  obtain ⟨hE1, hE2⟩ := scalerEvaluated_adjusted h6 h10 b4
  have hG : ∀ (g : Nat) (s₀ : Sampler), ss₀[g]? = some s₀ → ∃ (old s' : Sampler) (c : Counter),
      (samplersAfter ss₀ L)[g]? = some old ∧ ss[g]? = some s' ∧
      cs[g]? = some (if S.shouldAdjust = true ∧ groupLength s₀ S.P.size ≤ c.movesSince then c.resetCurrent else c) ∧
      (∀ n, groupLength s' n = groupLength s₀ n) ∧
      Agrees (isTried g) (isAccepted g) (groupLength s₀) L S.shouldAdjust c ∧
      Adjusted (window (isTried g) (isAccepted g) (groupLength s₀) L) (groupLength s₀ S.P.size) old s' := by
    intro g s₀ hg
    obtain ⟨old, s, c, d1, d2, d3, d4, d5, d6⟩ := h5 g s₀ hg
    obtain ⟨c', s', d7, d8, d9⟩ := b3 g c s d3 d2
    obtain ⟨f1, f2, f3⟩ := groupEnd_adjusted d6 (d5 S.P.size) d4 d9
    exact ⟨old, s', c, d1, d8, f1 ▸ d7, fun n => (f2 n).trans (d5 n), d6, f3⟩
  refine ⟨?_, b2.trans h2, b1.trans h3, ?_, ?_, ?_, ?_, ?_, ?_, ?_⟩
  · change S.log ++ _ = _
    rw [h1, List.append_assoc]
    rfl
  · rw [samplersAfter_cycle]
    exact b2.trans h2
  · intro g s₀ hg
    obtain ⟨old, s', c, d1, d2, d3, d4, d5, d6⟩ := hG g s₀ hg
    refine ⟨s', s', _, ?_, d2, d3, .refl _, d4, d5.cycle rfl rfl⟩
    rw [samplersAfter_cycle]
    exact d2
  · have := h6.cycle (n := S.total + 1) (P := S.P) (ss := ss) (sc := sc) rfl rfl
    rw [← hE1] at this
    exact this
  · rw [scalerAfter_cycle]
    rfl
  · intro ho
    have ho' : S.env.isBoxScalingEnabled = false := by
      unfold Env.isBoxScalingEnabled at ho ⊢
      cases hq : S.env.scaler with
      | enabled s =>
        rw [hq] at hE2
        simp only [cycleEnd] at ho
        cases sc with
        | enabled _ => cases ho
        | _ => exact hE2.elim
      | _ => rfl
    have : c = S.scalingCounter := by rw [hE1, if_neg (by have := h10 ho'; omega)]
    change c.movesSince = 0
    rw [this, h10 ho']
  · intro L₁ n P ss' sc' L₂ he
    rcases split_concat he with ⟨rfl, he'⟩ | ⟨L₃, h11⟩
    · injection he' with he1 he2 he3 he4
      subst he1 he2 he3 he4
      refine ⟨b2.trans (h2.trans h4.symm), ?_⟩
      intro g s₀ old new hg ho hn
      obtain ⟨old', s', c, d1, d2, d3, d4, d5, d6⟩ := hG g s₀ hg
      rw [d1] at ho
      injection ho with ho
      have hn' : some s' = some new := d2.symm.trans hn
      injection hn' with hn'
      exact ho ▸ hn' ▸ d6
    · exact h8 L₁ n P ss' sc' L₃ h11
  · intro L₁ n P ss' sc' L₂ he
    rcases split_concat he with ⟨rfl, he'⟩ | ⟨L₃, h11⟩
    · injection he' with he1 he2 he3 he4
      subst he1 he2 he3 he4
      rw [← h7]
      exact hE2
    · exact h9 L₁ n P ss' sc' L₃ h11

end Sim

end Rampack
