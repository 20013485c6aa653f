import Verif.Sim.IntegrateLemmas
import Verif.Domain.Props
/-
How to show that something holds throughout a run: it is enough to consider single moves, scalings, renormalisations and
updates of the thermodynamic parameters.
-/
namespace Rampack

open Spec Packing

/-- Molecules in regions have numbers of molecules. -/
theorem Domain.pushRegions_lt {n : Nat} : ∀ (l : List (Nat × Option Nat)) {regs regs' : List (List Nat)},
    (∀ p ∈ l, p.1 < n) → (∀ r ∈ regs, ∀ i ∈ r, i < n) → l.foldlM pushRegion regs = .ok regs' → ∀ r ∈ regs', ∀ i ∈ r, i < n
  | [], regs, regs', _, hr, h => by
    rw [List.foldlM_nil] at h
    injection h with h
    exact h ▸ hr
  | p :: l, regs, regs', hl, hr, h => by
    rw [List.foldlM_cons] at h
    obtain ⟨regs1, h1, h⟩ := Outcome.bind_eq_ok.mp h
    refine Domain.pushRegions_lt l (fun q hq => hl q (List.mem_cons_of_mem _ hq)) ?_ h
    unfold pushRegion at h1
    split at h1
    · injection h1 with h1
      exact h1 ▸ hr
    · next k hk =>
      obtain ⟨x, h2, h1⟩ := Outcome.bind_eq_ok.mp h1
      rw [vget_eq_ok] at h2
      unfold vset at h1
      split_ifs at h1
      injection h1 with h1
      subst h1
      intro r hrm i hi
      rcases List.mem_or_eq_of_mem_set hrm with h3 | rfl
      · exact hr r h3 i hi
      · rw [List.mem_append, List.mem_singleton] at hi
        rcases hi with hi | rfl
        · exact hr x (List.mem_of_getElem? h2) i hi
        · exact hl p List.mem_cons_self

theorem Domain.region_lt {P : Packing} {I : Interaction} {divs grid : Vec3 Nat} {origin : Vec3 ℝ} {D : Decomposition}
    (hD : decompose P I divs grid origin = .ok (.ok D)) {c : Vec3 Nat} {L : List Nat}
    (hL : D.getParticlesInRegion c = .ok L) : ∀ i ∈ L, i < P.size := by
  obtain ⟨-, hpop⟩ := decompose_made hD
  unfold Decomposition.populate at hpop
  simp only at hpop
  obtain ⟨idx, h1, hpop⟩ := Outcome.bind_eq_ok.mp hpop
  obtain ⟨regs, h2, hpop⟩ := Outcome.bind_eq_ok.mp hpop
  injection hpop with hpop
  unfold Decomposition.getParticlesInRegion at hL
  obtain ⟨k, -, hL⟩ := Outcome.bind_eq_ok.mp hL
  rw [vget_eq_ok] at hL
  have hL' := List.mem_of_getElem? hL
  rw [← hpop] at hL'
  refine pushRegions_lt idx ?_ ?_ h2 L hL'
  · intro p hp
    obtain ⟨k, hk, e⟩ := List.getElem_of_mem hp
    have hF := mapM_split h1
    have hk' : k < (List.range P.size).length := by rw [hF.length_eq]; exact hk
    have := (List.forall₂_iff_get.mp hF).2 k hk' hk
    simp only [List.get_eq_getElem, List.getElem_range] at this
    rw [e] at this
    obtain ⟨s, -, this⟩ := Outcome.bind_eq_ok.mp this
    obtain ⟨r, -, this⟩ := Outcome.bind_eq_ok.mp this
    injection this with this
    rw [← this]
    simpa using hk'
  · intro r hr
    rw [List.eq_of_mem_replicate hr]
    simp

namespace Sim

/-- The kind of a scaler with its status. -/
def scalerKind : ScalerStatus → Option ScalerKind
  | .enabled s => some s.kind
  | _ => none

/-- The same in what the motion of molecules depends on (besides the samplers and the step of scaling). -/
structure SameCore (S S' : Sim) : Prop where
  P : S'.P = S.P
  temperature : S'.temperature = S.temperature
  envT : S'.env.temperature = S.env.temperature
  envP : S'.env.pressure = S.env.pressure
  scaler : scalerKind S'.env.scaler = scalerKind S.env.scaler
  counted : S'.overlapsCounted = S.overlapsCounted
  mts : S'.mts = S.mts
  all : S'.all = S.all

/-- What has to be shown for a property to hold throughout a run with `n` molecules. -/
structure Kept (T : Traits) (n : Nat) (Inv : Sim → Prop) : Prop where
  size : ∀ {S}, Inv S → S.P.size = n ∧ ∀ i ∈ S.all, i < n
  core : ∀ {S S'}, Inv S → SameCore S S' → Inv S'
  tape : ∀ {S t}, Inv S → S.mts[0]? = some t → Inv { S with mts := S.mts.set 0 (t.drop 3) }
  move : ∀ {tid idxs accs domain S cs S' cs'}, Inv S → (∀ i ∈ idxs, i < n) →
    tryMove T idxs accs tid domain (S, cs) = .ok (S', cs') → Inv S'
  scaling : ∀ {S S' b}, Inv S → S.tryScaling T.I = .ok (S', b) → Inv S'
  thermo : ∀ {S S'}, Inv S → S.updateThermo = .ok S' → Inv S'
  fix : ∀ {S S'}, Inv S → S.fixRotationMatrices T.I = .ok S' → Inv S'

/-- The invariant and what was shown since the log was `base`. -/
def Logged (Inv : Sim → Prop) (Q : Packing → Prop) (base : List Event) (S : Sim) : Prop :=
  Inv S ∧ ∃ L, S.log = base ++ L ∧ ∀ e ∈ L, Shows Q e

theorem Logged.next {Inv : Sim → Prop} {Q : Packing → Prop} {base : List Event} {S S' : Sim} {M : List Event}
    (h : Logged Inv Q base S) (hi : Inv S') (hl : S'.log = S.log ++ M) (hM : ∀ e ∈ M, Shows Q e) : Logged Inv Q base S' := by
  obtain ⟨-, L, h1, h2⟩ := h
  refine ⟨hi, L ++ M, by rw [hl, h1, List.append_assoc], fun e he => ?_⟩
  rw [List.mem_append] at he
  exact he.elim (h2 e) (hM e)

theorem Logged.same {Inv : Sim → Prop} {Q : Packing → Prop} {base : List Event} {S S' : Sim}
    (h : Logged Inv Q base S) (hi : Inv S') (hl : S'.log = S.log) : Logged Inv Q base S' :=
  h.next (M := []) hi (by rw [hl, List.append_nil]) (by simp)

section

variable {T : Traits} {n : Nat} {Inv : Sim → Prop} {Q : Packing → Prop} {base : List Event}

theorem Kept.tryMove (hk : Kept T n Inv) (hQ : ∀ S, Inv S → Q S.P) {tid : Nat} {idxs accs : List Nat}
    {domain : Option (Vec3 ℝ → Bool)} {st st' : Sim × List Counter} (h : Logged Inv Q base st.1) (hi : ∀ i ∈ idxs, i < n)
    (hm : Sim.tryMove T idxs accs tid domain st = .ok st') : Logged Inv Q base st'.1 := by
  obtain ⟨S, cs⟩ := st
  obtain ⟨S', cs'⟩ := st'
  have hI := hk.move h.1 hi hm
  obtain ⟨g, s, s', mv, t, k, P, dE, c, -, -, -, -, -, -, h7⟩ := tryMove_ok hm
  rcases h7 with ⟨P', -, -, rfl, -⟩ | ⟨-, rfl, -⟩
  · refine h.next (M := [.tried g, .accepted g P']) hI (by simp [acceptedState, triedState]) ?_
    have := hQ _ hI
    intro e he
    simp only [List.mem_cons, List.not_mem_nil, or_false] at he
    rcases he with rfl | rfl
    · trivial
    · exact this
  · exact h.next (M := [.tried g]) hI (by simp [triedState]) (by simp [Shows])

theorem Kept.iterate (hk : Kept T n Inv) (hQ : ∀ S, Inv S → Q S.P) {tid : Nat} {idxs accs : List Nat}
    {domain : Option (Vec3 ℝ → Bool)} {k : Nat} {st st' : Sim × List Counter} (h : Logged Inv Q base st.1)
    (hi : ∀ i ∈ idxs, i < n) (hm : Rampack.iterate (Sim.tryMove T idxs accs tid domain) k st = .ok st') : Logged Inv Q base st'.1 :=
  iterate_ind (Inv := fun st => Logged Inv Q base st.1) (fun _ _ h1 h2 => hk.tryMove hQ h1 hi h2) k _ _ h hm

theorem Kept.sweep (hk : Kept T n Inv) (hQ : ∀ S, Inv S → Q S.P) {S S' : Sim} (h : Logged Inv Q base S)
    (hs : S.sweep T = .ok S') : Logged Inv Q base S' := by
  unfold Sim.sweep at hs
  obtain ⟨samplers, h1, hs⟩ := Outcome.bind_eq_ok.mp hs
  obtain ⟨accs, h2, hs⟩ := Outcome.bind_eq_ok.mp hs
  obtain ⟨m, h3, hs⟩ := Outcome.bind_eq_ok.mp hs
  obtain ⟨⟨S1, cs⟩, h4, hs⟩ := Outcome.bind_eq_ok.mp hs
  injection hs with hs
  subst hs
  have := hk.iterate hQ (st := (S, S.counters)) (st' := (S1, cs)) h (hk.size h.1).2 h4
  exact this.same (hk.core this.1 ⟨rfl, rfl, rfl, rfl, rfl, rfl, rfl, rfl⟩) rfl

theorem Kept.domainLoop (hk : Kept T n Inv) (hQ : ∀ S, Inv S → Q S.P) {D : Domain.Decomposition}
    (hD : ∀ c L, D.getParticlesInRegion c = .ok L → ∀ i ∈ L, i < n) {S S' : Sim} (h : Logged Inv Q base S)
    (hs : Sim.domainLoop T D S = .ok S') : Logged Inv Q base S' := by
  unfold Sim.domainLoop at hs
  simp only at hs
  obtain ⟨⟨S1, temp⟩, h1, hs⟩ := Outcome.bind_eq_ok.mp hs
  simp only at hs
  obtain ⟨cs, h2, hs⟩ := Outcome.bind_eq_ok.mp hs
  injection hs with hs
  subst hs
  have : Logged Inv Q base S1 := by
    refine foldlM_ind (Inv := fun (st : Sim × List Counter) => Logged Inv Q base st.1) _ ?_
      (S, List.replicate S.counters.length Counter.zero) (S1, temp) h h1
    intro st c st' _ hst hstep
    unfold domainStep at hstep
    obtain ⟨idxs, h3, hstep⟩ := Outcome.bind_eq_ok.mp hstep
    obtain ⟨active, h4, hstep⟩ := Outcome.bind_eq_ok.mp hstep
    rcases Outcome.ite_eq_ok.mp hstep with ⟨-, hstep⟩ | ⟨-, hstep⟩
    · injection hstep with hstep
      exact hstep ▸ hst
    · obtain ⟨⟨S2, priv⟩, h5, hstep⟩ := Outcome.bind_eq_ok.mp hstep
      simp only at hstep
      obtain ⟨temp', h6, hstep⟩ := Outcome.bind_eq_ok.mp hstep
      injection hstep with hstep
      subst hstep
      unfold domainMoves at h5
      obtain ⟨samplers, -, h5⟩ := Outcome.bind_eq_ok.mp h5
      obtain ⟨accs, -, h5⟩ := Outcome.bind_eq_ok.mp h5
      obtain ⟨m, -, h5⟩ := Outcome.bind_eq_ok.mp h5
      exact hk.iterate hQ (st := (st.1, List.replicate S.counters.length Counter.zero)) (st' := (S2, priv)) hst (hD _ _ h3) h5
  exact this.same (hk.core this.1 ⟨rfl, rfl, rfl, rfl, rfl, rfl, rfl, rfl⟩) rfl

theorem Kept.attempt (hk : Kept T n Inv) (hQ : ∀ S, Inv S → Q S.P) {S : Sim} {a : Attempt} (h : Logged Inv Q base S)
    (hs : S.attempt T = .ok a) : (∃ S', a = .done S' ∧ Logged Inv Q base S') ∨
      ∃ c S', a = .tooNarrow c S' ∧ Logged Inv Q base S' := by
  unfold Sim.attempt at hs
  rcases Outcome.ite_eq_ok.mp hs with ⟨-, hs⟩ | ⟨-, hs⟩
  · obtain ⟨S', h1, hs⟩ := Outcome.bind_eq_ok.mp hs
    injection hs with hs
    exact Or.inl ⟨S', hs.symm, hk.sweep hQ h h1⟩
  · unfold sweepDomains at hs
    obtain ⟨t, h1, hs⟩ := Outcome.bind_eq_ok.mp hs
    simp only at hs
    obtain ⟨grid, h2, hs⟩ := Outcome.bind_eq_ok.mp hs
    obtain ⟨r, h3, hs⟩ := Outcome.bind_eq_ok.mp hs
    rw [vget_eq_ok] at h1
    have hL : Logged Inv Q base { S with mts := S.mts.set 0 (t.drop 3) } := h.same (hk.tape h.1 h1) rfl
    unfold afterDecompose at hs
    cases r with
    | tooNarrow c =>
      injection hs with hs
      exact Or.inr ⟨c, _, hs.symm, hL⟩
    | ok D =>
      obtain ⟨S', h4, hs⟩ := Outcome.bind_eq_ok.mp hs
      injection hs with hs
      refine Or.inl ⟨S', hs.symm, hk.domainLoop hQ (fun c L hc i hi => ?_) hL h4⟩
      have := Domain.region_lt h3 hc i hi
      rwa [(hk.size hL.1).1] at this

theorem Kept.movesLoop (hk : Kept T n Inv) (hQ : ∀ S, Inv S → Q S.P) : ∀ (fuel : Nat) {S S' : Sim}, Logged Inv Q base S →
    Sim.movesLoop T fuel S = .ok S' → Logged Inv Q base S'
  | 0, _, _, _, h => by cases h
  | fuel + 1, S, S', hL, h => by
    unfold Sim.movesLoop at h
    obtain ⟨a, h1, h⟩ := Outcome.bind_eq_ok.mp h
    rcases hk.attempt hQ hL h1 with ⟨S1, rfl, h2⟩ | ⟨c, S1, rfl, h2⟩
    · injection h with h
      exact h ▸ h2
    · simp only at h
      obtain ⟨S2, h3, h⟩ := Outcome.bind_eq_ok.mp h
      refine Kept.movesLoop hk hQ fuel ?_ h
      unfold reduceDomains at h3
      obtain ⟨d, h4, h3⟩ := Outcome.bind_eq_ok.mp h3
      injection h3 with h3
      subst h3
      exact h2.same (hk.core h2.1 ⟨rfl, rfl, rfl, rfl, rfl, rfl, rfl, rfl⟩) rfl

theorem scalerEnd_kind (a : Bool) (c : Counter) (sc : ScalerStatus) : scalerKind (scalerEnd a c sc).2 = scalerKind sc := by
  unfold scalerEnd
  split
  · next s =>
    simp only [scalerKind]
    unfold scalerEvaluated adjustScaler Scaler.increase Scaler.decrease
    split_ifs
    · rfl
    · simp only
      split
      · rfl
      · split_ifs <;> rfl
  · rfl

theorem Kept.performCycle (hk : Kept T n Inv) (hQ : ∀ S, Inv S → Q S.P) {S S' : Sim} (h : Logged Inv Q base S)
    (hs : S.performCycle T = .ok S') : Logged Inv Q base S' := by
  obtain ⟨S₁, S₂, S₃, b1, b2, b3, rfl⟩ := performCycle_ok hs
  have h1 := hk.movesLoop hQ _ h b1
  have h2 : Logged Inv Q base S₂ := by
    rcases cycleScaling_ok b2 with ⟨-, rfl⟩ | ⟨-, S₄, b, c1, rfl⟩
    · exact h1
    · have hI := hk.scaling h1.1 c1
      obtain ⟨t, s, box, t', P', -, -, -, -, rfl, -⟩ := tryScaling_ok c1
      have h3 : Logged Inv Q base (S₁.scaledState (t'.drop 1) b P') := by
        refine h1.next (M := scalingLog b P') hI rfl ?_
        have := hQ _ hI
        intro e he
        unfold scalingLog at he
        rw [List.mem_cons] at he
        rcases he with rfl | he
        · trivial
        · split_ifs at he
          · rw [List.mem_singleton] at he
            subst he
            exact this
          · simp at he
      exact h3.same (hk.core h3.1 ⟨rfl, rfl, rfl, rfl, rfl, rfl, rfl, rfl⟩) rfl
  obtain ⟨cs, bs, ss, c, sc, rfl, -, -, -, h3⟩ := cycleAdjust_ok b3
  have hsc : scalerKind sc = scalerKind S₂.env.scaler := by
    rw [← scalerEnd_kind S₂.shouldAdjust S₂.scalingCounter S₂.env.scaler, ← h3]
  refine h2.next (M := [.cycle (S₂.total + 1) S₂.P ss sc]) (hk.core h2.1 ⟨rfl, rfl, rfl, rfl, hsc, rfl, rfl, rfl⟩) rfl ?_
  intro e he
  rw [List.mem_singleton] at he
  subst he
  exact hQ _ h2.1

theorem Kept.updateThermo (hk : Kept T n Inv) {S S' : Sim} (h : Logged Inv Q base S)
    (hs : S.updateThermo = .ok S') : Logged Inv Q base S' := by
  have hI := hk.thermo h.1 hs
  unfold Sim.updateThermo at hs
  obtain ⟨p, h1, hs⟩ := Outcome.bind_eq_ok.mp hs
  obtain ⟨t, h2, hs⟩ := Outcome.bind_eq_ok.mp hs
  obtain ⟨pr, h3, hs⟩ := Outcome.bind_eq_ok.mp hs
  injection hs with hs
  subst hs
  exact h.next (M := [.thermo t pr]) hI rfl (by simp [Shows])

theorem Kept.fixStep (hk : Kept T n Inv) (hQ : ∀ S, Inv S → Q S.P) {S S' : Sim} {p : RunParams} (h : Logged Inv Q base S)
    (hs : Sim.fixStep p T.I S = .ok S') : Logged Inv Q base S' := by
  unfold Sim.fixStep at hs
  obtain ⟨b, -, hs⟩ := Outcome.bind_eq_ok.mp hs
  rcases Outcome.ite_eq_ok.mp hs with ⟨-, hs⟩ | ⟨-, hs⟩
  · have hI := hk.fix h.1 hs
    unfold fixRotationMatrices at hs
    obtain ⟨⟨P, m⟩, h1, hs⟩ := Outcome.bind_eq_ok.mp hs
    injection hs with hs
    subst hs
    refine h.next (M := [.fixed P]) hI rfl ?_
    have := hQ _ hI
    intro e he
    rw [List.mem_singleton] at he
    subst he
    exact this
  · injection hs with hs
    exact hs ▸ h

theorem Kept.snapshotStep (hk : Kept T n Inv) (hQ : ∀ S, Inv S → Q S.P) {S S' : Sim} {p : RunParams} (h : Logged Inv Q base S)
    (hs : Sim.snapshotStep p S = .ok S') : Logged Inv Q base S' := by
  unfold Sim.snapshotStep at hs
  obtain ⟨b, -, hs⟩ := Outcome.bind_eq_ok.mp hs
  rcases Outcome.ite_eq_ok.mp hs with ⟨-, hs⟩ | ⟨-, hs⟩
  · injection hs with hs
    subst hs
    refine h.next (hk.core h.1 ⟨rfl, rfl, rfl, rfl, rfl, rfl, rfl, rfl⟩) rfl ?_
    have := hQ _ h.1
    intro e he
    rw [List.mem_cons, List.mem_map] at he
    rcases he with rfl | ⟨r, -, rfl⟩ <;> exact this
  · injection hs with hs
    exact hs ▸ h

theorem Kept.infoStep (hk : Kept T n Inv) {S S' : Sim} {p : RunParams} (h : Logged Inv Q base S)
    (hs : Sim.infoStep p S = .ok S') : Logged Inv Q base S' := by
  unfold Sim.infoStep at hs
  obtain ⟨b, -, hs⟩ := Outcome.bind_eq_ok.mp hs
  rcases Outcome.ite_eq_ok.mp hs with ⟨-, hs⟩ | ⟨-, hs⟩
  · injection hs with hs
    subst hs
    exact h.next (M := [.info S.total]) (hk.core h.1 ⟨rfl, rfl, rfl, rfl, rfl, rfl, rfl, rfl⟩) rfl (by simp [Shows])
  · injection hs with hs
    exact hs ▸ h

theorem Kept.averagingStep (hk : Kept T n Inv) (hQ : ∀ S, Inv S → Q S.P) {S S' : Sim} {every : Nat} (h : Logged Inv Q base S)
    (hs : Sim.averagingStep every S = .ok S') : Logged Inv Q base S' := by
  unfold Sim.averagingStep at hs
  obtain ⟨b, -, hs⟩ := Outcome.bind_eq_ok.mp hs
  rcases Outcome.ite_eq_ok.mp hs with ⟨-, hs⟩ | ⟨-, hs⟩
  · injection hs with hs
    subst hs
    refine h.next (M := [.averaged S.P]) (hk.core h.1 ⟨rfl, rfl, rfl, rfl, rfl, rfl, rfl, rfl⟩) rfl ?_
    have := hQ _ h.1
    intro e he
    rw [List.mem_singleton] at he
    subst he
    exact this
  · injection hs with hs
    exact hs ▸ h

theorem Kept.thermalisationCycle (hk : Kept T n Inv) (hQ : ∀ S, Inv S → Q S.P) {S S' : Sim} {p : RunParams}
    (h : Logged Inv Q base S) (hs : Sim.thermalisationCycle p T S = .ok S') : Logged Inv Q base S' := by
  unfold Sim.thermalisationCycle at hs
  obtain ⟨S₁, h1, hs⟩ := Outcome.bind_eq_ok.mp hs
  obtain ⟨S₂, h2, hs⟩ := Outcome.bind_eq_ok.mp hs
  obtain ⟨S₃, h3, hs⟩ := Outcome.bind_eq_ok.mp hs
  obtain ⟨S₄, h4, hs⟩ := Outcome.bind_eq_ok.mp hs
  exact hk.infoStep (hk.snapshotStep hQ (hk.fixStep hQ (hk.updateThermo (hk.performCycle hQ h h1) h2) h3) h4) hs

theorem Kept.averagingCycle (hk : Kept T n Inv) (hQ : ∀ S, Inv S → Q S.P) {S S' : Sim} {p : RunParams} {every : Nat}
    (h : Logged Inv Q base S) (hs : Sim.averagingCycle p every T S = .ok S') : Logged Inv Q base S' := by
  unfold Sim.averagingCycle at hs
  obtain ⟨S₁, h1, hs⟩ := Outcome.bind_eq_ok.mp hs
  obtain ⟨S₂, h2, hs⟩ := Outcome.bind_eq_ok.mp hs
  obtain ⟨S₃, h3, hs⟩ := Outcome.bind_eq_ok.mp hs
  obtain ⟨S₄, h4, hs⟩ := Outcome.bind_eq_ok.mp hs
  exact hk.infoStep (hk.averagingStep hQ (hk.snapshotStep hQ (hk.fixStep hQ (hk.performCycle hQ h h1) h2) h3) h4) hs

theorem Kept.cycleLoop (hk : Kept T n Inv) {f : Sim → Outcome Sim} {stop : Nat → Bool}
    (hf : ∀ {S S'}, Logged Inv Q base S → f S = .ok S' → Logged Inv Q base S') :
    ∀ (m : Nat) {S S' : Sim}, Logged Inv Q base S → Sim.cycleLoop f stop m S = .ok S' → Logged Inv Q base S'
  | 0, S, S', h, hs => by
    injection hs with hs
    exact hs ▸ h
  | m + 1, S, S', h, hs => by
    unfold Sim.cycleLoop at hs
    obtain ⟨S₁, h1, hs⟩ := Outcome.bind_eq_ok.mp hs
    have h2 := hf h h1
    rcases Outcome.ite_eq_ok.mp hs with ⟨-, hs⟩ | ⟨-, hs⟩
    · injection hs with hs
      subst hs
      exact h2.same (hk.core h2.1 ⟨rfl, rfl, rfl, rfl, rfl, rfl, rfl, rfl⟩) rfl
    · exact Kept.cycleLoop hk hf m h2 hs

/-- Throughout `integrate`. -/
theorem Kept.integrate (hk : Kept T n Inv) (hQ : ∀ S, Inv S → Q S.P) {S S' : Sim} {env : Env} {p : IntegrationParams}
    {stop : Nat → Bool} (h : S.integrate env p T stop = .ok S')
    (h0 : ∀ S₁ S₂, S.start env T = .ok S₁ →
      S₁.prepare T p.cycleOffset (p.cycleOffset + p.thermalisationCycles + p.averagingCycles) false = .ok S₂ →
      S₂.P.countTotalOverlaps T.I true = .ok 0 → Inv S₂) :
    Inv S' ∧ ∃ L, S'.log = S.log ++ .clear :: L ∧ ∀ e ∈ L, Shows Q e := by
  unfold Sim.integrate at h
  obtain ⟨_, -, ha⟩ := Outcome.bind_eq_ok.mp h
  obtain ⟨S₁, h1, hb⟩ := Outcome.bind_eq_ok.mp ha
  obtain ⟨S₂, h2, hc⟩ := Outcome.bind_eq_ok.mp hb
  obtain ⟨m, h3, hd⟩ := Outcome.bind_eq_ok.mp hc
  obtain ⟨_, h4, he⟩ := Outcome.bind_eq_ok.mp hd
  obtain ⟨S₃, h5, hf⟩ := Outcome.bind_eq_ok.mp he
  clear h ha hb hc hd he
  rw [Outcome.require_eq_ok, decide_eq_true_eq] at h4
  subst h4
  have hI := h0 S₁ S₂ h1 h2 h3
  obtain ⟨ss₀, -, -, e1⟩ := start_ok h1
  obtain ⟨t, pr, P, P₁, -, -, e2⟩ := prepare_ok h2
  have hlog : S₂.log = (S.log ++ [.clear]) ++ [.thermo t pr] := by rw [e2, e1]
  have hL : Logged Inv Q (S.log ++ [.clear]) S₂ := ⟨hI, [.thermo t pr], hlog, by simp [Shows]⟩
  have hT : Logged Inv Q (S.log ++ [.clear]) S₃ := by
    unfold thermalisationPhase at h5
    refine hk.cycleLoop (fun h1 h2 => hk.thermalisationCycle hQ h1 h2) _ ?_ h5
    exact hL.next (M := [.thermalisation]) (hk.core hL.1 ⟨rfl, rfl, rfl, rfl, rfl, rfl, rfl, rfl⟩) rfl (by simp [Shows])
  have hE : Logged Inv Q (S.log ++ [.clear]) S' := by
    rcases Outcome.ite_eq_ok.mp hf with ⟨-, hf⟩ | ⟨-, hf⟩
    · injection hf with hf
      exact hf ▸ hT
    · unfold averagingPhase at hf
      refine hk.cycleLoop (fun h1 h2 => hk.averagingCycle hQ h1 h2) _ ?_ hf
      exact hT.next (M := [.averaging]) (hk.core hT.1 ⟨rfl, rfl, rfl, rfl, rfl, rfl, rfl, rfl⟩) rfl (by simp [Shows])
  obtain ⟨h6, L, h7, h8⟩ := hE
  exact ⟨h6, L, by rw [h7]; simp, h8⟩

theorem Kept.relaxLoop (hk : Kept T n Inv) (hQ : ∀ S, Inv S → Q S.P) {p : RunParams} {stop : Nat → Bool} :
    ∀ (m : Nat) {S S' : Sim}, Logged Inv Q base S → Sim.relaxLoop p T stop m S = .ok S' → Logged Inv Q base S'
  | 0, _, _, _, h => by cases h
  | m + 1, S, S', hL, h => by
    unfold Sim.relaxLoop at h
    obtain ⟨k, -, h⟩ := Outcome.bind_eq_ok.mp h
    rcases Outcome.ite_eq_ok.mp h with ⟨-, h⟩ | ⟨-, h⟩
    · obtain ⟨S₁, h1, h⟩ := Outcome.bind_eq_ok.mp h
      have h2 := hk.thermalisationCycle hQ hL h1
      rcases Outcome.ite_eq_ok.mp h with ⟨-, h⟩ | ⟨-, h⟩
      · injection h with h
        subst h
        exact h2.same (hk.core h2.1 ⟨rfl, rfl, rfl, rfl, rfl, rfl, rfl, rfl⟩) rfl
      · exact Kept.relaxLoop hk hQ m h2 h
    · injection h with h
      exact h ▸ hL

/-- Throughout `relaxOverlaps`. -/
theorem Kept.relaxOverlaps (hk : Kept T n Inv) (hQ : ∀ S, Inv S → Q S.P) {S S' : Sim} {env : Env} {p : RunParams}
    {stop : Nat → Bool} {fuel : Nat} (h : S.relaxOverlaps env p T stop fuel = .ok S')
    (h0 : ∀ S₁ S₂, S.start env T = .ok S₁ → S₁.prepare T p.cycleOffset sizeMax true = .ok S₂ → Inv S₂) :
    Inv S' ∧ ∃ L, S'.log = S.log ++ .clear :: L ∧ ∀ e ∈ L, Shows Q e := by
  unfold Sim.relaxOverlaps at h
  obtain ⟨_, -, ha⟩ := Outcome.bind_eq_ok.mp h
  obtain ⟨S₁, h1, hb⟩ := Outcome.bind_eq_ok.mp ha
  obtain ⟨S₂, h2, hc⟩ := Outcome.bind_eq_ok.mp hb
  clear h ha hb
  have hI := h0 S₁ S₂ h1 h2
  obtain ⟨ss₀, -, -, e1⟩ := start_ok h1
  obtain ⟨t, pr, P, P₁, -, -, e2⟩ := prepare_ok h2
  have hlog : S₂.log = (S.log ++ [.clear]) ++ [.thermo t pr] := by rw [e2, e1]
  have hL : Logged Inv Q (S.log ++ [.clear]) S₂ := ⟨hI, [.thermo t pr], hlog, by simp [Shows]⟩
  have hE : Logged Inv Q (S.log ++ [.clear]) S' := by
    refine hk.relaxLoop hQ _ ?_ hc
    exact hL.next (M := [.thermalisation]) (hk.core hL.1 ⟨rfl, rfl, rfl, rfl, rfl, rfl, rfl, rfl⟩) rfl (by simp [Shows])
  obtain ⟨h6, L, h7, h8⟩ := hE
  exact ⟨h6, L, by rw [h7]; simp, h8⟩

end

end Sim

end Rampack
