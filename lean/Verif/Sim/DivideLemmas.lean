import Verif.Sim.DivideSpec
import Verif.Sim.CompleteLemmas
/-
Numbers of tried moves in sweeps, and reduction of the number of domains.
-/
namespace Rampack

open Spec Packing Sampler

theorem accumulations_last : ∀ {l : List Sampler} {m acc : Nat} {accs : List Nat} {last : Nat},
    moveTypeAccumulations m l acc = .ok accs → accs.getLast? = some last → last = acc + movesAsked m l
  | [], m, acc, accs, last, h, hl => by
    injection h with h
    subst h
    cases hl
  | s :: l, m, acc, accs, last, h, hl => by
    unfold moveTypeAccumulations at h
    obtain ⟨r, h1, h⟩ := Outcome.bind_eq_ok.mp h
    obtain ⟨rest, h2, h⟩ := Outcome.bind_eq_ok.mp h
    injection h with h
    subst h
    have hr : movesAsked m (s :: l) = r + movesAsked m l := by
      unfold movesAsked
      rw [List.map_cons, List.sum_cons]
      congr 1
      cases s with
      | flip e _ _ _ =>
        unfold requested at h1
        obtain ⟨_, -, h1⟩ := Outcome.bind_eq_ok.mp h1
        injection h1
      | _ => injection h1
    cases hrest : rest with
    | nil =>
      subst hrest
      cases l with
      | nil =>
        simp at hl
        rw [hr, ← hl]
        simp [movesAsked]
      | cons s2 l2 =>
        unfold moveTypeAccumulations at h2
        obtain ⟨r2, -, h2⟩ := Outcome.bind_eq_ok.mp h2
        obtain ⟨rest2, -, h2⟩ := Outcome.bind_eq_ok.mp h2
        cases h2
    | cons a as =>
      have : rest.getLast? = some last := by
        rw [hrest] at hl ⊢
        rw [List.getLast?_cons_cons] at hl
        exact hl
      rw [accumulations_last h2 this, hr]
      omega

namespace Sim

theorem asked_same {l l' : List Sampler} (h : SameSamplers l l') (m : Nat) : movesAsked m l' = movesAsked m l := by
  unfold movesAsked
  congr 1
  apply List.ext_getElem?
  intro i
  rw [List.getElem?_map, List.getElem?_map]
  cases hi : l[i]? with
  | none =>
    rw [List.getElem?_eq_none (by rw [h.1]; exact List.getElem?_eq_none_iff.mp hi)]
  | some s =>
    obtain ⟨s', h1, h2⟩ := h.2 i s hi
    rw [h1]
    have := h2.2.2 m
    unfold groupLength at this
    simp only [Option.map_some, Option.some.injEq]
    exact Nat.eq_of_mul_eq_mul_left (by norm_num) this

theorem tries_trans {k k' : Nat} {S S' S'' : Sim} (h : Tries k S S') (h' : Tries k' S' S'') : Tries (k + k') S S'' := by
  obtain ⟨e, h1, h2⟩ := h
  obtain ⟨e', h1', h2'⟩ := h'
  exact ⟨e ++ e', by rw [h1', h1, List.append_assoc], by rw [List.countP_append, h2, h2']⟩

theorem tryMove_tries {T : Traits} {idxs accs : List Nat} {tid : Nat} {domain : Option (Vec3 ℝ → Bool)} {S S' : Sim}
    {cs cs' : List Counter} (h : Sim.tryMove T idxs accs tid domain (S, cs) = .ok (S', cs')) : Tries 1 S S' := by
  obtain ⟨g, s, s', mv, t, k, P, dE, c, -, -, -, -, -, -, h7⟩ := tryMove_ok h
  rcases h7 with ⟨P', -, -, rfl, -⟩ | ⟨-, rfl, -⟩
  · exact ⟨[.tried g, .accepted g P'], by simp [acceptedState, triedState], rfl⟩
  · exact ⟨[.tried g], rfl, rfl⟩

theorem iterate_tries {T : Traits} {idxs accs : List Nat} {tid : Nat} {domain : Option (Vec3 ℝ → Bool)} : ∀ (n : Nat) {S S' : Sim}
    {cs cs' : List Counter}, iterate (Sim.tryMove T idxs accs tid domain) n (S, cs) = .ok (S', cs') → Tries n S S'
  | 0, S, S', cs, cs', h => by
    injection h with h
    injection h with h h'
    subst h
    exact ⟨[], by simp, rfl⟩
  | n + 1, S, S', cs, cs', h => by
    unfold iterate at h
    obtain ⟨⟨S1, cs1⟩, h1, h⟩ := Outcome.bind_eq_ok.mp h
    have := tries_trans (tryMove_tries h1) (iterate_tries n h)
    rwa [Nat.add_comm 1 n] at this

theorem sweep_tries {S S' : Sim} {T : Traits} (h : S.sweep T = .ok S') : Tries (movesAsked S.P.size S.env.samplers) S S' := by
  unfold Sim.sweep at h
  obtain ⟨samplers, h1, h⟩ := Outcome.bind_eq_ok.mp h
  obtain ⟨accs, h2, h⟩ := Outcome.bind_eq_ok.mp h
  obtain ⟨n, h3, h⟩ := Outcome.bind_eq_ok.mp h
  obtain ⟨⟨S1, cs⟩, h4, h⟩ := Outcome.bind_eq_ok.mp h
  injection h with h
  subst h
  obtain ⟨rfl, -⟩ := getMoveSamplers_ok h1
  have e := accumulations_last h2 (vback_ok h3)
  rw [Nat.zero_add] at e
  rw [← e]
  obtain ⟨evs, h5, h6⟩ := iterate_tries n h4
  exact ⟨evs, h5, h6⟩

/-- The steps over a list of domains. -/
theorem domainSteps_tries {T : Traits} {n : Nat} {D : Domain.Decomposition} (hD : ∀ c L, D.getParticlesInRegion c = .ok L → ∀ i ∈ L, i < n)
    {zeros : List Counter} : ∀ (l : List (Vec3 Nat × Nat)) {S S' : Sim} {cs cs' : List Counter}, Proper T n S →
    l.foldlM (domainStep T D zeros) (S, cs) = .ok (S', cs') →
    Tries (l.countP (fun c => occupied D c.1) * movesAsked (n / S.numDomains) S.env.samplers) S S'
  | [], S, S', cs, cs', hP, h => by
    injection h with h
    injection h with h h'
    subst h
    exact ⟨[], by simp, by simp⟩
  | c :: l, S, S', cs, cs', hP, h => by
    rw [List.foldlM_cons] at h
    obtain ⟨⟨S1, cs1⟩, h1, h⟩ := Outcome.bind_eq_ok.mp h
    unfold domainStep at h1
    obtain ⟨idxs, a1, h1⟩ := Outcome.bind_eq_ok.mp h1
    obtain ⟨active, a2, h1⟩ := Outcome.bind_eq_ok.mp h1
    rw [List.countP_cons]
    rcases Outcome.ite_eq_ok.mp h1 with ⟨a3, h1⟩ | ⟨a3, h1⟩
    · injection h1 with h1
      injection h1 with h1 h1'
      subst h1 h1'
      have : occupied D c.1 = false := by
        unfold occupied
        rw [a1]
        cases idxs with
        | nil => rfl
        | cons a as => simp at a3
      rw [this]
      simpa using domainSteps_tries hD l hP h
    · obtain ⟨⟨S2, priv⟩, a4, h1⟩ := Outcome.bind_eq_ok.mp h1
      simp only at h1
      obtain ⟨temp, a5, h1⟩ := Outcome.bind_eq_ok.mp h1
      injection h1 with h1
      injection h1 with h1 h1'
      subst h1 h1'
      have : occupied D c.1 = true := by
        unfold occupied
        rw [a1]
        cases idxs with
        | nil => simp at a3
        | cons a as => rfl
      rw [this]
      unfold domainMoves at a4
      obtain ⟨samplers, b1, a4⟩ := Outcome.bind_eq_ok.mp a4
      obtain ⟨accs, b2, a4⟩ := Outcome.bind_eq_ok.mp a4
      obtain ⟨m, b3, a4⟩ := Outcome.bind_eq_ok.mp a4
      obtain ⟨hs, -⟩ := getMoveSamplers_ok b1
      rw [hs] at b2
      simp only at b2 a4
      have e := accumulations_last b2 (vback_ok b3)
      rw [Nat.zero_add, hP.1.size] at e
      obtain ⟨evs, c1, -, -, -, c5, -⟩ := iterate_counting a4
      have hP2 : Proper T n S2 := ((proper_kept T n).iterate (Q := fun _ => True) (fun _ _ => trivial) (base := S.log) (st := (S, zeros)) (st' := (S2, priv))
        ⟨hP, [], by simp, by simp⟩ (hD _ _ a1) a4).1
      have key := tries_trans (iterate_tries m a4) (domainSteps_tries hD l hP2 h)
      rw [asked_same c1.samplers, e] at key
      simp only at c5
      rw [c5] at key
      have e2 : (List.countP (fun c => occupied D c.1) l + if true = true then 1 else 0) * movesAsked (n / S.numDomains) S.env.samplers =
          movesAsked (n / S.numDomains) S.env.samplers + List.countP (fun c => occupied D c.1) l * movesAsked (n / S.numDomains) S.env.samplers := by
        rw [if_pos rfl]; ring
      rw [e2]
      exact key

theorem domainLoop_tries {T : Traits} {n : Nat} {D : Domain.Decomposition} (hD : ∀ c L, D.getParticlesInRegion c = .ok L → ∀ i ∈ L, i < n)
    {S S' : Sim} (hP : Proper T n S) (h : Sim.domainLoop T D S = .ok S') :
    Tries ((loopCells S.divs).countP (occupied D) * movesAsked (n / S.numDomains) S.env.samplers) S S' ∧ S'.divs = S.divs ∧
      S'.numDomains = S.numDomains := by
  unfold Sim.domainLoop at h
  simp only at h
  obtain ⟨⟨S1, temp⟩, h1, h⟩ := Outcome.bind_eq_ok.mp h
  simp only at h
  obtain ⟨cs, h2, h⟩ := Outcome.bind_eq_ok.mp h
  injection h with h
  subst h
  have hc : Counting S (List.replicate S.counters.length .zero) (S1, temp) := by
    refine foldlM_ind (Inv := Counting S (List.replicate S.counters.length .zero)) _ ?_ _ _ (.refl _ _) h1
    rintro ⟨a, ca⟩ b ⟨a', ca'⟩ - h3 h4
    exact h3.trans (domainStep_counting (by have := h3.length; simpa using this) h4)
  obtain ⟨e, -, -, -, h5, h6, -⟩ := hc
  have := domainSteps_tries hD _ hP h1
  refine ⟨?_, h5, h6⟩
  have e2 : (loopCells S.divs).zipIdx.countP (fun c => occupied D c.1) = (loopCells S.divs).countP (occupied D) := by
    have : ∀ (l : List (Vec3 Nat)) (k : Nat), (l.zipIdx k).countP (fun c => occupied D c.1) = l.countP (occupied D) := by
      intro l
      induction l with
      | nil => intro k; rfl
      | cons a l ih => intro k; rw [List.zipIdx_cons, List.countP_cons, List.countP_cons, ih]
    exact this _ _
  rw [e2] at this
  exact this

theorem fits_narrow {b : Box} {I : Interaction} {divs grid : Vec3 Nat} {a : Fin 3} (hp : 0 < divs.get a) :
    Fits b I grid a (divs.get a) ↔ ¬ Domain.Narrow b I divs grid a := by
  unfold Fits Domain.Narrow
  constructor
  · rintro (h | h) ⟨h1, h2⟩
    · omega
    · linarith
  · intro h
    by_cases h1 : divs.get a = 1
    · exact .inl h1
    · right
      push Not at h
      have := h (by omega)
      linarith

/-- What an attempt of a sweep does. -/
theorem Live.attempt_fit {T : Traits} {n : Nat} {S : Sim} (h : Live T n S) :
    (∃ S', S.attempt T = .ok (.done S') ∧ S'.divs = S.divs ∧ S'.numDomains = S.numDomains ∧
      (∀ g, S.P.ng = some g → ∀ a, Fits S.P.box T.I g.getCellDivisions a (S.divs.get a)) ∧
      (S.numDomains = 1 → Tries (movesAsked n S.env.samplers) S S') ∧
      (S.numDomains ≠ 1 → ∃ g origin D, S.P.ng = some g ∧ Inside S.P.box origin ∧ Domain.decompose S.P T.I S.divs g.getCellDivisions origin = .ok (.ok D) ∧
        Tries ((loopCells S.divs).countP (occupied D) * movesAsked (n / S.numDomains) S.env.samplers) S S')) ∨
      ∃ (a : Fin 3) (t : Tape), S.mts[0]? = some t ∧ S.attempt T = .ok (.tooNarrow a { S with mts := S.mts.set 0 (t.drop 3) }) ∧
        S.numDomains ≠ 1 ∧ 2 ≤ S.divs.get a ∧ ∀ g, S.P.ng = some g → ¬ Fits S.P.box T.I g.getCellDivisions a (S.divs.get a) := by
  by_cases h1 : S.numDomains = 1
  · left
    obtain ⟨S', e, h2⟩ := h.sweep
    refine ⟨S', by unfold Sim.attempt; rw [if_pos h1, e]; rfl, ?_, ?_, ?_, ?_, fun hn => absurd h1 hn⟩
    · unfold Sim.sweep at e
      obtain ⟨samplers, -, e⟩ := Outcome.bind_eq_ok.mp e
      obtain ⟨accs, -, e⟩ := Outcome.bind_eq_ok.mp e
      obtain ⟨m, -, e⟩ := Outcome.bind_eq_ok.mp e
      obtain ⟨⟨S1, cs⟩, h4, e⟩ := Outcome.bind_eq_ok.mp e
      injection e with e
      subst e
      obtain ⟨_, -, -, -, c, -⟩ := iterate_counting h4
      exact c
    · unfold Sim.sweep at e
      obtain ⟨samplers, -, e⟩ := Outcome.bind_eq_ok.mp e
      obtain ⟨accs, -, e⟩ := Outcome.bind_eq_ok.mp e
      obtain ⟨m, -, e⟩ := Outcome.bind_eq_ok.mp e
      obtain ⟨⟨S1, cs⟩, h4, e⟩ := Outcome.bind_eq_ok.mp e
      injection e with e
      subst e
      obtain ⟨_, -, -, -, -, c, -⟩ := iterate_counting h4
      exact c
    · intro g _ a
      left
      have hp := h.product
      rw [h1] at hp
      have h4 : S.divs.z = 1 := Nat.dvd_one.mp ⟨S.divs.x * S.divs.y, by rw [hp]; ring⟩
      have h6 : S.divs.y = 1 := Nat.dvd_one.mp ⟨S.divs.x * S.divs.z, by rw [hp]; ring⟩
      have h5 : S.divs.x = 1 := Nat.dvd_one.mp ⟨S.divs.y * S.divs.z, by rw [hp]; ring⟩
      revert a
      rw [Domain.forall_axis]
      exact ⟨h5, h6, h4⟩
    · intro _
      have := sweep_tries e
      rwa [h.proper.1.size] at this
  · obtain ⟨hng, hen, hT, h63⟩ := h.narrow.resolve_left h1
    have hpos : 0 < S.mts.length := lt_of_lt_of_le h.domains h.engines
    have ht := List.getElem?_eq_getElem hpos
    have htm := List.getElem_mem hpos
    obtain ⟨hb, hin, hsz⟩ := Domain.reachable_box h.proper.1.reach
    obtain ⟨g, hg⟩ := Option.isSome_iff_exists.mp hng
    obtain ⟨g1, g2, -⟩ := Domain.own_grid h.proper.1.reach hg
    have hl := h.tape ht
    have htp := h.proper.1.tapes _ htm
    generalize S.mts[0] = t at ht hl htp htm
    have ho : Inside S.P.box (S.P.box.relToAbs ⟨t 0, t 1, t 2⟩) := by
      rw [Box.inside_iff hb, Box.absToRel_relToAbs hb]
      have h0 := htp 0
      have h1 := htp 1
      have h2 := htp 2
      exact ⟨⟨h0.1.le, h0.2⟩, ⟨h1.1.le, h1.2⟩, h2.1.le, h2.2⟩
    have key : S.attempt T = (Domain.decompose S.P T.I S.divs g.getCellDivisions (S.P.box.relToAbs ⟨t 0, t 1, t 2⟩) >>=
        afterDecompose T { S with mts := S.mts.set 0 (t.drop 3) }) := by
      unfold Sim.attempt
      rw [if_neg h1]
      unfold sweepDomains
      rw [vget_eq_ok.mpr ht, Outcome.ok_bind]
      simp only
      unfold Packing.gridDivisions
      rw [hg]
      simp only [Outcome.ok_bind]
    rcases Domain.decompose_total hb hT.1 ho h.divs_pos g1 g2 h63 hin hsz with ⟨a, e, hn, -⟩ | ⟨D, e, hn⟩
    · right
      refine ⟨a, t, ht, by rw [key, e]; rfl, h1, hn.1, fun g' hg' hf => ?_⟩
      rw [hg] at hg'
      injection hg' with hg'
      subst hg'
      exact (fits_narrow (h.divs_pos a)).mp hf hn
    · left
      obtain ⟨hmol, -⟩ := C21_molecules h.proper.1.reach hT ⟨h63 0, h63 1, h63 2⟩ e
      obtain ⟨S', e2, h3⟩ := hl.domainLoop (D := D) (by
        intro c c1 c2 c3
        obtain ⟨L, A, d1, d2, -, d4⟩ := hmol c c1 c2 c3
        refine ⟨L, A, d1, d2, fun i hi => ?_⟩
        have := Domain.region_lt e d1 i hi
        rwa [h.proper.1.size] at this)
      obtain ⟨k1, k2, k3⟩ := domainLoop_tries (n := n) (fun c L hc i hi => by
        have := Domain.region_lt e hc i hi
        rwa [h.proper.1.size] at this) hl.proper e2
      refine ⟨S', ?_, k2, k3, ?_, fun hn => absurd hn h1, fun _ => ⟨g, _, D, hg, ho, e, k1⟩⟩
      · rw [key, e, Outcome.ok_bind]
        unfold afterDecompose
        simp only
        rw [e2]
        rfl
      · intro g' hg' a
        rw [hg] at hg'
        injection hg' with hg'
        subst hg'
        exact (fits_narrow (h.divs_pos a)).mpr (hn a)

end Sim

end Rampack
