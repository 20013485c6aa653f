import Verif.Sim.ParLemmas
/-
Lemmas: single steps of threads.
-/
namespace Rampack.Par

open Spec Packing

variable {T : Traits} {n : Nat} {S0 : Sim} {ds : List Dom}

/-- A sampler of the current state and the original one. -/
theorem Good.sampler {S : Sim} (h : Good T n S0 ds S) {g : Nat} {s0 : Sampler} (hg : S0.env.samplers[g]? = some s0) :
    ∃ s, S.env.samplers[g]? = some s ∧ s.adjusted S0.P.box = s0.adjusted S0.P.box ∧
      ∀ idxs t, s.sampleMove S.P idxs t = s0.sampleMove S.P idxs t := by
  rcases h.samplers g s0 hg with h1 | h1
  · exact ⟨s0, h1, rfl, fun _ _ => rfl⟩
  · refine ⟨_, h1, Sampler.adjusted_again _ _, fun idxs t => ?_⟩
    rw [← h.frame.box]
    exact Sampler.adjusted_sampleMove _ _ _ _

theorem Good.groups (C : Ctx T n S0 ds) {S : Sim} (h : Good T n S0 ds S) : S.env.samplers ≠ [] := by
  intro e
  have := h.slen
  rw [e] at this
  exact C.live.groups (List.length_eq_zero_iff.mp this.symm)

theorem Good.temperature {S : Sim} (h : Good T n S0 ds S) : S.temperature = S0.temperature := by rw [h.fixed]

/-- The verdict on a trial move. -/
noncomputable def verdict (S0 : Sim) (dE : EnergyChange) (u : ℝ) : Bool := (Sim.boltzmann dE S0.temperature).geNum u

/-- The state and the thread after a trial. -/
theorem trial_eq (C : Ctx T n S0 ds) {S : Sim} (h : Good T n S0 ds S) {w : Worker} (hd : w.dom ∈ ds) (hw : WOk S0 w)
    {last x k : Nat} {t : Tape} {s0 s' : Sampler} {mv : MoveData} {P1 : Packing} {dE : EnergyChange} (hlast : w.dom.accs.getLast? = some last)
    (ht : S.mts[w.dom.tid]? = some t) (hx : uniformInt last t = .ok (x, t.drop 1))
    (hs : S0.env.samplers[moveTypeFor w.dom.accs x]? = some s0)
    (hm : s0.sampleMove S.P w.dom.idxs (t.drop 1) = .ok (mv, s', t.drop k))
    (hP : S.P.tryKind T.I w.dom.tid mv.idx mv.kind (some w.dom.active.isInside) = .ok (P1, dE)) :
    trial T S w = .ok (S.triedState (moveTypeFor w.dom.accs x) (s0.adjusted S0.P.box) w.dom.tid (t.drop (k + 1)) P1,
      { w with pending := some (moveTypeFor w.dom.accs x, verdict S0 dE (t k)) }) := by
  obtain ⟨s, e1, e2, e3⟩ := h.sampler hs
  have hs' : s' = s0.adjusted S0.P.box := by rw [Sampler.sampleMove_adjusted hm, h.frame.box]
  unfold trial
  rw [Sim.getMoveSamplers_total (h.groups C), Outcome.ok_bind, decide_eq_true (hw.counters.trans h.slen.symm),
    decide_eq_true ((C.len _ hd).trans h.slen.symm)]
  show (vback w.dom.accs >>= _) = _
  rw [Sim.vback_total hlast, Outcome.ok_bind, vget_eq_ok.mpr ht, Outcome.ok_bind, hx, Outcome.ok_bind]
  simp only
  rw [vget_eq_ok.mpr e1, Outcome.ok_bind, e3, hm, Outcome.ok_bind]
  simp only
  rw [hP, Outcome.ok_bind]
  simp only [verdict, ← h.temperature, hs', Tape.drop_drop]
  simp only [Tape.drop, Nat.add_zero]
  rfl

/-- A trial in two states in which the thread sees the same. -/
theorem trial_two (C : Ctx T n S0 ds) {S S2 : Sim} (h : Good T n S0 ds S) (h2 : Good T n S0 ds S2) {w : Worker} (hd : w.dom ∈ ds)
    (hw : WOk S0 w) (hidle : w.pending = none) (hmore : 0 < w.left) (ha : Agree T S S2 w) :
    ∃ S' S2' g v s0, trial T S w = .ok (S', { w with pending := some (g, v) }) ∧ trial T S2 w = .ok (S2', { w with pending := some (g, v) }) ∧
      Good T n S0 ds S' ∧ Good T n S0 ds S2' ∧ Effect T S S' ds w.dom ∧ Effect T S2 S2' ds w.dom ∧
      Agree T S' S2' { w with pending := some (g, v) } ∧ S0.env.samplers[g]? = some s0 ∧
      S'.env.samplers = S.env.samplers.set g (s0.adjusted S0.P.box) ∧ S2'.env.samplers = S2.env.samplers.set g (s0.adjusted S0.P.box) := by
  obtain ⟨hP0, hI⟩ := C.live.proper.1.inv
  obtain ⟨last, hlast, hgroup⟩ := C.last _ hd
  have hlast0 : 0 < last := lt_of_lt_of_le hmore (hw.left last hlast)
  have heng : w.dom.tid < S.mts.length := by rw [h.mlen]; exact C.engine _ hd
  have ht := List.getElem?_eq_getElem heng
  have hmem := List.getElem_mem heng
  generalize S.mts[w.dom.tid] = t at ht hmem
  have hpos := h.positive t hmem
  have hfair := h.fair t hmem
  have ht2 : S2.mts[w.dom.tid]? = some t := ha.tape.trans ht
  obtain ⟨x, hx, hxl⟩ := Sampler.uniformInt_total hlast0 t hpos
  have hg := hgroup x hxl
  have hs0 := List.getElem?_eq_getElem hg
  have hus := C.live.usable _ (List.getElem_mem hg)
  generalize S0.env.samplers[moveTypeFor w.dom.accs x] = s0 at hs0 hus
  have hbox : S.P.box = S0.P.box := h.frame.box
  have hbox2 : S2.P.box = S0.P.box := h2.frame.box
  have hsz := h.size C
  have hsz2 := h2.size C
  have hor : ProperlyOriented S.P := by
    intro sh hsh
    obtain ⟨i, hi⟩ := List.mem_iff_getElem?.mp hsh
    obtain ⟨hi1, hi2⟩ := mem_mols hi
    rw [← hi2]; exact h.rot i (by rw [← hsz]; exact hi1)
  obtain ⟨mv, s', t', hm⟩ := Sampler.sampleMove_total hus (C.some_idx _ hd) (by rw [hsz]; exact C.small _ hd) hor
    (by unfold Packing.size; omega) (hpos.drop 1) (Rampack.Fair.drop hfair 1)
  obtain ⟨hidx, -, -, k, hk⟩ := Sampler.sampleMove_ok hm
  rw [Tape.drop_drop] at hk
  subst hk
  have hm2 : s0.sampleMove S2.P w.dom.idxs (t.drop 1) = .ok (mv, s', t.drop (1 + k)) := by
    rw [Sampler.sampleMove_congr (P := S.P) (hbox2.trans hbox.symm) _ _ _, hm]
    intro i hi
    rw [shape_some (by rw [hsz2]; exact C.small _ hd i hi), shape_some (by rw [hsz]; exact C.small _ hd i hi), ha.shapes i hi]
  have hidxn : mv.idx < n := C.small _ hd _ hidx
  have hthr : ∀ S, Good T n S0 ds S → w.dom.tid < S.P.moveThreads := by
    intro S h
    rw [h.frame.moveThreads]
    exact lt_of_lt_of_le (C.engine _ hd) C.live.proper.1.threads
  have hsh := ha.shapes _ hidx
  generalize hnew : mv.kind.apply S.P.box (S.P.shapeFn mv.idx) = new
  have hnew2 : mv.kind.apply S2.P.box (S2.P.shapeFn mv.idx) = new := by rw [hsh, hbox2, ← hbox, hnew]
  have hnin : Inside S0.P.box new.pos := by
    rw [← hnew, ← hbox]
    exact Kind.apply_inside h.pinv.q.core.box (h.pinv.q.core.shapeFn (by rw [hsz]; exact hidxn)).2 _
  have hnrot : IsRotation new.rot := by rw [← hnew]; exact Sampler.sampleMove_proper hm (h.rot _ hidxn)
  obtain ⟨P1, dE, e1, sm1, hP1, hu1, c1⟩ := trial_full h.pinv hI (k := mv.kind) (domain := some w.dom.active.isInside) (hthr S h)
    (i := mv.idx) (by rw [hsz]; exact hidxn)
  obtain ⟨Q1, dE2, f1, sm2, hQ1, hu2, c2⟩ := trial_full h2.pinv hI (k := mv.kind) (domain := some w.dom.active.isInside) (hthr S2 h2)
    (i := mv.idx) (by rw [hsz2]; exact hidxn)
  rw [hnew] at c1
  rw [hnew2] at c2
  -- the active region
  have hact : InDomain mv.kind (some w.dom.active.isInside) new.pos → w.dom.active.isInside new.pos = true := by
    intro hin
    cases hk : mv.kind with
    | translation v => rw [hk] at hin; exact hin _ rfl
    | move v R => rw [hk] at hin; exact hin _ rfl
    | rotation R =>
      rw [hk] at hnew
      rw [← hnew]
      exact h.active _ hd _ hidx
  -- energies
  have hEE : dE2 = dE := by
    rcases c1 with ⟨a1, a2⟩ | ⟨a1, K0, K1, a2, -, -, -, a3, a4⟩ <;> rcases c2 with ⟨b1, b2⟩ | ⟨b1, L0, L1, b2, -, -, -, b3, b4⟩
    · rw [a2, b2]
    · exact absurd b1 a1
    · exact absurd a1 b1
    · have hold := h.active _ hd _ hidx
      have s1 := single_same C h h2 hd ha.shapes hnin (hact a1) hnrot mv.idx
      have s2 := single_same C h h2 hd ha.shapes (h.inside C hidxn) hold (h.rot _ hidxn) mv.idx
      have hwall : S2.P.hasWall = S.P.hasWall := h2.frame.hasWall.trans h.frame.hasWall.symm
      rw [hsh, s2.1, hbox2, ← hbox, hwall, ← a3] at b3
      rw [s1.1, hbox2, ← hbox, hwall, ← a4] at b4
      have k0 : L0 = K0 := by exact_mod_cast b3
      have k1 : L1 = K1 := by exact_mod_cast b4
      rw [a2, b2, k0, k1, h2.frame.overlapCounting, h.frame.overlapCounting, hsh]
      unfold soft
      rw [s1.2, s2.2]
  subst hEE
  have g1 := h.tried C hd (k := 1 + k + 1) sm1 hP1 (g := moveTypeFor w.dom.accs x) (h.sampler hs0).choose_spec.1 ht
  have g2 := h2.tried C hd (k := 1 + k + 1) sm2 hQ1 (g := moveTypeFor w.dom.accs x) (h2.sampler hs0).choose_spec.1 ht2
  rw [(h.sampler hs0).choose_spec.2.1] at g1
  rw [(h2.sampler hs0).choose_spec.2.1] at g2
  have hsf1 : ∀ i < n, P1.shapeFn i = S.P.shapeFn i := fun i hi => sm1.shapeFn (by rw [hsz]; exact hi)
  have hsf2 : ∀ i < n, Q1.shapeFn i = S2.P.shapeFn i := fun i hi => sm2.shapeFn (by rw [hsz2]; exact hi)
  refine ⟨_, _, _, _, s0, trial_eq C h hd hw hlast ht hx hs0 hm e1, trial_eq C h2 hd hw hlast ht2 hx hs0 hm2 f1, g1, g2, ?_, ?_, ?_, hs0, rfl, rfl⟩
  · refine ⟨fun i hi _ => hsf1 i (by rw [← hsz]; exact hi), fun k' hk' => ?_, fun d' hd' hne i tt hp => ?_⟩
    · show (S.mts.set _ _)[k']? = _
      rw [List.getElem?_set, if_neg (Ne.symm hk')]
    · exact hp.keep C h g1 hd' (fun j hj => hsf1 j (C.small _ hd' j hj)) (hu1 _ hne)
  · refine ⟨fun i hi _ => hsf2 i (by rw [← hsz2]; exact hi), fun k' hk' => ?_, fun d' hd' hne i tt hp => ?_⟩
    · show (S2.mts.set _ _)[k']? = _
      rw [List.getElem?_set, if_neg (Ne.symm hk')]
    · exact hp.keep C h2 g2 hd' (fun j hj => hsf2 j (C.small _ hd' j hj)) (hu2 _ hne)
  · refine ⟨fun i hi => ?_, ?_, fun g hg' => ?_⟩
    · have hi' := C.small _ hd i hi
      show Q1.shapeFn i = P1.shapeFn i
      rw [hsf1 i hi', hsf2 i hi']; exact ha.shapes i hi
    · show (S2.mts.set _ _)[w.dom.tid]? = (S.mts.set _ _)[w.dom.tid]?
      rw [List.getElem?_set, List.getElem?_set, h.mlen, h2.mlen, if_pos rfl, if_pos rfl]
    · simp only [Option.some.injEq, Prod.mk.injEq] at hg'
      obtain ⟨-, hv⟩ := hg'
      have hpend : ∀ (S : Sim) (P1 : Packing) (hG : Good T n S0 ds S), SameMols S.P P1 → S.P.shapeFn mv.idx = (S.P.shapeFn mv.idx) →
          P1.shapeFn mv.idx = S.P.shapeFn mv.idx → ∀ (X : Sim), X.P = P1 →
          (∃ K0 K1 : Nat, P1.lastAltered[w.dom.tid]? = some mv.idx ∧ SlotOk P1 T.I (P1.size + w.dom.tid) new ∧
            P1.lastDeltas = S.P.newDeltas T.I w.dom.tid K0 K1 ∧
            ((K0 : Nat) : ℝ) = single S.P T.I (ind T.I) mv.idx (S.P.shapeFn mv.idx) + wallNum S.P.box S.P.hasWall T.I (S.P.shapeFn mv.idx) ∧
            ((K1 : Nat) : ℝ) = single S.P T.I (ind T.I) mv.idx new + wallNum S.P.box S.P.hasWall T.I new) →
          w.dom.active.isInside new.pos = true → Pend T X w.dom mv.idx new := by
        rintro S P1 hG sm - hsf X hX ⟨K0, K1, a1, a2, a3, a4, a5⟩ hac
        refine ⟨by rw [hX]; exact a1, hidx, by rw [hX]; exact a2, by rw [hX, sm.box, hG.frame.box]; exact hnin, hac, hnrot, fun hh hc => ?_⟩
        rw [hX] at hc ⊢
        rw [sm.overlapCounting] at hc
        rw [hsf, sm.single, sm.single, sm.box, sm.hasWall, ← a4, ← a5, a3]
        have hb : (T.I.hasHard && S.P.overlapCounting) = true := by simp [hh, hc]
        unfold newDeltas
        rw [if_pos hb, List.getD_eq_getElem?_getD, List.getElem?_set, if_pos rfl, if_pos (by rw [hG.pinv.q.core.ld]; exact hthr S hG)]
        simp
      rcases c1 with ⟨a1, a2⟩ | ⟨a1, K0, K1, -, a3, a4, a5, a6, a7⟩
      · rw [a2, verdict, Sim.boltzmann_posInf C.live.proper.1.temp (hpos _).1] at hv
        cases hv
      · rcases c2 with ⟨b1, b2⟩ | ⟨b1, L0, L1, -, b3, b4, b5, b6, b7⟩
        · exact absurd a1 b1
        · exact ⟨mv.idx, new, hpend S P1 h sm1 rfl (hsf1 _ hidxn) _ rfl ⟨K0, K1, a3, a4, a5, a6, a7⟩ (hact a1),
            hpend S2 Q1 h2 sm2 rfl (hsf2 _ hidxn) _ rfl ⟨L0, L1, b3, b4, b5, b6, b7⟩ (hact a1)⟩

/-- The end of an accepted move. -/
theorem accept_good (C : Ctx T n S0 ds) {S : Sim} (h : Good T n S0 ds S) {d : Dom} (hd : d ∈ ds) {i : Nat} {t : Shape} (hp : Pend T S d i t)
    (g : Nat) : ∃ P', S.P.acceptMove d.tid = .ok P' ∧ Good T n S0 ds (S.acceptedState g P') ∧ Effect T S (S.acceptedState g P') ds d ∧
      ∀ j < n, P'.shapeFn j = if j = i then t else S.P.shapeFn j := by
  obtain ⟨hP0, hI⟩ := C.live.proper.1.inv
  have hi : i < n := C.small _ hd i hp.mem
  have hi' : i < S.P.size := by rw [h.size C]; exact hi
  have hthr : d.tid < S.P.moveThreads := by
    rw [h.frame.moveThreads]
    exact lt_of_lt_of_le (C.engine _ hd) C.live.proper.1.threads
  obtain ⟨P', e, hP', rep, hng⟩ := accept_pinv h.pinv hI (how := .move) hthr hi' hp.altered hp.slot hp.inside trivial hp.delta
  obtain ⟨P'', e', -, -, hnum, -⟩ := accept_ok h.pinv.q (how := .move) hthr hi' hp.altered (shape_some hi') hp.slot hp.inside trivial
  have e0 : S.P.acceptMove d.tid = .ok P' := e
  have : P'' = P' := by rw [e] at e'; injection e' with e'; exact e'.symm
  subst this
  have hsf := rep.shapeFn (lt_of_lt_of_le hi' (by unfold Packing.size; omega))
  have hgood : Good T n S0 ds (S.acceptedState g P'') := by
    refine ⟨hP', h.frame.trans rep.frame, ?_, ?_, ?_, ?_, h.positive, h.fair, h.mlen, h.mrest, h.slen, h.samplers, ?_⟩
    · intro d' hd' j hj
      show d'.active.isInside (P''.shapeFn j).pos = true
      rw [hsf j]
      split_ifs with hji
      · rw [hji] at hj
        have : d = d' := by
          by_contra hne
          exact C.disjoint d hd d' hd' (fun ht => hne (C.tids _ hd _ hd' ht)) i hp.mem hj
        rw [← this]; exact hp.active
      · exact h.active d' hd' j hj
    · intro j hj
      show IsRotation (P''.shapeFn j).rot
      rw [hsf j]
      split_ifs
      · exact hp.rot
      · exact h.rot j hj
    · intro j hj hex
      show P''.shapeFn j = _
      rw [hsf j, if_neg (fun hji => hex d hd (by rw [hji]; exact hp.mem))]
      exact h.rest j hj hex
    · intro hc
      show P''.numOverlaps = _
      have : S.P.overlapCounting = false := by rw [h.frame.overlapCounting]; exact hc
      rw [hnum, withDelta, this]
      simpa using h.counted hc
    · show Sim.acceptedState S g P'' = _
      rw [h.fixed]
      rfl
  refine ⟨P'', e0, hgood, ⟨?_, fun _ _ => rfl, ?_⟩, fun j _ => hsf j⟩
  · intro j hj hjd
    show P''.shapeFn j = _
    rw [hsf j, if_neg (fun hji => hjd (by rw [hji]; exact hp.mem))]
  · intro d' hd' hne j s hps
    refine hps.keep C h hgood hd' (fun j hj => ?_) (rep.untouched h.pinv.q.core.m_eq hi' _)
    show P''.shapeFn j = _
    rw [hsf j, if_neg (fun hji => C.disjoint d hd d' hd' (Ne.symm hne) i hp.mem (by rw [← hji]; exact hj))]

/-- The thread after its trial was decided about. -/
def Worker.decided (w : Worker) (g : Nat) (c : Counter) (v : Bool) : Worker :=
  { w with counters := w.counters.set g (c.increment v), left := w.left - 1, pending := none }

/-- Accepting or rejecting in two states in which the thread sees the same. -/
theorem finish_two (C : Ctx T n S0 ds) {S S2 : Sim} (h : Good T n S0 ds S) (h2 : Good T n S0 ds S2) {w : Worker} (hd : w.dom ∈ ds)
    (hw : WOk S0 w) {g : Nat} {v : Bool} (hbusy : w.pending = some (g, v)) (ha : Agree T S S2 w) :
    ∃ S' S2' c, w.counters[g]? = some c ∧ finish S w g v = .ok (S', w.decided g c v) ∧ finish S2 w g v = .ok (S2', w.decided g c v) ∧
      Good T n S0 ds S' ∧ Good T n S0 ds S2' ∧ Effect T S S' ds w.dom ∧ Effect T S2 S2' ds w.dom ∧
      Agree T S' S2' (w.decided g c v) ∧ S'.env.samplers = S.env.samplers ∧ S2'.env.samplers = S2.env.samplers := by
  have hg := hw.group g v hbusy
  have hgc : g < w.counters.length := by rw [hw.counters]; exact hg
  have hc := List.getElem?_eq_getElem hgc
  generalize w.counters[g] = c at hc
  cases v with
  | false =>
    have key : ∀ S : Sim, finish S w g false = .ok (S, w.decided g c false) := by
      intro S
      unfold finish Sim.decideMove
      rw [vget_eq_ok.mpr hc, Outcome.ok_bind]
      rfl
    exact ⟨S, S2, c, hc, key S, key S2, h, h2, ⟨fun _ _ _ => rfl, fun _ _ => rfl, fun _ _ _ _ _ hp => hp⟩,
      ⟨fun _ _ _ => rfl, fun _ _ => rfl, fun _ _ _ _ _ hp => hp⟩, ⟨ha.shapes, ha.tape, fun _ hp => by cases hp⟩, rfl, rfl⟩
  | true =>
    obtain ⟨i, t, hp, hp2⟩ := ha.pend g hbusy
    obtain ⟨P', e1, a1, a2, a3⟩ := accept_good C h hd hp g
    obtain ⟨Q', f1, b1, b2, b3⟩ := accept_good C h2 hd hp2 g
    have key : ∀ (S : Sim) (P' : Packing), S.P.acceptMove w.dom.tid = .ok P' → finish S w g true = .ok (S.acceptedState g P', w.decided g c true) := by
      intro S P' e
      unfold finish Sim.decideMove
      rw [vget_eq_ok.mpr hc, Outcome.ok_bind]
      show (S.P.acceptMove w.dom.tid >>= _) >>= _ = _
      rw [e]
      rfl
    refine ⟨_, _, c, hc, key S P' e1, key S2 Q' f1, a1, b1, a2, b2, ⟨?_, ha.tape, fun _ hp => by cases hp⟩, rfl, rfl⟩
    intro j hj
    have hj' := C.small _ hd j hj
    show Q'.shapeFn j = P'.shapeFn j
    rw [a3 j hj', b3 j hj', ha.shapes j hj]

end Rampack.Par
