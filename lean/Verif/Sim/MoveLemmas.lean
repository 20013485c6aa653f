import Verif.Sim.SamplerLemmas
import Verif.Sim.LogSpec
/-
What a sweep does to a simulation besides the packing: the log and the counters.
-/
namespace Rampack

open Spec

theorem iterate_ind {α : Type} {f : α → Outcome α} {Inv : α → Prop} (h : ∀ a a', Inv a → f a = .ok a' → Inv a') :
    ∀ (n : Nat) (a a' : α), Inv a → iterate f n a = .ok a' → Inv a'
  | 0, a, a', ha, hr => by
    unfold iterate at hr
    injection hr with hr
    exact hr ▸ ha
  | n + 1, a, a', ha, hr => by
    unfold iterate at hr
    obtain ⟨b, h1, h2⟩ := Outcome.bind_eq_ok.mp hr
    exact iterate_ind h n b a' (h a b ha h1) h2

theorem foldlM_ind {α β : Type} {f : α → β → Outcome α} {Inv : α → Prop} :
    ∀ (l : List β) (_ : ∀ a b a', b ∈ l → Inv a → f a b = .ok a' → Inv a') (a a' : α), Inv a → l.foldlM f a = .ok a' → Inv a'
  | [], _, a, a', ha, hr => by
    rw [List.foldlM_nil] at hr
    injection hr with hr
    exact hr ▸ ha
  | b :: l, h, a, a', ha, hr => by
    rw [List.foldlM_cons] at hr
    obtain ⟨c, h1, h2⟩ := Outcome.bind_eq_ok.mp hr
    exact foldlM_ind l (fun x y z hy => h x y z (List.mem_cons_of_mem _ hy)) c a' (h a b c List.mem_cons_self ha h1) h2

theorem vback_ok {α : Type} {l : List α} {a : α} (h : vback l = .ok a) : l.getLast? = some a := by
  unfold vback at h
  split at h
  · injection h with h
    subst h
    assumption
  · cases h

theorem getMoveSamplers_ok {e : Env} {l : List Sampler} (h : e.getMoveSamplers = .ok l) : l = e.samplers ∧ l ≠ [] := by
  unfold Env.getMoveSamplers at h
  obtain ⟨u, h1, h2⟩ := Outcome.bind_eq_ok.mp h
  rw [Outcome.require_eq_ok] at h1
  injection h2 with h2
  subst h2
  refine ⟨rfl, ?_⟩
  intro h0
  unfold Env.hasMoveSamplers at h1
  rw [h0] at h1
  simp at h1

namespace Sim

/-- The state after a move was tried and before it is decided about. -/
def triedState (S : Sim) (g : Nat) (s : Sampler) (tid : Nat) (t : Tape) (P : Packing) : Sim :=
  { S with
    P := P
    env := { S.env with samplers := S.env.samplers.set g s }
    mts := S.mts.set tid t
    log := S.log ++ [Event.tried g] }

/-- The state after a move was tried and accepted. -/
def acceptedState (S : Sim) (g : Nat) (P : Packing) : Sim := { S with P := P, log := S.log ++ [.accepted g P] }

/-- What `tryMove` does. -/
theorem tryMove_ok {T : Traits} {idxs accs : List Nat} {tid : Nat} {domain : Option (Vec3 ℝ → Bool)} {S S' : Sim}
    {cs cs' : List Counter} (h : tryMove T idxs accs tid domain (S, cs) = .ok (S', cs')) :
    ∃ (g : Nat) (s s' : Sampler) (mv : MoveData) (t : Tape) (k : Nat) (P : Packing) (dE : EnergyChange) (c : Counter),
      S.env.samplers[g]? = some s ∧ S.mts[tid]? = some t ∧ cs[g]? = some c ∧ cs.length = S.env.samplers.length ∧
      s.sampleMove S.P idxs (t.drop 1) = .ok (mv, s', t.drop k) ∧
      S.P.tryKind T.I tid mv.idx mv.kind domain = .ok (P, dE) ∧
      ((∃ P', (boltzmann dE S.temperature).geNum (t k) = true ∧ P.acceptMove tid = .ok P' ∧
          S' = (S.triedState g s' tid (t.drop (k + 1)) P).acceptedState g P' ∧ cs' = cs.set g (c.increment true)) ∨
        ((boltzmann dE S.temperature).geNum (t k) = false ∧
          S' = S.triedState g s' tid (t.drop (k + 1)) P ∧ cs' = cs.set g (c.increment false))) := by
  unfold tryMove at h
  simp only at h
  obtain ⟨samplers, h1, h⟩ := Outcome.bind_eq_ok.mp h
  obtain ⟨h1, -⟩ := getMoveSamplers_ok h1
  obtain ⟨_, h2, h⟩ := Outcome.bind_eq_ok.mp h
  rw [Outcome.require_eq_ok, decide_eq_true_eq] at h2
  obtain ⟨_, h3, h⟩ := Outcome.bind_eq_ok.mp h
  obtain ⟨numMoves, h4, h⟩ := Outcome.bind_eq_ok.mp h
  obtain ⟨t, h5, h⟩ := Outcome.bind_eq_ok.mp h
  rw [vget_eq_ok] at h5
  obtain ⟨⟨sampled, t1⟩, h6, h⟩ := Outcome.bind_eq_ok.mp h
  obtain ⟨-, -, h6⟩ := Sampler.uniformInt_ok h6
  simp only at h
  obtain ⟨s, h7, h⟩ := Outcome.bind_eq_ok.mp h
  rw [vget_eq_ok] at h7
  obtain ⟨⟨mv, s', t2⟩, h8, h⟩ := Outcome.bind_eq_ok.mp h
  simp only at h
  obtain ⟨⟨P, dE⟩, h9, h⟩ := Outcome.bind_eq_ok.mp h
  simp only at h
  subst h1 h6
  obtain ⟨-, -, -, k, hk⟩ := Sampler.sampleMove_ok h8
  rw [Tape.drop_drop] at hk
  subst hk
  unfold decideMove at h
  obtain ⟨c, h10, h⟩ := Outcome.bind_eq_ok.mp h
  rw [vget_eq_ok] at h10
  refine ⟨_, s, s', mv, t, 1 + k, P, dE, c, h7, h5, h10, h2, h8, h9, ?_⟩
  have e1 : ((t.drop (1 + k)) 0) = t (1 + k) := by simp [Tape.drop]
  rw [e1, Tape.drop_drop] at h
  by_cases hb : (boltzmann dE S.temperature).geNum (t (1 + k)) = true
  · left
    rw [if_pos hb] at h
    obtain ⟨P', h11, h⟩ := Outcome.bind_eq_ok.mp h
    injection h with h
    injection h with h12 h13
    exact ⟨P', hb, h11, h12.symm, h13.symm⟩
  · right
    rw [if_neg hb] at h
    injection h with h
    injection h with h12 h13
    exact ⟨by simpa using hb, h12.symm, h13.symm⟩

/-- The samplers differ at most in what is not observable: maximal steps. -/
def SameSampler (s s' : Sampler) : Prop := s'.stepSizes = s.stepSizes ∧ (∀ n, s'.requested n = s.requested n) ∧
  ∀ n, groupLength s' n = groupLength s n

theorem SameSampler.refl (s : Sampler) : SameSampler s s := ⟨rfl, fun _ => rfl, fun _ => rfl⟩

theorem SameSampler.trans {a b c : Sampler} (h : SameSampler a b) (h' : SameSampler b c) : SameSampler a c :=
  ⟨h'.1.trans h.1, fun n => (h'.2.1 n).trans (h.2.1 n), fun n => (h'.2.2 n).trans (h.2.2 n)⟩

/-- The same list of samplers up to unobservable differences. -/
def SameSamplers (l l' : List Sampler) : Prop :=
  l'.length = l.length ∧ ∀ (g : Nat) (s : Sampler), l[g]? = some s → ∃ s', l'[g]? = some s' ∧ SameSampler s s'

theorem SameSamplers.refl (l : List Sampler) : SameSamplers l l := ⟨rfl, fun _ s h => ⟨s, h, .refl s⟩⟩

theorem SameSamplers.trans {a b c : List Sampler} (h : SameSamplers a b) (h' : SameSamplers b c) : SameSamplers a c := by
  refine ⟨h'.1.trans h.1, fun g s hs => ?_⟩
  obtain ⟨s1, h1, h2⟩ := h.2 g s hs
  obtain ⟨s2, h3, h4⟩ := h'.2 g s1 h1
  exact ⟨s2, h3, h2.trans h4⟩

theorem SameSamplers.set {l : List Sampler} {g : Nat} {s s' : Sampler} (hs : l[g]? = some s) (h : SameSampler s s') :
    SameSamplers l (l.set g s') := by
  refine ⟨List.length_set, fun i x hx => ?_⟩
  rw [List.getElem?_set]
  split_ifs with h1 h2
  · subst h1
    rw [hs] at hx
    injection hx with hx
    exact ⟨s', rfl, hx ▸ h⟩
  · subst h1
    rw [List.getElem?_eq_none (by omega)] at hx
    cases hx
  · exact ⟨x, hx, .refl x⟩

/-- The event is a tried or an accepted molecule move. -/
def isMove : Event → Bool
  | .tried _ => true
  | .accepted _ _ => true
  | _ => false

/-- What does not change in a sweep. -/
structure Moved (S S' : Sim) (evs : List Event) : Prop where
  log : S'.log = S.log ++ evs
  only : ∀ e ∈ evs, isMove e = true
  temperature : S'.temperature = S.temperature
  pressure : S'.pressure = S.pressure
  envT : S'.env.temperature = S.env.temperature
  envP : S'.env.pressure = S.env.pressure
  scaler : S'.env.scaler = S.env.scaler
  samplers : SameSamplers S.env.samplers S'.env.samplers
  cancelReported : S'.cancelReported = S.cancelReported
  scalingCounter : S'.scalingCounter = S.scalingCounter
  shouldAdjust : S'.shouldAdjust = S.shouldAdjust
  overlapsCounted : S'.overlapsCounted = S.overlapsCounted
  performed : S'.performed = S.performed
  total : S'.total = S.total
  max : S'.max = S.max
  interrupted : S'.interrupted = S.interrupted
  all : S'.all = S.all

theorem Moved.refl (S : Sim) : Moved S S [] :=
  ⟨(List.append_nil _).symm, by simp, rfl, rfl, rfl, rfl, rfl, .refl _, rfl, rfl, rfl, rfl, rfl, rfl, rfl, rfl, rfl⟩

theorem Moved.trans {S S' S'' : Sim} {e e' : List Event} (h : Moved S S' e) (h' : Moved S' S'' e') : Moved S S'' (e ++ e') := by
  obtain ⟨a1, a2, a3, a4, a5, a6, a7, a8, a9, a10, a11, a12, a13, a14, a15, a16, a17⟩ := h
  obtain ⟨b1, b2, b3, b4, b5, b6, b7, b8, b9, b10, b11, b12, b13, b14, b15, b16, b17⟩ := h'
  refine ⟨?_, ?_, b3.trans a3, b4.trans a4, b5.trans a5, b6.trans a6, b7.trans a7, a8.trans b8, b9.trans a9, b10.trans a10,
    b11.trans a11, b12.trans a12, b13.trans a13, b14.trans a14, b15.trans a15, b16.trans a16, b17.trans a17⟩
  · rw [b1, a1, List.append_assoc]
  · intro x hx
    rw [List.mem_append] at hx
    exact hx.elim (a2 x) (b2 x)

/-- The counters of the moves in a log. -/
def countLog (n : Nat) (L : List Event) : List Counter :=
  (List.range n).map fun g => ⟨L.countP (isTried g), L.countP (isAccepted g), L.countP (isTried g), L.countP (isAccepted g)⟩

theorem countLog_append (n : Nat) (L L' : List Event) :
    countLog n (L ++ L') = List.zipWith Counter.add (countLog n L) (countLog n L') := by
  unfold countLog
  rw [List.zipWith_map, List.zipWith_self]
  apply List.map_congr_left
  intro g _
  simp only [List.countP_append, Counter.add]

theorem add_assoc_zip (a b c : List Counter) :
    List.zipWith Counter.add (List.zipWith Counter.add a b) c = List.zipWith Counter.add a (List.zipWith Counter.add b c) := by
  apply List.ext_getElem?
  intro i
  simp only [List.getElem?_zipWith]
  rcases a[i]? with _ | x <;> rcases b[i]? with _ | y <;> rcases c[i]? with _ | z <;>
    simp [Counter.add, Nat.add_assoc]

theorem add_nil_zip (a : List Counter) : List.zipWith Counter.add a (countLog a.length []) = a := by
  apply List.ext_getElem?
  intro i
  simp only [List.getElem?_zipWith, countLog, List.getElem?_map]
  by_cases h : i < a.length
  · rw [List.getElem?_eq_getElem h, List.getElem?_eq_getElem (by simpa using h)]
    simp [Counter.add]
  · rw [List.getElem?_eq_none (by omega)]

theorem replicate_zero (n : Nat) : List.replicate n Counter.zero = countLog n [] := by
  unfold countLog
  simp [Counter.zero, List.map_const']

theorem countLog_length (n : Nat) (L : List Event) : (countLog n L).length = n := by simp [countLog]

theorem countLog_get {n g : Nat} (L : List Event) (h : g < n) : (countLog n L)[g]? =
    some ⟨L.countP (isTried g), L.countP (isAccepted g), L.countP (isTried g), L.countP (isAccepted g)⟩ := by
  unfold countLog
  rw [List.getElem?_map, List.getElem?_eq_getElem (by simpa using h)]
  simp

/-- One tried move in the counters. -/
theorem increment_zip {cs : List Counter} {g : Nat} {c : Counter} (hc : cs[g]? = some c) (P : Packing) (b : Bool) :
    cs.set g (c.increment b) = List.zipWith Counter.add cs
      (countLog cs.length (Event.tried g :: if b then [.accepted g P] else [])) := by
  apply List.ext_getElem?
  intro i
  rw [List.getElem?_set, List.getElem?_zipWith]
  by_cases hi : i < cs.length
  · rw [countLog_get _ hi]
    by_cases h1 : g = i
    · subst h1
      rw [if_pos rfl, if_pos hi, hc]
      cases b <;> simp [Counter.increment, Counter.add, isTried, isAccepted]
    · rw [if_neg h1, List.getElem?_eq_getElem hi]
      have h2 : (g == i) = false := by simpa using h1
      cases b <;> simp [Counter.add, isTried, isAccepted, h2]
  · have h1 : cs[i]? = none := List.getElem?_eq_none (by omega)
    have h2 : g ≠ i := by
      rintro rfl
      rw [hc] at h1
      cases h1
    rw [if_neg h2, h1]

/-- Logs and counters of a part of a sweep. -/
def Counting (S : Sim) (cs : List Counter) (st : Sim × List Counter) : Prop :=
  ∃ evs, Moved S st.1 evs ∧ st.2 = List.zipWith Counter.add cs (countLog cs.length evs) ∧ st.1.counters = S.counters ∧
    st.1.divs = S.divs ∧ st.1.numDomains = S.numDomains ∧ st.1.mts.length = S.mts.length

theorem Counting.refl (S : Sim) (cs : List Counter) : Counting S cs (S, cs) :=
  ⟨[], .refl S, (add_nil_zip cs).symm, rfl, rfl, rfl, rfl⟩

theorem Counting.length {S : Sim} {cs : List Counter} {st : Sim × List Counter} (h : Counting S cs st) :
    st.2.length = cs.length := by
  obtain ⟨e, -, h, -⟩ := h
  rw [h, List.length_zipWith, countLog_length, min_self]

theorem Counting.trans {S S' S'' : Sim} {cs cs' cs'' : List Counter} (h : Counting S cs (S', cs'))
    (h' : Counting S' cs' (S'', cs'')) : Counting S cs (S'', cs'') := by
  have hl := h.length
  obtain ⟨e, h1, h2, h3, h4, h5, h6⟩ := h
  obtain ⟨e', h1', h2', h3', h4', h5', h6'⟩ := h'
  refine ⟨e ++ e', h1.trans h1', ?_, h3'.trans h3, h4'.trans h4, h5'.trans h5, h6'.trans h6⟩
  simp only at h2 h2' hl ⊢
  rw [h2', hl, h2, add_assoc_zip, countLog_append]

/-- A tried move. -/
theorem tryMove_counting {T : Traits} {idxs accs : List Nat} {tid : Nat} {domain : Option (Vec3 ℝ → Bool)}
    {st st' : Sim × List Counter} (h : tryMove T idxs accs tid domain st = .ok st') : Counting st.1 st.2 st' := by
  obtain ⟨S, cs⟩ := st
  obtain ⟨S', cs'⟩ := st'
  obtain ⟨g, s, s', mv, t, k, P, dE, c, h1, h2, h3, h4, h5, h6, h7⟩ := tryMove_ok h
  obtain ⟨-, h8, h9, -⟩ := Sampler.sampleMove_ok h5
  have hsame : SameSampler s s' := by
    refine ⟨h8, h9, fun n => ?_⟩
    rcases s with x | ⟨x, m, i⟩ | ⟨x, _ | y, m, i⟩ | ⟨e, a, o, z⟩
    · obtain ⟨⟨R, t1⟩, h1, h⟩ := Outcome.bind_eq_ok.mp h5
      obtain ⟨⟨j, t2⟩, h2, h⟩ := Outcome.bind_eq_ok.mp h
      injection h with h
      injection h with h6 h7
      injection h7 with h7 h8
      subst h7
      rfl
    · obtain ⟨⟨j, t2⟩, h2, h⟩ := Outcome.bind_eq_ok.mp h5
      injection h with h
      injection h with h6 h7
      injection h7 with h7 h8
      subst h7
      rfl
    · cases h5
    · obtain ⟨⟨R, t1⟩, h1, h⟩ := Outcome.bind_eq_ok.mp h5
      obtain ⟨⟨j, t2⟩, h2, h⟩ := Outcome.bind_eq_ok.mp h
      injection h with h
      injection h with h6 h7
      injection h7 with h7 h8
      subst h7
      rfl
    · obtain ⟨⟨j, t2⟩, h2, h⟩ := Outcome.bind_eq_ok.mp h5
      obtain ⟨sh, h3, h⟩ := Outcome.bind_eq_ok.mp h
      obtain ⟨kd, h4, h⟩ := Outcome.bind_eq_ok.mp h
      injection h with h
      injection h with h6 h7
      injection h7 with h7 h8
      subst h7
      rfl
  rcases h7 with ⟨P', -, -, rfl, rfl⟩ | ⟨-, rfl, rfl⟩
  · refine ⟨[.tried g, .accepted g P'], ⟨?_, ?_, rfl, rfl, rfl, rfl, rfl, .set h1 hsame, rfl, rfl, rfl, rfl, rfl, rfl, rfl, rfl,
      rfl⟩, increment_zip h3 P' true, rfl, rfl, rfl, ?_⟩
    · simp [acceptedState, triedState]
    · simp [isMove]
    · simp [acceptedState, triedState]
  · refine ⟨[.tried g], ⟨?_, ?_, rfl, rfl, rfl, rfl, rfl, .set h1 hsame, rfl, rfl, rfl, rfl, rfl, rfl, rfl, rfl,
      rfl⟩, increment_zip h3 P false, rfl, rfl, rfl, ?_⟩
    · simp [triedState]
    · simp [isMove]
    · simp [triedState]

theorem iterate_counting {T : Traits} {idxs accs : List Nat} {tid : Nat} {domain : Option (Vec3 ℝ → Bool)} {n : Nat}
    {S S' : Sim} {cs cs' : List Counter} (h : iterate (tryMove T idxs accs tid domain) n (S, cs) = .ok (S', cs')) :
    Counting S cs (S', cs') :=
  iterate_ind (Inv := Counting S cs) (fun _ _ h1 h2 => h1.trans (tryMove_counting h2)) n _ _ (.refl S cs) h

/-- What a sweep does to the log and to the counters. -/
def Swept (S S' : Sim) : Prop :=
  ∃ evs, Moved S S' evs ∧ S'.counters = List.zipWith Counter.add S.counters (countLog S.counters.length evs)

theorem sweep_swept {S S' : Sim} {T : Traits} (h : S.sweep T = .ok S') : Swept S S' := by
  unfold sweep at h
  obtain ⟨samplers, h1, h⟩ := Outcome.bind_eq_ok.mp h
  obtain ⟨accs, h2, h⟩ := Outcome.bind_eq_ok.mp h
  obtain ⟨n, h3, h⟩ := Outcome.bind_eq_ok.mp h
  obtain ⟨⟨S1, cs⟩, h4, h⟩ := Outcome.bind_eq_ok.mp h
  injection h with h
  subst h
  obtain ⟨e, h5, h6, -⟩ := iterate_counting h4
  obtain ⟨a1, a2, a3, a4, a5, a6, a7, a8, a9, a10, a11, a12, a13, a14, a15, a16, a17⟩ := h5
  exact ⟨e, ⟨a1, a2, a3, a4, a5, a6, a7, a8, a9, a10, a11, a12, a13, a14, a15, a16, a17⟩, h6⟩

theorem accumulateCounters_ok {a b c : List Counter} (h : accumulateCounters a b = .ok c) : c = List.zipWith Counter.add a b := by
  unfold accumulateCounters at h
  split_ifs at h
  injection h with h
  exact h.symm

theorem domainStep_counting {T : Traits} {D : Domain.Decomposition} {n : Nat} {S S' : Sim} {cs cs' : List Counter}
    {c : Vec3 Nat × Nat} (hn : cs.length = n)
    (h : domainStep T D (List.replicate n .zero) (S, cs) c = .ok (S', cs')) : Counting S cs (S', cs') := by
  unfold domainStep at h
  obtain ⟨idxs, h1, h⟩ := Outcome.bind_eq_ok.mp h
  obtain ⟨active, h2, h⟩ := Outcome.bind_eq_ok.mp h
  rcases Outcome.ite_eq_ok.mp h with ⟨-, h⟩ | ⟨-, h⟩
  · injection h with h
    injection h with h3 h4
    subst h3 h4
    exact .refl S cs
  · obtain ⟨⟨S1, priv⟩, h3, h⟩ := Outcome.bind_eq_ok.mp h
    simp only at h
    obtain ⟨temp, h4, h⟩ := Outcome.bind_eq_ok.mp h
    injection h with h
    injection h with h5 h6
    subst h5 h6
    unfold domainMoves at h3
    obtain ⟨samplers, h5, h3⟩ := Outcome.bind_eq_ok.mp h3
    obtain ⟨accs, h6, h3⟩ := Outcome.bind_eq_ok.mp h3
    obtain ⟨m, h7, h3⟩ := Outcome.bind_eq_ok.mp h3
    obtain ⟨e, b1, b2, b3, b4, b5, b6⟩ := iterate_counting h3
    refine ⟨e, b1, ?_, b3, b4, b5, b6⟩
    simp only at b2 ⊢
    rw [accumulateCounters_ok h4, b2, replicate_zero, countLog_length, ← countLog_append, List.nil_append, hn]

theorem domainLoop_swept {T : Traits} {D : Domain.Decomposition} {S S' : Sim} (h : domainLoop T D S = .ok S') : Swept S S' := by
  unfold domainLoop at h
  simp only at h
  obtain ⟨⟨S1, temp⟩, h1, h⟩ := Outcome.bind_eq_ok.mp h
  simp only at h
  obtain ⟨cs, h2, h⟩ := Outcome.bind_eq_ok.mp h
  injection h with h
  subst h
  have hc : Counting S (List.replicate S.counters.length .zero) (S1, temp) := by
    refine foldlM_ind (Inv := Counting S (List.replicate S.counters.length .zero)) _ ?_ _ _ (.refl _ _) h1
    rintro ⟨a, ca⟩ b ⟨a', ca'⟩ - h3 h4
    exact h3.trans (domainStep_counting (by have := h3.length; simpa using this) h4)
  obtain ⟨e, h5, h6, h7, -⟩ := hc
  obtain ⟨a1, a2, a3, a4, a5, a6, a7, a8, a9, a10, a11, a12, a13, a14, a15, a16, a17⟩ := h5
  refine ⟨e, ⟨a1, a2, a3, a4, a5, a6, a7, a8, a9, a10, a11, a12, a13, a14, a15, a16, a17⟩, ?_⟩
  simp only at h6 h7 ⊢
  rw [accumulateCounters_ok h2, h6, h7, replicate_zero, countLog_length, ← countLog_append, List.nil_append]

theorem Swept.of_mts {S S' : Sim} {l : List Tape} (h : Swept { S with mts := l } S') : Swept S S' := by
  obtain ⟨e, ⟨a1, a2, a3, a4, a5, a6, a7, a8, a9, a10, a11, a12, a13, a14, a15, a16, a17⟩, h6⟩ := h
  exact ⟨e, ⟨a1, a2, a3, a4, a5, a6, a7, a8, a9, a10, a11, a12, a13, a14, a15, a16, a17⟩, h6⟩

theorem Swept.of_divs {S S' : Sim} {l : List Tape} {d : Vec3 Nat} {n : Nat}
    (h : Swept { S with mts := l, divs := d, numDomains := n } S') : Swept S S' := by
  obtain ⟨e, ⟨a1, a2, a3, a4, a5, a6, a7, a8, a9, a10, a11, a12, a13, a14, a15, a16, a17⟩, h6⟩ := h
  exact ⟨e, ⟨a1, a2, a3, a4, a5, a6, a7, a8, a9, a10, a11, a12, a13, a14, a15, a16, a17⟩, h6⟩

/-- An attempt either sweeps or changes only the first engine. -/
theorem attempt_ok {S : Sim} {T : Traits} {a : Attempt} (h : S.attempt T = .ok a) :
    (∃ S', a = .done S' ∧ Swept S S') ∨ ∃ c l, a = .tooNarrow c { S with mts := l } := by
  unfold attempt at h
  rcases Outcome.ite_eq_ok.mp h with ⟨-, h⟩ | ⟨-, h⟩
  · obtain ⟨S', h1, h⟩ := Outcome.bind_eq_ok.mp h
    injection h with h
    exact Or.inl ⟨S', h.symm, sweep_swept h1⟩
  · unfold sweepDomains at h
    obtain ⟨t, h1, h⟩ := Outcome.bind_eq_ok.mp h
    simp only at h
    obtain ⟨grid, h2, h⟩ := Outcome.bind_eq_ok.mp h
    obtain ⟨r, h3, h⟩ := Outcome.bind_eq_ok.mp h
    unfold afterDecompose at h
    cases r with
    | tooNarrow c =>
      injection h with h
      exact Or.inr ⟨c, _, h.symm⟩
    | ok D =>
      obtain ⟨S', h4, h⟩ := Outcome.bind_eq_ok.mp h
      injection h with h
      exact Or.inl ⟨S', h.symm, (domainLoop_swept h4).of_mts⟩

theorem movesLoop_swept {T : Traits} : ∀ (n : Nat) {S S' : Sim}, movesLoop T n S = .ok S' → Swept S S'
  | 0, S, S', h => by cases h
  | n + 1, S, S', h => by
    unfold movesLoop at h
    obtain ⟨a, h1, h⟩ := Outcome.bind_eq_ok.mp h
    rcases attempt_ok h1 with ⟨S1, rfl, h2⟩ | ⟨c, l, rfl⟩
    · injection h with h
      exact h ▸ h2
    · simp only at h
      obtain ⟨S2, h3, h⟩ := Outcome.bind_eq_ok.mp h
      unfold reduceDomains at h3
      obtain ⟨d, h4, h3⟩ := Outcome.bind_eq_ok.mp h3
      injection h3 with h3
      subst h3
      exact Swept.of_divs (S := S) (movesLoop_swept n h)

theorem performMoves_swept {S S' : Sim} {T : Traits} (h : S.performMoves T = .ok S') : Swept S S' := movesLoop_swept _ h

end Sim

end Rampack
