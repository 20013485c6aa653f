import Verif.Sim.ParRun
import Verif.Domain.Props
/-
Lemmas: the beginning of executions, and the sequential execution.
-/
namespace Rampack.Par

open Spec Packing

variable {T : Traits} {n : Nat} {S0 : Sim} {ds : List Dom}

theorem Steps.trans {X Y Z : State} (h : Steps T X Y) (h' : Steps T Y Z) : Steps T X Z := by
  induction h' with
  | refl => exact h
  | tail _ h2 ih => exact .tail ih h2

/-- A whole move is a trial and its end. -/
theorem tryMove_steps {S S' : Sim} {w : Worker} {cs' : List Counter}
    (h : Sim.tryMove T w.dom.idxs w.dom.accs w.dom.tid (some w.dom.active.isInside) (S, w.counters) = .ok (S', cs')) :
    ∃ S1 g v, trial T S w = .ok (S1, { w with pending := some (g, v) }) ∧
      finish S1 { w with pending := some (g, v) } g v = .ok (S', { w with counters := cs', left := w.left - 1, pending := none }) := by
  unfold Sim.tryMove at h
  simp only at h
  obtain ⟨samplers, h1, h⟩ := Outcome.bind_eq_ok.mp h
  obtain ⟨_, h2, h⟩ := Outcome.bind_eq_ok.mp h
  obtain ⟨_, h3, h⟩ := Outcome.bind_eq_ok.mp h
  obtain ⟨numMoves, h4, h⟩ := Outcome.bind_eq_ok.mp h
  obtain ⟨t, h5, h⟩ := Outcome.bind_eq_ok.mp h
  obtain ⟨⟨sampled, t1⟩, h6, h⟩ := Outcome.bind_eq_ok.mp h
  simp only at h
  obtain ⟨s, h7, h⟩ := Outcome.bind_eq_ok.mp h
  obtain ⟨⟨mv, s', t2⟩, h8, h⟩ := Outcome.bind_eq_ok.mp h
  simp only at h
  obtain ⟨⟨P, dE⟩, h9, h⟩ := Outcome.bind_eq_ok.mp h
  simp only at h
  refine ⟨{ S with P := P, env := { S.env with samplers := samplers.set (moveTypeFor w.dom.accs sampled) s' }, mts := S.mts.set w.dom.tid (t2.drop 1), log := S.log ++ [Event.tried (moveTypeFor w.dom.accs sampled)] }, moveTypeFor w.dom.accs sampled, (Sim.boltzmann dE S.temperature).geNum (t2 0), ?_, ?_⟩
  rotate_left
  · unfold finish
    simp only
    rw [h]
    rfl
  · unfold trial
    rw [h1, Outcome.ok_bind, h2, Outcome.ok_bind, h3, Outcome.ok_bind, h4, Outcome.ok_bind, h5, Outcome.ok_bind, h6, Outcome.ok_bind]
    simp only
    rw [h7, Outcome.ok_bind, h8, Outcome.ok_bind]
    simp only
    rw [h9]
    rfl

/-- All moves of a thread. -/
theorem iterate_steps {d : Dom} (pre post : List Worker) : ∀ (k : Nat) {S S' : Sim} {cs cs' : List Counter},
    iterate (Sim.tryMove T d.idxs d.accs d.tid (some d.active.isInside)) k (S, cs) = .ok (S', cs') →
    Steps T ⟨S, pre ++ ⟨d, k, cs, none⟩ :: post⟩ ⟨S', pre ++ ⟨d, 0, cs', none⟩ :: post⟩
  | 0, S, S', cs, cs', h => by
    simp only [iterate] at h
    injection h with h
    injection h with h1 h2
    subst h1 h2
    exact .refl _
  | k + 1, S, S', cs, cs', h => by
    simp only [iterate] at h
    obtain ⟨⟨S1, cs1⟩, h1, h⟩ := Outcome.bind_eq_ok.mp h
    obtain ⟨S2, g, v, e1, e2⟩ := tryMove_steps (w := ⟨d, k + 1, cs, none⟩) h1
    have s1 := Step.step pre post (WorkerStep.trial (w := ⟨d, k + 1, cs, none⟩) rfl (Nat.succ_pos k) e1)
    have s2 := Step.step (T := T) pre post (WorkerStep.finish rfl e2)
    exact Steps.trans (.tail (.tail (.refl _) s1) s2) (iterate_steps pre post k h)

theorem accs_congr {m : Nat} : ∀ (l l' : List Sampler) (acc : Nat), l'.map (fun s => s.requested m) = l.map (fun s => s.requested m) →
    moveTypeAccumulations m l' acc = moveTypeAccumulations m l acc
  | [], [], _, _ => rfl
  | [], _ :: _, _, h => by simp at h
  | _ :: _, [], _, h => by simp at h
  | s :: l, s' :: l', acc, h => by
    simp only [List.map_cons, List.cons.injEq] at h
    simp only [moveTypeAccumulations, h.1]
    cases s.requested m with
    | ok r => simp only [Outcome.ok_bind, accs_congr l l' (acc + r) h.2]
    | _ => rfl

theorem Good.accs {S : Sim} (h : Good T n S0 ds S) (m acc : Nat) :
    moveTypeAccumulations m S.env.samplers acc = moveTypeAccumulations m S0.env.samplers acc := by
  apply accs_congr
  apply List.ext_getElem?
  intro g
  rw [List.getElem?_map, List.getElem?_map]
  cases hg : S0.env.samplers[g]? with
  | none =>
    have hl := h.slen
    rw [List.getElem?_eq_none_iff] at hg
    rw [List.getElem?_eq_none (by omega)]
  | some s0 =>
    rcases h.samplers g s0 hg with e | e
    · rw [e]
    · rw [e]; simp [Sampler.adjusted_requested]

/-- What a list of threads is at the beginning. -/
theorem workers_cons {D : Domain.Decomposition} {S : Sim} {c : Vec3 Nat × Nat} {l : List (Vec3 Nat × Nat)} {ws : List Worker}
    (h : workers D S (c :: l) = .ok ws) : ∃ idxs active rest, D.getParticlesInRegion c.1 = .ok idxs ∧ D.getActiveDomainBounds c.1 = .ok active ∧
      workers D S l = .ok rest ∧ ((idxs = [] ∧ ws = rest) ∨ (idxs ≠ [] ∧ ∃ accs last, S.env.samplers ≠ [] ∧
        moveTypeAccumulations (S.P.size / S.numDomains) S.env.samplers 0 = .ok accs ∧ accs.getLast? = some last ∧
        ws = ⟨⟨c.2, idxs, active, accs⟩, last, List.replicate S.counters.length Counter.zero, none⟩ :: rest)) := by
  simp only [workers] at h
  obtain ⟨idxs, h1, h⟩ := Outcome.bind_eq_ok.mp h
  obtain ⟨active, h2, h⟩ := Outcome.bind_eq_ok.mp h
  obtain ⟨rest, h3, h⟩ := Outcome.bind_eq_ok.mp h
  refine ⟨idxs, active, rest, h1, h2, h3, ?_⟩
  rcases Outcome.ite_eq_ok.mp h with ⟨hi, h⟩ | ⟨hi, h⟩
  · injection h with h
    exact Or.inl ⟨by simpa using hi, h.symm⟩
  · obtain ⟨samplers, h4, h⟩ := Outcome.bind_eq_ok.mp h
    obtain ⟨e1, e2⟩ := getMoveSamplers_ok h4
    subst e1
    obtain ⟨accs, h5, h⟩ := Outcome.bind_eq_ok.mp h
    obtain ⟨last, h6, h⟩ := Outcome.bind_eq_ok.mp h
    injection h with h
    exact Or.inr ⟨by simpa using hi, accs, last, e2, h5, vback_ok h6, h.symm⟩

theorem workers_mem {D : Domain.Decomposition} {S : Sim} : ∀ {l : List (Vec3 Nat × Nat)} {ws : List Worker}, workers D S l = .ok ws →
    (∀ w ∈ ws, ∃ c, (c, w.dom.tid) ∈ l ∧ D.getParticlesInRegion c = .ok w.dom.idxs ∧ D.getActiveDomainBounds c = .ok w.dom.active ∧
      w.dom.idxs ≠ [] ∧ moveTypeAccumulations (S.P.size / S.numDomains) S.env.samplers 0 = .ok w.dom.accs ∧
      w.dom.accs.getLast? = some w.left ∧ w.counters = List.replicate S.counters.length Counter.zero ∧ w.pending = none) ∧
    (ws.map fun w => w.dom.tid).Sublist (l.map Prod.snd)
  | [], ws, h => by
    simp only [workers] at h
    injection h with h
    subst h
    exact ⟨by simp, by simp⟩
  | c :: l, ws, h => by
    obtain ⟨idxs, active, rest, h1, h2, h3, h4⟩ := workers_cons h
    obtain ⟨a1, a2⟩ := workers_mem h3
    rcases h4 with ⟨-, rfl⟩ | ⟨hi, accs, last, -, h5, h6, rfl⟩
    · refine ⟨fun w hw => ?_, a2.trans (by simp)⟩
      obtain ⟨c', hc', r⟩ := a1 w hw
      exact ⟨c', List.mem_cons_of_mem _ hc', r⟩
    · refine ⟨fun w hw => ?_, ?_⟩
      · rcases List.mem_cons.mp hw with rfl | hw
        · exact ⟨c.1, List.mem_cons_self, h1, h2, hi, h5, h6, rfl, rfl⟩
        · obtain ⟨c', hc', r⟩ := a1 w hw
          exact ⟨c', List.mem_cons_of_mem _ hc', r⟩
      · simp only [List.map_cons]
        exact a2.cons₂ _

theorem loopCells_nodup (N : Vec3 Nat) : (loopCells N).Nodup := by
  unfold loopCells
  rw [List.nodup_flatMap]
  refine ⟨fun i _ => ?_, ?_⟩
  · rw [List.nodup_flatMap]
    refine ⟨fun j _ => ?_, ?_⟩
    · refine List.Nodup.map ?_ List.nodup_range
      intro a b hab
      injection hab
    · refine List.Pairwise.imp ?_ List.nodup_range
      intro a b hab c hc hc'
      rw [List.mem_map] at hc hc'
      obtain ⟨x, -, rfl⟩ := hc
      obtain ⟨y, -, hy⟩ := hc'
      injection hy with _ h2 _
      exact hab h2.symm
  · refine List.Pairwise.imp ?_ List.nodup_range
    intro a b hab c hc hc'
    rw [List.mem_flatMap] at hc hc'
    obtain ⟨x, -, hx⟩ := hc
    obtain ⟨y, -, hy⟩ := hc'
    rw [List.mem_map] at hx hy
    obtain ⟨x', -, rfl⟩ := hx
    obtain ⟨y', -, hy⟩ := hy
    injection hy with h1 _ _
    exact hab h1.symm

/-- Executions begin properly. -/
theorem start_ok {S : Sim} (h : Sim.Live T n S) (hn : S.numDomains ≠ 1) {grid : Vec3 Nat} {origin : Vec3 ℝ} {D : Domain.Decomposition}
    (hD : Domain.decompose S.P T.I S.divs grid origin = .ok (.ok D)) {ws : List Worker}
    (hs : workers D S (loopCells S.divs).zipIdx = .ok ws) :
    Ctx T n S (ws.map Worker.dom) ∧ Starts S (ws.map Worker.dom) ws := by
  obtain ⟨hng, -, hT, h63⟩ := h.narrow.resolve_left hn
  obtain ⟨hmol, hdis⟩ := C21_molecules h.proper.1.reach hT ⟨h63 0, h63 1, h63 2⟩ hD
  obtain ⟨hw, hsub⟩ := workers_mem hs
  have hnd : (ws.map fun w => w.dom.tid).Nodup := by
    refine hsub.nodup ?_
    rw [List.zipIdx_map_snd]
    exact List.nodup_range'
  have htid : ∀ (k k' : Nat) (w w' : Worker), ws[k]? = some w → ws[k']? = some w' → w.dom.tid = w'.dom.tid → k = k' := by
    intro k k' w w' hk hk' he
    have hlt : k < (ws.map fun w => w.dom.tid).length := by
      rw [List.length_map]; exact (List.getElem?_eq_some_iff.mp hk).1
    refine (List.getElem?_inj hlt hnd).mp ?_
    rw [List.getElem?_map, List.getElem?_map, hk, hk']
    simp [he]
  have hone : ∀ w ∈ ws, ∀ w' ∈ ws, w.dom.tid = w'.dom.tid → w = w' := by
    intro w hw w' hw' he
    obtain ⟨k, hk⟩ := List.mem_iff_getElem?.mp hw
    obtain ⟨k', hk'⟩ := List.mem_iff_getElem?.mp hw'
    have := htid k k' w w' hk hk' he
    subst this
    rw [hk] at hk'
    injection hk'
  have cell : ∀ w ∈ ws, ∃ c, (loopCells S.divs)[w.dom.tid]? = some c ∧ D.getParticlesInRegion c = .ok w.dom.idxs ∧
      D.getActiveDomainBounds c = .ok w.dom.active := by
    intro w hwm
    obtain ⟨c, h1, h2, h3, -⟩ := hw w hwm
    have := List.mem_zipIdx_iff_getElem?.mp h1
    exact ⟨c, this, h2, h3⟩
  have cellne : ∀ {k k' : Nat} {c c' : Vec3 Nat}, (loopCells S.divs)[k]? = some c → (loopCells S.divs)[k']? = some c' → k ≠ k' → c ≠ c' := by
    intro k k' c c' h1 h2 hne he
    subst he
    exact hne ((List.getElem?_inj (List.getElem?_eq_some_iff.mp h1).1 (loopCells_nodup S.divs)).mp (h1.trans h2.symm))
  have molin : ∀ w ∈ ws, ∀ i ∈ w.dom.idxs, i < n ∧ w.dom.active.isInside (S.P.shapeFn i).pos = true := by
    intro w hwm i hi
    obtain ⟨c, h1, h2, h3⟩ := cell w hwm
    obtain ⟨d1, d2, d3⟩ := mem_loopCells.mp (List.mem_of_getElem? h1)
    obtain ⟨L, A, e1, e2, -, e4⟩ := hmol c d1 d2 d3
    rw [h2] at e1
    rw [h3] at e2
    injection e1 with e1
    injection e2 with e2
    subst e1 e2
    obtain ⟨s, f1, f2⟩ := (e4 i).mp hi
    obtain ⟨g1, g2⟩ := mem_mols f1
    rw [h.proper.1.size] at g1
    rw [g2]
    exact ⟨g1, f2⟩
  have hacc : ∀ w ∈ ws, w.dom.accs.length = S.env.samplers.length ∧ ∀ x < w.left, moveTypeFor w.dom.accs x < S.env.samplers.length := by
    intro w hwm
    obtain ⟨c, -, -, -, -, h5, h6, -⟩ := hw w hwm
    rw [h.proper.1.size] at h5
    obtain ⟨accs, a1, a2, a3⟩ := accumulations_total (m := n / S.numDomains) S.env.samplers 0 h.usable
    rw [h5] at a1
    injection a1 with a1
    subst a1
    obtain ⟨last, b1, -, -, b4⟩ := a3 h.groups
    rw [h6] at b1
    injection b1 with b1
    subst b1
    exact ⟨a2, b4⟩
  constructor
  · refine ⟨h, ?_, ?_, ?_, ?_, ?_, ?_, ?_, ?_, ?_⟩
    · intro d hd d' hd' he
      obtain ⟨w, hwm, rfl⟩ := List.mem_map.mp hd
      obtain ⟨w', hwm', rfl⟩ := List.mem_map.mp hd'
      rw [hone w hwm w' hwm' he]
    · intro d hd
      obtain ⟨w, hwm, rfl⟩ := List.mem_map.mp hd
      obtain ⟨c, -, -, -, h4, -⟩ := hw w hwm
      exact h4
    · intro d hd i hi
      obtain ⟨w, hwm, rfl⟩ := List.mem_map.mp hd
      exact (molin w hwm i hi).1
    · intro d hd
      obtain ⟨w, hwm, rfl⟩ := List.mem_map.mp hd
      obtain ⟨c, h1, -⟩ := cell w hwm
      have := (List.getElem?_eq_some_iff.mp h1).1
      rw [loopCells_length, ← h.product] at this
      exact lt_of_lt_of_le this h.engines
    · intro d hd
      obtain ⟨w, hwm, rfl⟩ := List.mem_map.mp hd
      exact (hacc w hwm).1
    · intro d hd
      obtain ⟨w, hwm, rfl⟩ := List.mem_map.mp hd
      obtain ⟨c, -, -, -, -, -, h6, -⟩ := hw w hwm
      exact ⟨w.left, h6, (hacc w hwm).2⟩
    · intro d hd i hi
      obtain ⟨w, hwm, rfl⟩ := List.mem_map.mp hd
      exact (molin w hwm i hi).2
    · intro d hd d' hd' hne i hi
      obtain ⟨w, hwm, rfl⟩ := List.mem_map.mp hd
      obtain ⟨w', hwm', rfl⟩ := List.mem_map.mp hd'
      obtain ⟨c, h1, h2, h3⟩ := cell w hwm
      obtain ⟨c', h1', h2', h3'⟩ := cell w' hwm'
      exact hdis c c' _ _ (cellne h1 h1' hne) h2 h2' i hi
    · intro d hd d' hd' hne s t hs ht hsr htr hsa hta
      obtain ⟨w, hwm, rfl⟩ := List.mem_map.mp hd
      obtain ⟨w', hwm', rfl⟩ := List.mem_map.mp hd'
      obtain ⟨c, h1, h2, h3⟩ := cell w hwm
      obtain ⟨c', h1', h2', h3'⟩ := cell w' hwm'
      have key := C21_no_interaction h.proper.1.reach hT hD (cellne h1 h1' hne) h3 h3' hs ht hsr.1 htr.1 hsa hta
      exact ⟨molW_zero hng fun x hx y hy m => by simp [ind, (key x hx y hy m).1], molW_zero hng fun x hx y hy m => (key x hx y hy m).2⟩
  · refine ⟨fun w hw => List.mem_map_of_mem hw, ?_, ?_, ?_, ?_, htid⟩
    · intro d hd
      obtain ⟨w, hwm, e⟩ := List.mem_map.mp hd
      exact ⟨w, hwm, e⟩
    · intro w hwm
      obtain ⟨c, -, -, -, -, -, h6, h7, h8⟩ := hw w hwm
      refine ⟨by rw [h7, List.length_replicate]; exact h.counters, ?_, ?_, ?_⟩
      · intro last hl
        rw [h6] at hl
        injection hl with hl
        exact hl.le
      · intro g v hg; rw [h8] at hg; cases hg
      · intro hg; exact absurd h8 hg
    · intro w hwm
      obtain ⟨c, -, -, -, -, -, -, -, h8⟩ := hw w hwm
      exact h8
    · intro w hwm x hx
      obtain ⟨c, -, -, -, -, -, -, h7, -⟩ := hw w hwm
      rw [h7] at hx
      exact List.eq_of_mem_replicate hx

/-- The sequential execution is one of the executions. -/
theorem fold_steps (C : Ctx T n S0 ds) {ws0 : List Worker} (hst : Starts S0 ds ws0) {D : Domain.Decomposition} :
    ∀ (l : List (Vec3 Nat × Nat)) {S1 S2 : Sim} {pre ws : List Worker} {temp temp2 : List Counter}, workers D S0 l = .ok ws →
    Inv T n S0 ds ws0 ⟨S1, pre ++ ws⟩ → (∀ w ∈ pre, w.Done) →
    l.foldlM (Sim.domainStep T D (List.replicate S0.counters.length Counter.zero)) (S1, temp) = .ok (S2, temp2) →
    ∃ ws', Steps T ⟨S1, pre ++ ws⟩ ⟨S2, pre ++ ws'⟩ ∧ (∀ w ∈ ws', w.Done) ∧
      temp2 = ws'.foldl (fun a w => List.zipWith Counter.add a w.counters) temp
  | [], S1, S2, pre, ws, temp, temp2, hw, hi, hp, h => by
    simp only [workers] at hw
    injection hw with hw
    subst hw
    simp only [List.foldlM_nil] at h
    have h := Outcome.ok_inj.mp h
    injection h with h1 h2
    subst h1 h2
    exact ⟨[], .refl _, by simp, rfl⟩
  | c :: l, S1, S2, pre, ws, temp, temp2, hw, hi, hp, h => by
    obtain ⟨idxs, active, rest, h1, h2, h3, h4⟩ := workers_cons hw
    rw [List.foldlM_cons] at h
    obtain ⟨⟨S3, temp3⟩, h5, h⟩ := Outcome.bind_eq_ok.mp h
    unfold Sim.domainStep at h5
    rw [h1, Outcome.ok_bind, h2, Outcome.ok_bind] at h5
    rcases h4 with ⟨hi0, rfl⟩ | ⟨hi0, accs, last, hne, h6, h7, rfl⟩
    · rw [hi0] at h5
      simp only [List.isEmpty_nil, if_true] at h5
      have h5 := Outcome.ok_inj.mp h5
      injection h5 with h8 h9
      subst h8 h9
      exact fold_steps C hst l h3 hi hp h
    · rw [if_neg (by simpa using hi0)] at h5
      obtain ⟨⟨S4, priv⟩, h8, h5⟩ := Outcome.bind_eq_ok.mp h5
      simp only at h5
      obtain ⟨temp4, h9, h5⟩ := Outcome.bind_eq_ok.mp h5
      have h5 := Outcome.ok_inj.mp h5
      injection h5 with h10 h11
      subst h10 h11
      have hg := hi.good
      unfold Sim.domainMoves at h8
      have hsz : S1.P.size = S0.P.size := hg.frame.size
      have hnd : S1.numDomains = S0.numDomains := by rw [show S1 = _ from hg.fixed]
      rw [Sim.getMoveSamplers_total (hg.groups C), Outcome.ok_bind, hsz, hnd, hg.accs, h6, Outcome.ok_bind, Sim.vback_total h7, Outcome.ok_bind] at h8
      have hst1 := iterate_steps (T := T) (d := ⟨c.2, idxs, active, accs⟩) pre rest last h8
      have hi2 := hi.steps C hst hst1
      have e1 : ∀ w : Worker, pre ++ w :: rest = (pre ++ [w]) ++ rest := by intro w; simp
      rw [e1] at hi2
      obtain ⟨ws', k1, k2, k3⟩ := fold_steps C hst l h3 hi2 (by
        intro w hw
        rw [List.mem_append, List.mem_singleton] at hw
        rcases hw with hw | rfl
        · exact hp w hw
        · exact ⟨rfl, rfl⟩) h
      refine ⟨⟨⟨c.2, idxs, active, accs⟩, 0, priv, none⟩ :: ws', ?_, ?_, ?_⟩
      · refine hst1.trans ?_
        have e2 : ∀ w : Worker, pre ++ w :: ws' = (pre ++ [w]) ++ ws' := by intro w; simp
        rw [e1, e2]
        exact k1
      · intro w hw
        rcases List.mem_cons.mp hw with rfl | hw
        · exact ⟨rfl, rfl⟩
        · exact k2 w hw
      · rw [k3, List.foldl_cons, Sim.accumulateCounters_ok h9]

/-- Threads are found whenever the domains are. -/
theorem workers_total {D : Domain.Decomposition} {S : Sim} (hg : S.env.samplers ≠ []) (hu : ∀ s ∈ S.env.samplers, Usable (S.P.size / S.numDomains) s) :
    ∀ {l : List (Vec3 Nat × Nat)}, (∀ c ∈ l, ∃ L A, D.getParticlesInRegion c.1 = .ok L ∧ D.getActiveDomainBounds c.1 = .ok A) →
    ∃ ws, workers D S l = .ok ws
  | [], _ => ⟨[], rfl⟩
  | c :: l, h => by
    obtain ⟨L, A, h1, h2⟩ := h c List.mem_cons_self
    obtain ⟨ws, h3⟩ := workers_total hg hu (l := l) fun c hc => h c (List.mem_cons_of_mem _ hc)
    simp only [workers]
    rw [h1, Outcome.ok_bind, h2, Outcome.ok_bind, h3, Outcome.ok_bind]
    by_cases hL : L = []
    · subst hL
      exact ⟨ws, rfl⟩
    · rw [if_neg (by simpa using hL)]
      obtain ⟨accs, a1, a2, a3⟩ := accumulations_total (m := S.P.size / S.numDomains) S.env.samplers 0 hu
      obtain ⟨last, b1, -⟩ := a3 hg
      rw [Sim.getMoveSamplers_total hg, Outcome.ok_bind, a1, Outcome.ok_bind, Sim.vback_total b1]
      exact ⟨_, rfl⟩

/-- How executions begin. -/
theorem begin_ok {S : Sim} {X0 : State} (h : Sim.Live T n S) (hn : S.numDomains ≠ 1) (hb : begin T S = .ok X0) :
    ∃ t D grid origin, S.mts[0]? = some t ∧ X0.S = { S with mts := S.mts.set 0 (t.drop 3) } ∧ Sim.Live T n X0.S ∧
      Domain.decompose X0.S.P T.I X0.S.divs grid origin = .ok (.ok D) ∧ workers D X0.S (loopCells X0.S.divs).zipIdx = .ok X0.workers ∧
      S.attempt T = (Sim.domainLoop T D X0.S).bind fun S' => .ok (.done S') := by
  unfold begin at hb
  obtain ⟨t, h1, hb⟩ := Outcome.bind_eq_ok.mp hb
  simp only at hb
  obtain ⟨grid, h2, hb⟩ := Outcome.bind_eq_ok.mp hb
  obtain ⟨r, h3, hb⟩ := Outcome.bind_eq_ok.mp hb
  cases r with
  | tooNarrow c => cases hb
  | ok D =>
    simp only [start] at hb
    obtain ⟨ws, h4, hb⟩ := Outcome.bind_eq_ok.mp hb
    have hb := Outcome.ok_inj.mp hb
    subst hb
    have ht := vget_eq_ok.mp h1
    refine ⟨t, D, grid, _, ht, rfl, h.tape ht, h3, h4, ?_⟩
    unfold Sim.attempt Sim.sweepDomains
    rw [if_neg hn, h1, Outcome.ok_bind]
    simp only
    rw [h2, Outcome.ok_bind, h3, Outcome.ok_bind]
    rfl

theorem begin_total {S S' : Sim} (h : Sim.Live T n S) (hn : S.numDomains ≠ 1) (ha : S.attempt T = .ok (.done S')) : ∃ X0, begin T S = .ok X0 := by
  unfold Sim.attempt Sim.sweepDomains at ha
  rw [if_neg hn] at ha
  obtain ⟨t, h1, ha⟩ := Outcome.bind_eq_ok.mp ha
  simp only at ha
  obtain ⟨grid, h2, ha⟩ := Outcome.bind_eq_ok.mp ha
  obtain ⟨r, h3, ha⟩ := Outcome.bind_eq_ok.mp ha
  unfold begin
  rw [h1, Outcome.ok_bind]
  simp only
  rw [h2, Outcome.ok_bind, h3, Outcome.ok_bind]
  cases r with
  | tooNarrow c => simp [Sim.afterDecompose] at ha
  | ok D =>
    have ht := vget_eq_ok.mp h1
    have hl := h.tape ht
    obtain ⟨hng, -, hT, h63⟩ := h.narrow.resolve_left hn
    obtain ⟨hmol, -⟩ := C21_molecules h.proper.1.reach hT ⟨h63 0, h63 1, h63 2⟩ h3
    obtain ⟨ws, e⟩ := workers_total (D := D) (S := { S with mts := S.mts.set 0 (t.drop 3) }) h.groups (by
      intro s hs; rw [show ({ S with mts := S.mts.set 0 (t.drop 3) } : Sim).P.size = n from h.proper.1.size]; exact h.usable s hs)
      (l := (loopCells S.divs).zipIdx) (by
        rintro ⟨c, i⟩ hc
        have := List.mem_of_getElem? (List.mem_zipIdx_iff_getElem?.mp hc)
        obtain ⟨d1, d2, d3⟩ := mem_loopCells.mp this
        obtain ⟨L, A, e1, e2, -⟩ := hmol c d1 d2 d3
        exact ⟨L, A, e1, e2⟩)
    simp only [start]
    rw [e]
    exact ⟨_, rfl⟩

theorem add_right_comm (a b c : List Counter) : List.zipWith Counter.add (List.zipWith Counter.add a b) c =
    List.zipWith Counter.add (List.zipWith Counter.add a c) b := by
  apply List.ext_getElem?
  intro i
  simp only [List.getElem?_zipWith]
  cases a[i]? <;> cases b[i]? <;> cases c[i]? <;> simp [Counter.add]
  omega

theorem sum_perm {ws ws' : List Worker} (h : ws.Perm ws') (a : List Counter) :
    ws.foldl (fun a w => List.zipWith Counter.add a w.counters) a = ws'.foldl (fun a w => List.zipWith Counter.add a w.counters) a :=
  h.foldl_eq' (fun x _ y _ z => add_right_comm z x.counters y.counters) a

/-- How many steps are left. -/
def Worker.rank (w : Worker) : Nat := 2 * w.left + if w.pending = none then 1 else 0

def State.rank (X : State) : Nat := (X.workers.map Worker.rank).sum

theorem rank_step (C : Ctx T n S0 ds) {ws : List Worker} {X Y : State} (h : Inv T n S0 ds ws X) (hs : Step T X Y) : Y.rank < X.rank := by
  cases hs with
  | @step S S' pre post w w' hstep =>
    have hlen : (pre ++ w :: post).length = ws.length := h.len
    have hk0 : pre.length < ws.length := by rw [← hlen, List.length_append, List.length_cons]; omega
    obtain ⟨-, hw, -⟩ := h.rel pre.length _ w (List.getElem?_eq_getElem hk0) (by simp)
    suffices hr : w'.rank < w.rank by
      simp only [State.rank, List.map_append, List.map_cons, List.sum_append, List.sum_cons]
      omega
    cases hstep with
    | trial idle more he =>
      have : w'.left = w.left ∧ w'.pending ≠ none := by
        unfold trial at he
        obtain ⟨_, -, he⟩ := Outcome.bind_eq_ok.mp he
        obtain ⟨_, -, he⟩ := Outcome.bind_eq_ok.mp he
        obtain ⟨_, -, he⟩ := Outcome.bind_eq_ok.mp he
        obtain ⟨_, -, he⟩ := Outcome.bind_eq_ok.mp he
        obtain ⟨_, -, he⟩ := Outcome.bind_eq_ok.mp he
        obtain ⟨⟨_, _⟩, -, he⟩ := Outcome.bind_eq_ok.mp he
        obtain ⟨_, -, he⟩ := Outcome.bind_eq_ok.mp he
        obtain ⟨⟨_, _, _⟩, -, he⟩ := Outcome.bind_eq_ok.mp he
        obtain ⟨⟨_, _⟩, -, he⟩ := Outcome.bind_eq_ok.mp he
        have he := Outcome.ok_inj.mp he
        injection he with _ he
        subst he
        exact ⟨rfl, by simp⟩
      unfold Worker.rank
      rw [this.1, if_neg this.2, if_pos idle]
      omega
    | finish busy he =>
      have hpos := hw.busy (by rw [busy]; simp)
      have : w'.left = w.left - 1 ∧ w'.pending = none := by
        unfold finish at he
        obtain ⟨⟨_, _⟩, -, he⟩ := Outcome.bind_eq_ok.mp he
        have he := Outcome.ok_inj.mp he
        injection he with _ he
        subst he
        exact ⟨rfl, rfl⟩
      unfold Worker.rank
      rw [this.1, if_pos this.2, if_neg (by rw [busy]; simp)]
      omega

end Rampack.Par
