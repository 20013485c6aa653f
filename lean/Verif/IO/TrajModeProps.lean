import Verif.IO.TrajModeLemmas
import Verif.Param.IndepLemmas
/-
Theorems on the trajectory mode (C108).
-/
namespace Rampack

open Rampack.Spec Rampack.Traj

namespace TrajMode

variable {A : Arith} {p0 p : AnyPlayer} {N step fuel : Nat} {l : List Snapshot}

theorem got_start : Got A p0 N step l p0 0 := ⟨[], [], rfl, rfl⟩

theorem storeTrajectory_ok (hp : Presents A p0 N step l) (hf : Fits64 N step l.length) (hl : ∀ x ∈ l, Recordable A N x)
    (hfuel : l.length < fuel) {input name : String} (hn : name ≠ input) (hg : Got A p0 N step l p 0) :
    ∃ r, storeTrajectory A N fuel input name p = .ok r ∧ r.1.1 = name ∧ Got A p0 N step l r.2 0 ∧
      ∃ q, Player.open' r.1.2 = .ok q ∧ Presents A (.file q) N step (l.map (readBack A)) := by
  obtain ⟨r, q, e1, -, e2, e3, -⟩ := C30_round_trip hf hl
  obtain ⟨r0, f1, e1⟩ := Outcome.bind_eq_ok.mp e1
  obtain ⟨r1, f2, e1⟩ := Outcome.bind_eq_ok.mp e1
  rw [Outcome.pure_eq, Outcome.ok_inj] at e1
  obtain ⟨h1, h2, -⟩ := got_reports hp hg
  have hr0 : r0.cycleStep = step ∧ r0.numSnapshots = 0 := by
    unfold Recorder.make Recorder.create at f1
    obtain ⟨_, _, f1⟩ := Outcome.bind_eq_ok.mp f1
    obtain ⟨_, _, f1⟩ := Outcome.bind_eq_ok.mp f1
    rw [if_neg (by simp)] at f1
    obtain ⟨_, _, f1⟩ := Outcome.bind_eq_ok.mp f1
    rw [Outcome.pure_eq, Outcome.ok_inj] at f1
    rw [← f1]
    exact ⟨rfl, rfl⟩
  obtain ⟨p', hg', e⟩ := replay_eq hp (fun r cycle x => Recorder.recordSnapshot A r x cycle) fuel p 0 r0 hg (Nat.zero_le _) (by omega)
  rw [List.drop_zero, record_fold l 0 r0 hr0.1 hr0.2 (by rw [Nat.zero_add]; exact hf.cycles), f2, Outcome.ok_bind] at e
  obtain ⟨p'', e4, hg''⟩ := (got_visit hp hg' .reset).1 none 0 rfl
  have e5 := perform_reset e4
  refine ⟨((name, r1.close.stream.bytes), p''), ?_, rfl, hg'', q, by rw [e1]; exact e2, e3⟩
  unfold storeTrajectory
  rw [decide_eq_false hn, h1, h2, f1]
  simp only [Bool.not_false, Outcome.require_true, Outcome.ok_bind]
  rw [e]
  simp only [Outcome.ok_bind]
  rw [e5]
  rfl

theorem storeAll_ok (hp : Presents A p0 N step l) (hf : Fits64 N step l.length) (hl : ∀ x ∈ l, Recordable A N x)
    (hfuel : l.length < fuel) {input : String} : ∀ (names : List String) (p : AnyPlayer), input ∉ names → Got A p0 N step l p 0 →
    ∃ r, storeAll A N fuel input names p = .ok r ∧ r.1.map Prod.fst = names ∧ Got A p0 N step l r.2 0 ∧
      ∀ f ∈ r.1, ∃ q, Player.open' f.2 = .ok q ∧ Presents A (.file q) N step (l.map (readBack A))
  | [], p, _, hg => ⟨([], p), rfl, rfl, hg, fun f hf => nomatch hf⟩
  | name :: names, p, hn, hg => by
    rw [List.mem_cons, not_or] at hn
    obtain ⟨r, e1, e2, hg1, e3⟩ := storeTrajectory_ok hp hf hl hfuel (fun h => hn.1 h.symm) hg
    obtain ⟨rs, e4, e5, hg2, e6⟩ := storeAll_ok hp hf hl hfuel names r.2 hn.2 hg1
    refine ⟨(r.1 :: rs.1, rs.2), ?_, ?_, hg2, ?_⟩
    · rw [storeAll, e1, Outcome.ok_bind, e4, Outcome.ok_bind]
      rfl
    · rw [List.map_cons, e2, e5]
    · intro f hf
      rcases List.mem_cons.mp hf with rfl | hf
      · exact e3
      · exact e6 f hf

theorem observe_fold {e : Environment} {total : Nat} {temp pres : Nat → ℝ} : ∀ (l : List Snapshot) (k : Nat) (acc : List Record),
    (∀ i < l.length, e.temperature.value ((k + i + 1) * step) total = .ok (temp ((k + i + 1) * step)) ∧
      pressureAt e ((k + i + 1) * step) total = .ok (pres ((k + i + 1) * step))) →
    foldActs (observe e total) acc (numberedFrom step k l) =
      .ok (acc ++ (numberedFrom step k l).map fun c => ⟨c.1, c.2, temp c.1, pres c.1⟩)
  | [], k, acc, _ => by rw [numberedFrom, List.map_nil, List.append_nil]; rfl
  | x :: l, k, acc, h => by
    obtain ⟨h1, h2⟩ := h 0 (Nat.succ_pos _)
    rw [Nat.add_zero] at h1 h2
    rw [numberedFrom, foldActs, observe, h1, Outcome.ok_bind, h2, Outcome.ok_bind, Outcome.pure_eq, Outcome.ok_bind,
      observe_fold l (k + 1) _ (fun i hi => by
        have := h (i + 1) (Nat.succ_lt_succ hi)
        rw [show k + (i + 1) + 1 = k + 1 + i + 1 by omega] at this
        exact this), List.map_cons, List.append_assoc]
    rfl

theorem average_fold : ∀ (L : List (Nat × Snapshot)) (acc : List Snapshot),
    foldActs (fun l _ x => .ok (l ++ [x])) acc L = .ok (acc ++ L.map Prod.snd)
  | [], acc => by rw [List.map_nil, List.append_nil]; rfl
  | c :: L, acc => by
    rw [foldActs, Outcome.ok_bind, average_fold L, List.map_cons, List.append_assoc]
    rfl

theorem startingCycle_eq {start : Nat} (hs : 0 < step) (h1 : step ≤ start) (h2 : start < l.length * step) :
    startingCycle start step % step = 0 ∧ 0 < startingCycle start step ∧ startingCycle start step / step ≤ l.length ∧
      1 ≤ startingCycle start step / step ∧ ∀ i, start ≤ (i + 1) * step ↔ startingCycle start step / step - 1 ≤ i := by
  have key : ∃ n, startingCycle start step = n * step ∧ start ≤ n * step ∧ n * step < start + step := by
    unfold startingCycle
    split
    · rename_i h
      refine ⟨start / step, ?_, ?_, ?_⟩
      · exact (Nat.div_mul_cancel (Nat.dvd_of_mod_eq_zero h)).symm
      · exact (Nat.div_mul_cancel (Nat.dvd_of_mod_eq_zero h)).symm.le
      · rw [Nat.div_mul_cancel (Nat.dvd_of_mod_eq_zero h)]; omega
    · rename_i h
      refine ⟨start / step + 1, rfl, ?_, ?_⟩
      · have := Nat.div_add_mod start step
        have h3 := Nat.mod_lt start hs
        rw [Nat.add_mul, Nat.one_mul, Nat.mul_comm]
        omega
      · have := Nat.div_add_mod start step
        have h3 : 0 < start % step := Nat.pos_of_ne_zero h
        rw [Nat.add_mul, Nat.one_mul, Nat.mul_comm]
        omega
  obtain ⟨n, e, h3, h4⟩ := key
  have hn : 1 ≤ n := by
    by_contra hc
    have : n = 0 := by omega
    subst this
    omega
  rw [e, Nat.mul_mod_left, Nat.mul_div_cancel _ hs]
  refine ⟨rfl, by omega, ?_, hn, fun i => ⟨fun h => ?_, fun h => ?_⟩⟩
  · by_contra hc
    have : (l.length + 1) * step ≤ n * step := Nat.mul_le_mul_right step (by omega)
    rw [Nat.add_mul] at this
    omega
  · by_contra hc
    have : (i + 1 + 1) * step ≤ n * step := Nat.mul_le_mul_right step (by omega)
    rw [Nat.add_mul (i + 1)] at this
    omega
  · have : n * step ≤ (i + 1) * step := Nat.mul_le_mul_right step (by omega)
    omega

theorem average_ok (hp : Presents A p0 N step l) (hs : 0 < step) (hfuel : l.length < fuel) {cur start : Nat}
    (hg : Got A p0 N step l p cur) (h1 : step ≤ start) (h2 : start < l.length * step) :
    ∃ r, average A N fuel p (some (some start)) = .ok r ∧ (∃ cur', Got A p0 N step l r.2 cur') ∧
      r.1 = some (((numbered step l).filter fun c => decide (start ≤ c.1)).map Prod.snd) := by
  obtain ⟨-, g2, g3⟩ := got_reports hp hg
  obtain ⟨s1, s2, s3, s4, s5⟩ := startingCycle_eq (l := l) hs h1 h2
  have hlt : startingCycle start step / step - 1 < l.length := by omega
  have hv : visit l step cur (.jump (startingCycle start step)) = some (l[startingCycle start step / step - 1]?, startingCycle start step / step) := by
    rw [visit, if_pos ⟨s1, s2, s3⟩]
  obtain ⟨p1, e1, hg1⟩ := (got_visit hp hg _).1 _ _ hv
  obtain ⟨y, e2, e3⟩ := perform_jump e1
  rw [List.getElem?_eq_getElem hlt, Option.some_inj] at e2
  obtain ⟨p', hg', e⟩ := replay_eq hp (fun l _ x => (.ok (l ++ [x]) : Outcome (List Snapshot))) fuel p1 _ [y] hg1 s3 (by omega)
  rw [average_fold, Outcome.ok_bind, numberedFrom_snd] at e
  refine ⟨(some (y :: l.drop (startingCycle start step / step)), p'), ?_, ⟨_, hg'⟩, ?_⟩
  · rw [average, g2, g3, decide_eq_false (by omega), decide_eq_false (by omega)]
    simp only [Bool.not_false, Outcome.require_true, Outcome.ok_bind]
    rw [if_neg (by omega), e3, Outcome.ok_bind, e]
    rfl
  · rw [numbered_eq, filter_ge _ s5 l 0, Nat.sub_zero, List.drop_eq_getElem_cons hlt, e2,
      show startingCycle start step / step - 1 + 1 = startingCycle start step / step by omega]

theorem writeSnapshots_ok {input : String} {c : Nat} {x : Snapshot} : ∀ {names : List String}, input ∉ names →
    writeSnapshots input c x names = .ok (names.map fun n => (n, c, x))
  | [], _ => rfl
  | n :: names, h => by
    rw [List.mem_cons, not_or] at h
    rw [writeSnapshots, decide_eq_false (fun e => h.1 e.symm), writeSnapshots_ok h.2]
    rfl

theorem truncated_ok (hp : Presents A p N step l) (hs : 0 < step) {t : Option Nat}
    (h : ∀ total, t = some total → total ≤ l.length * step ∧ step ∣ total) :
    ∃ q, truncated p t = .ok q ∧ Presents A q N step (keptFrames step l t) ∧ (keptFrames step l t).length ≤ l.length ∧
      ∀ x ∈ keptFrames step l t, x ∈ l := by
  cases t with
  | none => exact ⟨p, rfl, hp, le_refl _, fun x hx => hx⟩
  | some total =>
    obtain ⟨h1, h2⟩ := h total rfl
    obtain ⟨q, e1, e2⟩ := C33_truncated hp hs h1 (Nat.mod_eq_zero_of_dvd h2)
    refine ⟨q, ?_, ?_, ?_, ?_⟩
    · rw [truncated, hp.total, hp.cycleStep, decide_eq_true h1, Outcome.require_true, Outcome.ok_bind, if_neg (by omega),
        decide_eq_true (Nat.mod_eq_zero_of_dvd h2), Outcome.require_true, Outcome.ok_bind, e1]
    · rw [keptFrames_eq hs h2]; exact e2
    · rw [keptFrames_eq hs h2, List.length_take]; omega
    · rw [keptFrames_eq hs h2]; exact fun x hx => List.mem_of_mem_take hx

theorem storeTrajectory_inv (hp : Presents A p0 N step l) (hfuel : l.length < fuel) {input name : String} (hg : Got A p0 N step l p 0)
    {r : (String × List Byte) × AnyPlayer} (h : storeTrajectory A N fuel input name p = .ok r) : name ≠ input ∧ Got A p0 N step l r.2 0 := by
  unfold storeTrajectory at h
  obtain ⟨_, h1, h⟩ := Outcome.bind_eq_ok.mp h
  obtain ⟨r0, h2, h⟩ := Outcome.bind_eq_ok.mp h
  obtain ⟨rp, h3, h⟩ := Outcome.bind_eq_ok.mp h
  obtain ⟨p2, h4, h⟩ := Outcome.bind_eq_ok.mp h
  rw [Outcome.pure_eq, Outcome.ok_inj] at h
  obtain ⟨p', hg', e⟩ := replay_eq hp (fun r cycle x => Recorder.recordSnapshot A r x cycle) fuel p 0 r0 hg (Nat.zero_le _) (by omega)
  rw [e] at h3
  obtain ⟨s, _, h3⟩ := Outcome.bind_eq_ok.mp h3
  rw [Outcome.ok_inj] at h3
  obtain ⟨p'', e4, hg''⟩ := (got_visit hp hg' .reset).1 none 0 rfl
  have e5 := perform_reset e4
  rw [← h3] at h4
  have h6 : p2 = p'' := Outcome.ok_inj.mp (h4.symm.trans e5)
  rw [← h, h6]
  exact ⟨by simpa using Outcome.require_eq_ok.mp h1, hg''⟩

theorem storeAll_inv (hp : Presents A p0 N step l) (hfuel : l.length < fuel) {input : String} : ∀ (names : List String) (p : AnyPlayer)
    (r : List (String × List Byte) × AnyPlayer), Got A p0 N step l p 0 → storeAll A N fuel input names p = .ok r →
    input ∉ names ∧ Got A p0 N step l r.2 0
  | [], p, r, hg, h => by
    rw [storeAll, Outcome.ok_inj] at h
    rw [← h]
    exact ⟨by simp, hg⟩
  | name :: names, p, r, hg, h => by
    rw [storeAll] at h
    obtain ⟨r1, h1, h⟩ := Outcome.bind_eq_ok.mp h
    obtain ⟨r2, h2, h⟩ := Outcome.bind_eq_ok.mp h
    rw [Outcome.pure_eq, Outcome.ok_inj] at h
    obtain ⟨g1, g2⟩ := storeTrajectory_inv hp hfuel hg h1
    obtain ⟨g3, g4⟩ := storeAll_inv hp hfuel names r1.2 r2 g2 h2
    rw [← h]
    refine ⟨?_, g4⟩
    rw [List.mem_cons, not_or]
    exact ⟨fun e => g1 e.symm, g3⟩

theorem observeAll_inv (hp : Presents A p0 N step l) (hfuel : l.length < fuel) {e : Environment} {w : Bool}
    {r : Option (List Record) × AnyPlayer} (hg : Got A p0 N step l p 0) (h : observeAll A N fuel e w p = .ok r) :
    ∃ cur, Got A p0 N step l r.2 cur := by
  unfold observeAll at h
  split at h
  · obtain ⟨rp, h1, h⟩ := Outcome.bind_eq_ok.mp h
    rw [Outcome.pure_eq, Outcome.ok_inj] at h
    obtain ⟨p', hg', e'⟩ := replay_eq hp (observe e p.totalCycles) fuel p 0 [] hg (Nat.zero_le _) (by omega)
    rw [e'] at h1
    obtain ⟨s, _, h1⟩ := Outcome.bind_eq_ok.mp h1
    rw [Outcome.ok_inj] at h1
    rw [← h, ← h1]
    exact ⟨_, hg'⟩
  · rw [Outcome.ok_inj] at h
    rw [← h]
    exact ⟨_, hg⟩

theorem average_inv (hp : Presents A p0 N step l) (hs : 0 < step) (hfuel : l.length < fuel) {cur : Nat} {a : Option (Option Nat)}
    {r : Option (List Snapshot) × AnyPlayer} (hg : Got A p0 N step l p cur) (h : average A N fuel p a = .ok r) :
    (∀ b, a = some b → ∃ start, b = some start ∧ step ≤ start ∧ start < l.length * step) ∧ ∃ cur, Got A p0 N step l r.2 cur := by
  cases a with
  | none =>
    rw [average, Outcome.ok_inj] at h
    rw [← h]
    exact ⟨fun b hb => (nomatch hb), _, hg⟩
  | some b =>
    cases b with
    | none => cases h
    | some start =>
      obtain ⟨-, g2, g3⟩ := got_reports hp hg
      have h' := h
      rw [average, g2, g3] at h'
      obtain ⟨_, h1, h'⟩ := Outcome.bind_eq_ok.mp h'
      obtain ⟨_, h2, -⟩ := Outcome.bind_eq_ok.mp h'
      have k1 : start < l.length * step := by simpa using Outcome.require_eq_ok.mp h1
      have k2 : step ≤ start := by simpa using Outcome.require_eq_ok.mp h2
      obtain ⟨r', f1, f2, -⟩ := average_ok hp hs hfuel hg k2 k1
      have : r = r' := Outcome.ok_inj.mp (h.symm.trans f1)
      rw [this]
      refine ⟨fun b hb => ⟨start, ?_, k2, k1⟩, f2⟩
      rw [Option.some_inj] at hb
      exact hb.symm

theorem writeSnapshots_inv {input : String} {c : Nat} {x : Snapshot} : ∀ {names : List String} {s : List (String × Nat × Snapshot)},
    writeSnapshots input c x names = .ok s → input ∉ names
  | [], s, _ => by simp
  | n :: names, s, h => by
    rw [writeSnapshots] at h
    obtain ⟨_, h1, h⟩ := Outcome.bind_eq_ok.mp h
    obtain ⟨s', h2, h⟩ := Outcome.bind_eq_ok.mp h
    have k1 : n ≠ input := by simpa using Outcome.require_eq_ok.mp h1
    rw [List.mem_cons, not_or]
    exact ⟨fun e => k1 e.symm, writeSnapshots_inv h2⟩

theorem lastOf_inv (hp : Presents A p0 N step l) {cur : Nat} {input : String} {names : List String} {s : List (String × Nat × Snapshot)}
    (hg : Got A p0 N step l p cur) (h : lastOf A N input p names = .ok s) : input ∉ names ∧ (names ≠ [] → l ≠ []) := by
  cases names with
  | nil => exact ⟨by simp, fun h => absurd rfl h⟩
  | cons n ns =>
    rw [lastOf] at h
    obtain ⟨r, h1, h⟩ := Outcome.bind_eq_ok.mp h
    refine ⟨writeSnapshots_inv h, fun _ hl => ?_⟩
    obtain ⟨m, hm⟩ := (got_visit hp hg .last).2 (by rw [hl]; rfl)
    simp only [perform] at hm
    rw [h1] at hm
    cases hm

/-- Records of observables hold values of parameters. -/
theorem observe_values {e : Environment} {total size : Nat} : ∀ (fuel : Nat) (p : AnyPlayer) (acc : List Record) (r : List Record × AnyPlayer),
    (∀ x ∈ acc, e.temperature.value x.cycle total = .ok x.temperature ∧ pressureAt e x.cycle total = .ok x.pressure) →
    replay A size (observe e total) fuel p acc = .ok r →
    ∀ x ∈ r.1, e.temperature.value x.cycle total = .ok x.temperature ∧ pressureAt e x.cycle total = .ok x.pressure
  | 0, p, acc, r, _, h => by cases h
  | fuel + 1, p, acc, r, ha, h => by
    rw [replay] at h
    split at h
    · obtain ⟨q, _, h⟩ := Outcome.bind_eq_ok.mp h
      obtain ⟨acc', h2, h⟩ := Outcome.bind_eq_ok.mp h
      refine observe_values fuel q.2 acc' r ?_ h
      rw [observe] at h2
      obtain ⟨t, h3, h2⟩ := Outcome.bind_eq_ok.mp h2
      obtain ⟨pr, h4, h2⟩ := Outcome.bind_eq_ok.mp h2
      rw [Outcome.pure_eq, Outcome.ok_inj] at h2
      intro x hx
      rw [← h2] at hx
      rcases List.mem_append.mp hx with hx | hx
      · exact ha x hx
      · rw [List.mem_singleton] at hx
        subst hx
        exact ⟨h3, h4⟩
    · rw [Outcome.ok_inj] at h
      rw [← h]
      exact ha

end TrajMode

open TrajMode

/-- C108: for every recorded trajectory, whatever player presents it, and all acceptable options together: stored trajectories are played
back as the snapshots left by truncation; observables are calculated for each of them once, in order, with its cycle number and the
temperature and pressure of that cycle; averages are taken over exactly those from the given cycle on; the last of them is written with its
cycle number. -/
theorem C108_replay {A : Arith} {p : AnyPlayer} {N step fuel : Nat} {frames : List Snapshot} {e : Environment} {input : String}
    {o : Options} {temp pres : Nat → ℝ} (hp : Presents A p N step frames) (hs : 0 < step) (ho : Acceptable step frames input o)
    (hfuel : frames.length < fuel) (hr : o.trajectories ≠ [] → Fits64 N step frames.length ∧ ∀ x ∈ frames, Recordable A N x)
    (ht : o.observables = true → ∀ c ∈ numbered step (keptFrames step frames o.truncate),
      e.temperature.value c.1 ((keptFrames step frames o.truncate).length * step) = .ok (temp c.1) ∧
      ∀ q, e.pressure = some q → q.value c.1 ((keptFrames step frames o.truncate).length * step) = .ok (pres c.1)) :
    ∃ out, main A N fuel e input o p = .ok out ∧
      out.trajectories.map Prod.fst = o.trajectories ∧
      (∀ f ∈ out.trajectories, ∃ q, Player.open' f.2 = .ok q ∧
        Presents A (.file q) N step ((keptFrames step frames o.truncate).map (readBack A))) ∧
      out.records = (if o.observables then some ((numbered step (keptFrames step frames o.truncate)).map fun c =>
        ⟨c.1, c.2, temp c.1, if e.pressure.isSome then pres c.1 else 0⟩) else none) ∧
      (o.averaging = none → out.averaged = none) ∧
      (∀ start, o.averaging = some (some start) →
        out.averaged = some (((numbered step (keptFrames step frames o.truncate)).filter fun c => decide (start ≤ c.1)).map Prod.snd)) ∧
      (o.snapshots = [] → out.snapshots = []) ∧
      ∀ x, (keptFrames step frames o.truncate).getLast? = some x →
        out.snapshots = o.snapshots.map fun name => (name, (keptFrames step frames o.truncate).length * step, x) := by
  obtain ⟨q, e1, hq, hlen, hmem⟩ := truncated_ok hp hs ho.truncate
  have hlast := ho.last
  have hav := ho.averaging
  generalize keptFrames step frames o.truncate = l at *
  have hfl : l.length < fuel := lt_of_le_of_lt hlen hfuel
  -- storing
  have hstore : ∃ t, storeAll A N fuel input o.trajectories q = .ok t ∧ t.1.map Prod.fst = o.trajectories ∧ Got A q N step l t.2 0 ∧
      ∀ f ∈ t.1, ∃ q', Player.open' f.2 = .ok q' ∧ Presents A (.file q') N step (l.map (readBack A)) := by
    cases hnames : o.trajectories with
    | nil => exact ⟨([], q), rfl, rfl, got_start, fun f hf => nomatch hf⟩
    | cons n ns =>
      obtain ⟨hf, hrec⟩ := hr (by rw [hnames]; exact List.cons_ne_nil _ _)
      rw [← hnames]
      refine storeAll_ok hq ⟨hf.1, hf.2, hf.3, ?_, hf.5, ?_⟩ (fun x hx => hrec x (hmem x hx)) hfl o.trajectories q ho.trajectories got_start
      · have := Nat.mul_le_mul_right (frameLength N) hlen
        have h4 := hf.4
        omega
      · have := Nat.mul_le_mul_right step hlen
        have h6 := hf.6
        omega
  obtain ⟨t, e2, e3, hgt, e4⟩ := hstore
  -- observables
  have hobs : ∃ r, observeAll A N fuel e o.observables t.2 = .ok r ∧ (∃ cur, Got A q N step l r.2 cur) ∧
      r.1 = (if o.observables then some ((numbered step l).map fun c =>
        ⟨c.1, c.2, temp c.1, if e.pressure.isSome then pres c.1 else 0⟩) else none) := by
    by_cases hw : o.observables = true
    · obtain ⟨p', hg', e5⟩ := replay_eq hq (observe e t.2.totalCycles) fuel t.2 0 [] hgt (Nat.zero_le _) (by omega)
      have htot := (got_reports hq hgt).2.2
      rw [List.drop_zero, htot, observe_fold (temp := temp) (pres := fun c => if e.pressure.isSome then pres c else 0) l 0 [], Outcome.ok_bind,
        List.nil_append] at e5
      · refine ⟨_, by rw [observeAll, if_pos hw, htot, e5]; rfl, ⟨_, hg'⟩, ?_⟩
        rw [if_pos hw, numbered_eq]
      · intro i hi
        have hmemc : ((0 + i + 1) * step, l[i]) ∈ numbered step l := by
          rw [numbered, List.mem_iff_getElem]
          refine ⟨i, by simpa using hi, ?_⟩
          rw [List.getElem_zipWith, List.getElem_range, Nat.zero_add]
        obtain ⟨h1, h2⟩ := ht hw _ hmemc
        refine ⟨h1, ?_⟩
        unfold pressureAt
        cases hpr : e.pressure with
        | none => rw [if_neg (by simp)]
        | some qp => rw [if_pos (by simp)]; exact h2 qp hpr
    · refine ⟨(none, t.2), by rw [observeAll, if_neg hw], ⟨0, hgt⟩, by rw [if_neg hw]⟩
  obtain ⟨r, e5, ⟨cur, hgr⟩, e6⟩ := hobs
  -- averages
  have havg : ∃ a, average A N fuel r.2 o.averaging = .ok a ∧ (∃ cur, Got A q N step l a.2 cur) ∧ (o.averaging = none → a.1 = none) ∧
      ∀ start, o.averaging = some (some start) → a.1 = some (((numbered step l).filter fun c => decide (start ≤ c.1)).map Prod.snd) := by
    cases ha : o.averaging with
    | none => exact ⟨(none, r.2), rfl, ⟨_, hgr⟩, fun _ => rfl, fun s hs => nomatch hs⟩
    | some a =>
      obtain ⟨start, rfl, h1, h2⟩ := hav a ha
      obtain ⟨a, g1, g2, g3⟩ := average_ok hq hs hfl hgr h1 h2
      refine ⟨a, g1, g2, fun h => (nomatch h), fun s hs => ?_⟩
      rw [Option.some_inj, Option.some_inj] at hs
      subst hs
      exact g3
  obtain ⟨a, e7, ⟨cur', hga⟩, e8, e9⟩ := havg
  -- the last snapshot
  have hsnap : ∃ s, lastOf A N input a.2 o.snapshots = .ok s ∧ (o.snapshots = [] → s = []) ∧ ∀ x, l.getLast? = some x →
      s = o.snapshots.map fun name => (name, l.length * step, x) := by
    cases hn : o.snapshots with
    | nil => exact ⟨[], rfl, fun _ => rfl, fun x _ => rfl⟩
    | cons n ns =>
      have hne := hlast (by rw [hn]; exact List.cons_ne_nil _ _)
      have hpos : 0 < l.length := List.length_pos_iff.mpr hne
      have hv : visit l step cur' .last = some (l[l.length - 1]?, l.length) := by rw [visit, if_pos hpos]
      obtain ⟨p1, f1, hg1⟩ := (got_visit hq hga .last).1 _ _ hv
      obtain ⟨y, f2, f3⟩ := perform_last f1
      have hni := ho.snapshots
      rw [hn] at hni
      refine ⟨(n :: ns).map fun name => (name, p1.currentCycles, y), ?_, fun h => (nomatch h), fun x hx => ?_⟩
      · rw [lastOf, f3, Outcome.ok_bind, writeSnapshots_ok hni]
      · rw [List.getLast?_eq_getElem?, f2, Option.some_inj] at hx
        rw [(got_state hq hg1).1, hx]
  obtain ⟨s, e10, e11, e12⟩ := hsnap
  refine ⟨⟨t.1, r.1, a.1, s⟩, ?_, e3, e4, e6, e8, e9, e11, e12⟩
  rw [main, e1, Outcome.ok_bind, e2, Outcome.ok_bind, e5, Outcome.ok_bind, e7, Outcome.ok_bind, e10, Outcome.ok_bind]
  rfl

/-- A trajectory of a hundred snapshots of two molecules, shortened to the first 60, stored twice, with observables, averages from cycle
12345 on and the last snapshot. -/
example : ∃ p, Presents demoArith p 2 1000 (((List.range 100).map fun n => demoSnapshot (BitVec.ofNat 64 n)).map (readBack demoArith)) ∧
    Acceptable 1000 (((List.range 100).map fun n => demoSnapshot (BitVec.ofNat 64 n)).map (readBack demoArith)) "a.ramtrj"
      ⟨some 60000, ["b.ramtrj", "c.ramtrj"], true, some (some 12345), ["d.ramsnap"]⟩ ∧
    Fits64 2 1000 (((List.range 100).map fun n => demoSnapshot (BitVec.ofNat 64 n)).map (readBack demoArith)).length ∧
    ∀ x ∈ ((List.range 100).map fun n => demoSnapshot (BitVec.ofNat 64 n)).map (readBack demoArith), Recordable demoArith 2 x := by
  have hf : Fits64 2 1000 ((List.range 100).map fun n => demoSnapshot (BitVec.ofNat 64 n)).length := by
    constructor <;> simp [headerLength, frameLength]
  have hl : ∀ x ∈ (List.range 100).map fun n => demoSnapshot (BitVec.ofNat 64 n), Recordable demoArith 2 x := by
    intro x hx
    obtain ⟨n, -, rfl⟩ := List.mem_map.mp hx
    exact demo_recordable _
  obtain ⟨r, p, -, -, -, h, -⟩ := C30_round_trip hf hl
  have hk : (keptFrames 1000 (((List.range 100).map fun n => demoSnapshot (BitVec.ofNat 64 n)).map (readBack demoArith)) (some 60000)).length = 60 := by
    rw [keptFrames_eq (by norm_num) (by norm_num)]
    simp
  refine ⟨_, h, ⟨?_, by simp, by simp, ?_, ?_⟩, by simpa using hf, ?_⟩
  · intro total ht
    cases ht
    exact ⟨by simp, by norm_num⟩
  · intro _ h0
    have h0 : keptFrames 1000 (((List.range 100).map fun n => demoSnapshot (BitVec.ofNat 64 n)).map (readBack demoArith)) (some 60000) = [] := h0
    rw [h0] at hk
    simp at hk
  · intro a ha
    cases ha
    refine ⟨12345, rfl, by norm_num, ?_⟩
    show 12345 < (keptFrames 1000 _ (some 60000)).length * 1000
    rw [hk]
    norm_num
  · intro x hx
    obtain ⟨y, hy, rfl⟩ := List.mem_map.mp hx
    obtain ⟨n, -, rfl⟩ := List.mem_map.mp hy
    exact ⟨rfl, rfl, rfl, fun s _ => ⟨s.rot.x, rfl⟩⟩

/-- C108: options which are carried out are acceptable: truncation to a recorded cycle, outputs other than the input, averaging
from a cycle of the trajectory on, the last snapshot only of trajectories which are not empty. Others are refused. -/
theorem C108_accepted {A : Arith} {p : AnyPlayer} {N step fuel : Nat} {frames : List Snapshot} {e : Environment} {input : String}
    {o : Options} {out : Output} (hp : Presents A p N step frames) (hs : 0 < step) (hfuel : frames.length < fuel)
    (h : main A N fuel e input o p = .ok out) : Acceptable step frames input o := by
  rw [main] at h
  obtain ⟨q, h1, h⟩ := Outcome.bind_eq_ok.mp h
  obtain ⟨t, h2, h⟩ := Outcome.bind_eq_ok.mp h
  obtain ⟨r, h3, h⟩ := Outcome.bind_eq_ok.mp h
  obtain ⟨a, h4, h⟩ := Outcome.bind_eq_ok.mp h
  obtain ⟨s, h5, h⟩ := Outcome.bind_eq_ok.mp h
  have htr : ∀ total, o.truncate = some total → total ≤ frames.length * step ∧ step ∣ total := by
    intro total ht
    rw [ht, truncated, hp.total, hp.cycleStep] at h1
    obtain ⟨_, g1, h1⟩ := Outcome.bind_eq_ok.mp h1
    rw [if_neg (by omega)] at h1
    obtain ⟨_, g2, h1⟩ := Outcome.bind_eq_ok.mp h1
    exact ⟨by simpa using Outcome.require_eq_ok.mp g1, Nat.dvd_of_mod_eq_zero (by simpa using Outcome.require_eq_ok.mp g2)⟩
  obtain ⟨q', f1, hq, hlen, -⟩ := truncated_ok hp hs htr
  have : q = q' := Outcome.ok_inj.mp (h1.symm.trans f1)
  subst this
  have hfl : (keptFrames step frames o.truncate).length < fuel := lt_of_le_of_lt hlen hfuel
  obtain ⟨k1, hg1⟩ := storeAll_inv hq hfl _ _ _ got_start h2
  obtain ⟨c2, hg2⟩ := observeAll_inv hq hfl hg1 h3
  obtain ⟨k3, c3, hg3⟩ := average_inv hq hs hfl hg2 h4
  obtain ⟨k4, k5⟩ := lastOf_inv hq hg3 h5
  exact ⟨htr, k1, k4, k5, k3⟩

/-- C108: temperature and pressure shown with a replayed snapshot are the ones which the parameters have in the cycle of the snapshot,
whichever number of cycles the simulation was planned for, also if it was interrupted, and whichever truncation. -/
theorem C108_parameters {A : Arith} {p : AnyPlayer} {N fuel : Nat} {e : Environment} {input : String} {o : Options} {out : Output}
    {l : List Record} (h : main A N fuel e input o p = .ok out) (hl : out.records = some l) :
    ∀ x ∈ l, (∀ v, HasValue e.temperature x.cycle v ↔ v = x.temperature) ∧
      (∀ q, e.pressure = some q → ∀ v, HasValue q x.cycle v ↔ v = x.pressure) ∧ (e.pressure = none → x.pressure = 0) := by
  rw [main] at h
  obtain ⟨q, h1, h⟩ := Outcome.bind_eq_ok.mp h
  obtain ⟨t, h2, h⟩ := Outcome.bind_eq_ok.mp h
  obtain ⟨r, h3, h⟩ := Outcome.bind_eq_ok.mp h
  obtain ⟨a, h4, h⟩ := Outcome.bind_eq_ok.mp h
  obtain ⟨s, h5, h⟩ := Outcome.bind_eq_ok.mp h
  rw [Outcome.pure_eq, Outcome.ok_inj] at h
  rw [← h] at hl
  unfold observeAll at h3
  split at h3
  · obtain ⟨rp, h6, h3⟩ := Outcome.bind_eq_ok.mp h3
    rw [Outcome.pure_eq, Outcome.ok_inj] at h3
    rw [← h3] at hl
    have hl : rp.1 = l := by simpa using hl
    intro x hx
    obtain ⟨k1, k2⟩ := observe_values fuel t.2 [] rp (fun x hx => nomatch hx) h6 x (by rw [hl]; exact hx)
    refine ⟨fun v => ⟨fun ⟨tot, hv⟩ => Param.value_indep _ _ _ _ _ _ hv k1, fun hv => ⟨_, hv ▸ k1⟩⟩, fun qp hq v => ?_,
      fun hq => ?_⟩
    · unfold pressureAt at k2
      rw [hq] at k2
      exact ⟨fun ⟨tot, hv⟩ => Param.value_indep _ _ _ _ _ _ hv k2, fun hv => ⟨_, hv ▸ k2⟩⟩
    · unfold pressureAt at k2
      rw [hq] at k2
      exact (Outcome.ok_inj.mp k2).symm
  · rw [Outcome.ok_inj] at h3
    rw [← h3] at hl
    cases hl

/-- C108 is violated: a simulation of 3000 cycles with temperature given by pieces, the second of which starts in cycle 2000, is
interrupted after the first recorded snapshot, in cycle 1000. The simulation had a temperature in that cycle, but replaying with
observables fails. -/
theorem C108_piecewise_violated : ∃ (q : Param) (p : AnyPlayer) (frames : List Snapshot),
    Param.mkPiecewise [(0, some (.const 1)), (2000, some (.const 2))] = .ok q ∧
    (∀ cycle ≤ 1000, q.value cycle 3000 = .ok 1) ∧ Presents demoArith p 2 1000 frames ∧ frames.length = 1 ∧
    Acceptable 1000 frames "a" ⟨none, [], true, none, []⟩ ∧
    ∀ fuel, 1 < fuel → ∃ m, main demoArith 2 fuel ⟨q, none⟩ "a" ⟨none, [], true, none, []⟩ p = .throw m := by
  have hf : Fits64 2 1000 [demoSnapshot 1].length := by constructor <;> simp [headerLength, frameLength]
  obtain ⟨r, p, -, -, -, h, -⟩ := C30_round_trip hf (fun x hx => by rw [List.mem_singleton.mp hx]; exact demo_recordable 1)
  refine ⟨.piecewise [(0, .shifted true 0 (.const 1)), (2000, .shifted false 2000 (.const 2))], .file p, _, ?_, ?_, h, rfl, ?_, ?_⟩
  · rfl
  · intro cycle hc
    simp only [Param.value, List.getLast?_cons_cons, List.getLast?_singleton, piecesValue]
    rw [decide_eq_true (by omega), decide_eq_true (by omega), if_neg (by omega), if_pos (by omega), decide_eq_true (by unfold sizeMax; omega)]
    rfl
  · exact ⟨fun t ht => (nomatch ht), by simp, by simp, fun h => absurd rfl h, fun a ha => (nomatch ha)⟩
  · intro fuel hfuel
    obtain ⟨p', -, e5⟩ := replay_eq h (observe ⟨.piecewise [(0, .shifted true 0 (.const 1)), (2000, .shifted false 2000 (.const 2))], none⟩
      (AnyPlayer.file p).totalCycles) fuel (.file p) 0 [] got_start (Nat.zero_le _) (by simpa using hfuel)
    have : (AnyPlayer.file p).totalCycles = 1000 := by rw [h.total]; rfl
    refine ⟨"Expects(totalCycles >= this->updaters.back().first)", ?_⟩
    rw [main, truncated, Outcome.ok_bind, storeAll, Outcome.ok_bind, observeAll, if_pos rfl]
    simp only
    rw [e5, this]
    simp only [List.map_cons, List.map_nil, List.drop_zero, numberedFrom, foldActs, observe, Param.value, List.getLast?_cons_cons,
      List.getLast?_singleton]
    rfl

/-- C108 is violated: averaging cannot start from the last snapshot, as if its cycle number was above the number of recorded cycles. -/
theorem C108_last_cycle_violated {A : Arith} {p : AnyPlayer} {N step fuel : Nat} {frames : List Snapshot} {e : Environment} {input : String}
    (hp : Presents A p N step frames) : ∃ m, main A N fuel e input ⟨none, [], false, some (some (frames.length * step)), []⟩ p = .throw m := by
  refine ⟨"Starting cycle is larger than a total number of recorded cycles", ?_⟩
  rw [main, truncated, Outcome.ok_bind, storeAll, Outcome.ok_bind, observeAll, if_neg (by simp), Outcome.ok_bind, average]
  simp only
  rw [hp.total, decide_eq_true (le_refl _)]
  rfl

end Rampack
