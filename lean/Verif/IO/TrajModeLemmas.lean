import Verif.IO.TrajProps
import Verif.IO.TrajModeSpec
import Verif.OutcomeLemmas
import Mathlib.Tactic.Ring
/-
Lemmas on replaying.
-/
namespace Rampack

open Rampack.Spec Rampack.Traj

namespace TrajMode

/-- Snapshots with cycle numbers, after `k` of them. -/
def numberedFrom (step : Nat) : Nat → List Snapshot → List (Nat × Snapshot)
  | _, [] => []
  | k, x :: l => ((k + 1) * step, x) :: numberedFrom step (k + 1) l

theorem numberedFrom_eq (step : Nat) : ∀ (l : List Snapshot) (k : Nat),
    numberedFrom step k l = (List.range l.length).zipWith (fun i x => ((k + i + 1) * step, x)) l
  | [], k => rfl
  | x :: l, k => by
    rw [numberedFrom, numberedFrom_eq step l (k + 1), List.length_cons, List.range_succ_eq_map, List.zipWith_cons_cons, List.zipWith_map_left]
    congr 1
    congr 1
    funext i y
    congr 2
    omega

theorem numbered_eq (step : Nat) (l : List Snapshot) : numbered step l = numberedFrom step 0 l := by
  rw [numberedFrom_eq, numbered]
  congr 1
  funext i x
  congr 2
  omega

theorem numberedFrom_snd (step : Nat) : ∀ (l : List Snapshot) (k : Nat), (numberedFrom step k l).map Prod.snd = l
  | [], k => rfl
  | x :: l, k => by rw [numberedFrom, List.map_cons, numberedFrom_snd step l (k + 1)]

/-- Those up to a number. -/
theorem filter_le {step : Nat} (hs : 0 < step) (n : Nat) : ∀ (l : List Snapshot) (k : Nat), k ≤ n →
    (numberedFrom step k l).filter (fun c => decide (c.1 ≤ n * step)) = numberedFrom step k (l.take (n - k))
  | [], k, _ => by rw [List.take_nil]; rfl
  | x :: l, k, hk => by
    rw [numberedFrom]
    by_cases h : k + 1 ≤ n
    · rw [List.filter_cons_of_pos (by exact decide_eq_true (Nat.mul_le_mul_right step h)), filter_le hs n l (k + 1) h,
        show n - k = (n - (k + 1)) + 1 by omega, List.take_succ_cons, numberedFrom]
    · have e : n = k := by omega
      subst e
      rw [Nat.sub_self, List.take_zero, numberedFrom, List.filter_cons_of_neg, List.filter_eq_nil_iff]
      · intro c hc
        have : ∀ (l : List Snapshot) (m : Nat), ∀ c ∈ numberedFrom step m l, m * step < c.1 := by
          intro l
          induction l with
          | nil => intro m c hc; cases hc
          | cons y l ih =>
            intro m c hc
            rcases List.mem_cons.mp hc with rfl | hc
            · exact (Nat.mul_lt_mul_right hs).mpr (Nat.lt_succ_self m)
            · exact lt_of_le_of_lt (Nat.mul_le_mul_right step (Nat.le_succ m)) (ih (m + 1) c hc)
        have h2 := this l _ c hc
        have h3 : n * step ≤ (n + 1) * step := Nat.mul_le_mul_right step (Nat.le_succ n)
        simp only [decide_eq_true_eq]
        omega
      · have h2 : n * step < (n + 1) * step := (Nat.mul_lt_mul_right hs).mpr (Nat.lt_succ_self n)
        simp only [decide_eq_true_eq]
        omega

/-- Those from a number. -/
theorem filter_ge {step start : Nat} (n : Nat) (h1 : ∀ i, start ≤ (i + 1) * step ↔ n ≤ i) : ∀ (l : List Snapshot) (k : Nat),
    ((numberedFrom step k l).filter (fun c => decide (start ≤ c.1))).map Prod.snd = l.drop (n - k)
  | [], k => by rw [List.drop_nil]; rfl
  | x :: l, k => by
    rw [numberedFrom]
    by_cases h : n ≤ k
    · rw [List.filter_cons_of_pos (by exact decide_eq_true ((h1 k).mpr h)), List.map_cons, filter_ge n h1 l (k + 1),
        Nat.sub_eq_zero_of_le h, Nat.sub_eq_zero_of_le (by omega)]
      rfl
    · rw [List.filter_cons_of_neg (by simpa using (not_iff_not.mpr (h1 k)).mpr h), filter_ge n h1 l (k + 1),
        show n - k = (n - (k + 1)) + 1 by omega, List.drop_succ_cons]

theorem keptFrames_eq {step : Nat} (hs : 0 < step) {l : List Snapshot} {total : Nat} (h : step ∣ total) :
    keptFrames step l (some total) = l.take (total / step) := by
  rw [keptFrames, numbered_eq]
  have e : total = total / step * step := (Nat.div_mul_cancel h).symm
  have := filter_le hs (total / step) l 0 (Nat.zero_le _)
  rw [← e] at this
  rw [this, numberedFrom_snd, Nat.sub_zero]

/-- A fold over snapshots with numbers. -/
def foldActs {σ : Type} (act : σ → Nat → Snapshot → Outcome σ) : σ → List (Nat × Snapshot) → Outcome σ
  | s, [] => .ok s
  | s, c :: l => do
    let s ← act s c.1 c.2
    foldActs act s l

theorem perform_next {A : Arith} {n : Nat} {p p' : AnyPlayer} {x : Option Snapshot} (h : perform A n p .next = .ok (x, p')) :
    ∃ y, x = some y ∧ p.nextSnapshot A n = .ok (y, p') := by
  obtain ⟨r, h1, h2⟩ := Outcome.bind_eq_ok.mp h
  have h2 : (.ok (some r.1, r.2) : Outcome _) = .ok (x, p') := h2
  rw [Outcome.ok_inj, Prod.mk.injEq] at h2
  exact ⟨r.1, h2.1.symm, by rw [h1, ← h2.2]⟩

theorem perform_jump {A : Arith} {n c : Nat} {p p' : AnyPlayer} {x : Option Snapshot} (h : perform A n p (.jump c) = .ok (x, p')) :
    ∃ y, x = some y ∧ p.jumpToSnapshot A n c = .ok (y, p') := by
  obtain ⟨r, h1, h2⟩ := Outcome.bind_eq_ok.mp h
  have h2 : (.ok (some r.1, r.2) : Outcome _) = .ok (x, p') := h2
  rw [Outcome.ok_inj, Prod.mk.injEq] at h2
  exact ⟨r.1, h2.1.symm, by rw [h1, ← h2.2]⟩

theorem perform_last {A : Arith} {n : Nat} {p p' : AnyPlayer} {x : Option Snapshot} (h : perform A n p .last = .ok (x, p')) :
    ∃ y, x = some y ∧ p.lastSnapshot A n = .ok (y, p') := by
  obtain ⟨r, h1, h2⟩ := Outcome.bind_eq_ok.mp h
  have h2 : (.ok (some r.1, r.2) : Outcome _) = .ok (x, p') := h2
  rw [Outcome.ok_inj, Prod.mk.injEq] at h2
  exact ⟨r.1, h2.1.symm, by rw [h1, ← h2.2]⟩

theorem perform_reset {A : Arith} {n : Nat} {p p' : AnyPlayer} {x : Option Snapshot} (h : perform A n p .reset = .ok (x, p')) :
    p.reset = .ok p' := by
  obtain ⟨r, h1, h2⟩ := Outcome.bind_eq_ok.mp h
  rw [Outcome.pure_eq, Outcome.ok_inj, Prod.mk.injEq] at h2
  rw [h1, ← h2.2]

/-- Replaying is a fold over the snapshots left. -/
theorem replay_eq {σ : Type} {A : Arith} {p0 : AnyPlayer} {N step : Nat} {l : List Snapshot} (hp : Presents A p0 N step l)
    (act : σ → Nat → Snapshot → Outcome σ) : ∀ (fuel : Nat) (p : AnyPlayer) (cur : Nat) (s : σ), Got A p0 N step l p cur → cur ≤ l.length →
    l.length < cur + fuel → ∃ p', Got A p0 N step l p' l.length ∧
      replay A N act fuel p s = (foldActs act s (numberedFrom step cur (l.drop cur)) >>= fun s => .ok (s, p'))
  | 0, p, cur, s, _, h1, h2 => absurd h2 (by omega)
  | fuel + 1, p, cur, s, hg, h1, h2 => by
    have hst := (got_state hp hg).2
    rw [replay, hst]
    by_cases h : cur < l.length
    · have hv : visit l step cur .next = some (l[cur]?, cur + 1) := by rw [visit, if_pos h]
      obtain ⟨p1, e1, hg1⟩ := (got_visit hp hg .next).1 _ _ hv
      obtain ⟨y, e2, e3⟩ := perform_next e1
      rw [List.getElem?_eq_getElem h, Option.some_inj] at e2
      have hc := (got_state hp hg1).1
      rw [decide_eq_true h, if_pos rfl, e3, Outcome.ok_bind, List.drop_eq_getElem_cons h, e2, numberedFrom, foldActs]
      simp only
      rw [hc]
      cases ha : act s ((cur + 1) * step) y with
      | ok s1 =>
        obtain ⟨p', hg', e⟩ := replay_eq hp act fuel p1 (cur + 1) s1 hg1 h (by omega)
        exact ⟨p', hg', by rw [Outcome.ok_bind, Outcome.ok_bind, e]⟩
      | throw m =>
        obtain ⟨p', hg', _⟩ := replay_eq hp act fuel p1 (cur + 1) s hg1 h (by omega)
        exact ⟨p', hg', rfl⟩
      | ub =>
        obtain ⟨p', hg', _⟩ := replay_eq hp act fuel p1 (cur + 1) s hg1 h (by omega)
        exact ⟨p', hg', rfl⟩
      | diverge =>
        obtain ⟨p', hg', _⟩ := replay_eq hp act fuel p1 (cur + 1) s hg1 h (by omega)
        exact ⟨p', hg', rfl⟩
    · have e : cur = l.length := by omega
      subst e
      refine ⟨p, hg, ?_⟩
      rw [decide_eq_false h, if_neg (by simp), List.drop_length]
      rfl

/-- What a player reports does not change. -/
structure SameReports (p p' : AnyPlayer) : Prop where
  numMolecules : p'.numMolecules = p.numMolecules
  cycleStep : p'.cycleStep = p.cycleStep
  totalCycles : p'.totalCycles = p.totalCycles

theorem SameReports.trans {p q r : AnyPlayer} (h : SameReports p q) (h' : SameReports q r) : SameReports p r :=
  ⟨h'.1.trans h.1, h'.2.trans h.2, h'.3.trans h.3⟩

theorem nextSnapshot_header {A : Arith} {n : Nat} {p : Player} {r : Snapshot × Player} (h : p.nextSnapshot A n = .ok r) :
    r.2.header = p.header := by
  unfold Player.nextSnapshot at h
  obtain ⟨_, h1, h⟩ := Outcome.bind_eq_ok.mp h
  obtain ⟨_, h2, h⟩ := Outcome.bind_eq_ok.mp h
  cases hs : p.stream with
  | none => rw [hs] at h; cases h
  | some s =>
    rw [hs] at h
    obtain ⟨_, h3, h⟩ := Outcome.bind_eq_ok.mp h
    obtain ⟨_, h4, h⟩ := Outcome.bind_eq_ok.mp h
    obtain ⟨_, h5, h⟩ := Outcome.bind_eq_ok.mp h
    cases h
    rfl

theorem jumpToSnapshot_header {A : Arith} {n c : Nat} {p : Player} {r : Snapshot × Player} (h : p.jumpToSnapshot A n c = .ok r) :
    r.2.header = p.header := by
  unfold Player.jumpToSnapshot at h
  cases hs : p.stream with
  | none => rw [hs] at h; cases h
  | some s =>
    rw [hs] at h
    obtain ⟨_, h3, h⟩ := Outcome.bind_eq_ok.mp h
    split at h
    · cases h
    · obtain ⟨_, h4, h⟩ := Outcome.bind_eq_ok.mp h
      obtain ⟨_, h5, h⟩ := Outcome.bind_eq_ok.mp h
      obtain ⟨_, h6, h⟩ := Outcome.bind_eq_ok.mp h
      have := nextSnapshot_header h
      exact this

theorem sameReports_file {p p' : Player} (h : p'.header = p.header) : SameReports (.file p) (.file p') := by
  constructor <;> simp only [AnyPlayer.numMolecules, AnyPlayer.cycleStep, AnyPlayer.totalCycles, Player.totalCycles, h]

theorem sameReports_truncated {p p' : AnyPlayer} {t : Nat} (h : SameReports p p') : SameReports (.truncated p t) (.truncated p' t) :=
  ⟨h.1, h.2, rfl⟩

theorem next_same {A : Arith} {n : Nat} : ∀ {p : AnyPlayer} {r : Snapshot × AnyPlayer}, p.nextSnapshot A n = .ok r → SameReports p r.2
  | .file p, r, h => by
    rw [AnyPlayer.nextSnapshot] at h
    obtain ⟨q, h1, h⟩ := Outcome.bind_eq_ok.mp h
    cases h
    exact sameReports_file (nextSnapshot_header h1)
  | .truncated p t, r, h => by
    rw [AnyPlayer.nextSnapshot] at h
    obtain ⟨_, _, h⟩ := Outcome.bind_eq_ok.mp h
    obtain ⟨q, h1, h⟩ := Outcome.bind_eq_ok.mp h
    cases h
    exact sameReports_truncated (next_same h1)

theorem jump_same {A : Arith} {n c : Nat} : ∀ {p : AnyPlayer} {r : Snapshot × AnyPlayer}, p.jumpToSnapshot A n c = .ok r → SameReports p r.2
  | .file p, r, h => by
    rw [AnyPlayer.jumpToSnapshot] at h
    obtain ⟨q, h1, h⟩ := Outcome.bind_eq_ok.mp h
    cases h
    exact sameReports_file (jumpToSnapshot_header h1)
  | .truncated p t, r, h => by
    rw [AnyPlayer.jumpToSnapshot] at h
    obtain ⟨_, _, h⟩ := Outcome.bind_eq_ok.mp h
    obtain ⟨q, h1, h⟩ := Outcome.bind_eq_ok.mp h
    cases h
    exact sameReports_truncated (jump_same h1)

theorem last_same {A : Arith} {n : Nat} : ∀ {p : AnyPlayer} {r : Snapshot × AnyPlayer}, p.lastSnapshot A n = .ok r → SameReports p r.2
  | .file p, r, h => by
    rw [AnyPlayer.lastSnapshot] at h
    obtain ⟨q, h1, h⟩ := Outcome.bind_eq_ok.mp h
    cases h
    exact sameReports_file (jumpToSnapshot_header h1)
  | .truncated p t, r, h => by
    rw [AnyPlayer.lastSnapshot] at h
    obtain ⟨q, h1, h⟩ := Outcome.bind_eq_ok.mp h
    cases h
    exact sameReports_truncated (jump_same h1)

theorem reset_reports : ∀ {p p' : AnyPlayer}, p.reset = .ok p' → SameReports p p'
  | .file p, p', h => by
    rw [AnyPlayer.reset] at h
    obtain ⟨q, h1, h⟩ := Outcome.bind_eq_ok.mp h
    cases h
    unfold Player.reset at h1
    cases hs : p.stream with
    | none => rw [hs] at h1; cases h1
    | some s => rw [hs] at h1; cases h1; exact sameReports_file rfl
  | .truncated p t, p', h => by
    rw [AnyPlayer.reset] at h
    obtain ⟨q, h1, h⟩ := Outcome.bind_eq_ok.mp h
    cases h
    exact sameReports_truncated (reset_reports h1)

theorem perform_same {A : Arith} {n : Nat} {p p' : AnyPlayer} {v : Visit} {x : Option Snapshot} (h : perform A n p v = .ok (x, p')) :
    SameReports p p' := by
  cases v with
  | next => obtain ⟨y, _, e⟩ := perform_next h; exact next_same e
  | reset => exact reset_reports (perform_reset h)
  | jump c => obtain ⟨y, _, e⟩ := perform_jump h; exact jump_same e
  | last => obtain ⟨y, _, e⟩ := perform_last h; exact last_same e

theorem performAll_same {A : Arith} {n : Nat} : ∀ {vs : List Visit} {p p' : AnyPlayer} {x : List (Option Snapshot)},
    performAll A n p vs = .ok (x, p') → SameReports p p'
  | [], p, p', x, h => by
    rw [performAll, Outcome.ok_inj, Prod.mk.injEq] at h
    rw [← h.2]
    exact ⟨rfl, rfl, rfl⟩
  | v :: vs, p, p', x, h => by
    rw [performAll] at h
    obtain ⟨q, h1, h⟩ := Outcome.bind_eq_ok.mp h
    obtain ⟨q', h2, h⟩ := Outcome.bind_eq_ok.mp h
    cases h
    exact (perform_same h1).trans (performAll_same h2)

/-- What a player reports after some visits. -/
theorem got_reports {A : Arith} {p0 p : AnyPlayer} {N step cur : Nat} {l : List Snapshot} (hp : Presents A p0 N step l)
    (h : Got A p0 N step l p cur) : p.numMolecules = N ∧ p.cycleStep = step ∧ p.totalCycles = l.length * step := by
  obtain ⟨vs, xs, _, h2⟩ := h
  have := performAll_same h2
  exact ⟨this.1.trans hp.1, this.2.trans hp.2, this.3.trans hp.3⟩

theorem recordSnapshot_same {A : Arith} {r r' : Recorder} {x : Snapshot} {c : Nat} (h : r.recordSnapshot A x c = .ok r') :
    r'.cycleStep = r.cycleStep ∧ r'.numSnapshots = r.numSnapshots + 1 := by
  unfold Recorder.recordSnapshot at h
  obtain ⟨_, h1, h⟩ := Outcome.bind_eq_ok.mp h
  obtain ⟨_, h2, h⟩ := Outcome.bind_eq_ok.mp h
  obtain ⟨_, h3, h⟩ := Outcome.bind_eq_ok.mp h
  obtain ⟨_, h4, h⟩ := Outcome.bind_eq_ok.mp h
  obtain ⟨s, h5, h⟩ := Outcome.bind_eq_ok.mp h
  rw [Outcome.pure_eq, Outcome.ok_inj] at h
  rw [← h]
  exact ⟨rfl, rfl⟩

/-- Recording of replayed snapshots is recording of them in turn. -/
theorem record_fold {A : Arith} {step : Nat} : ∀ (l : List Snapshot) (k : Nat) (r : Recorder), r.cycleStep = step → r.numSnapshots = k →
    (k + l.length) * step < 2 ^ 64 →
    foldActs (fun r cycle x => r.recordSnapshot A x cycle) r (numberedFrom step k l) = recordAll A r l
  | [], k, r, _, _, _ => rfl
  | x :: l, k, r, h1, h2, h3 => by
    rw [numberedFrom, foldActs, recordAll]
    have hk : k * step < 2 ^ 64 := lt_of_le_of_lt (Nat.mul_le_mul_right step (Nat.le_add_right _ _)) h3
    have e : r.lastCycle + r.cycleStep = (k + 1) * step := by
      rw [Recorder.lastCycle, h1, h2, u64, Nat.mod_eq_of_lt hk]
      ring
    rw [e]
    cases hr : r.recordSnapshot A x ((k + 1) * step) with
    | ok r' =>
      obtain ⟨e1, e2⟩ := recordSnapshot_same hr
      rw [Outcome.ok_bind, Outcome.ok_bind]
      refine record_fold l (k + 1) r' (e1.trans h1) (by rw [e2, h2]) ?_
      rw [List.length_cons] at h3
      rw [show k + 1 + l.length = k + (l.length + 1) by omega]
      exact h3
    | throw m => rfl
    | ub => rfl
    | diverge => rfl

end TrajMode

end Rampack
