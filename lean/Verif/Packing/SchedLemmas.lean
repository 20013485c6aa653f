import Verif.Packing.Sched
import Verif.Packing.InvLemmas
/-
Helper lemmas: results of the parallel loops.
-/
namespace Rampack.Packing

open Rampack.Spec Rampack.Grid

variable {α : Type}

/-- What a thread has not counted yet. -/
def Thread.left (t : Thread α) : List α := t.busy.toList ++ t.todo

/-- Everything not counted yet. -/
def LoopState.left (s : LoopState α) : List α := (s.threads.map Thread.left).flatten

theorem left_split (flag : Bool) (pre post : List (Thread α)) (t : Thread α) :
    (LoopState.mk flag (pre ++ t :: post)).left = (pre.map Thread.left).flatten ++ (t.left ++ (post.map Thread.left).flatten) := by
  simp [LoopState.left]

theorem result_split (flag : Bool) (pre post : List (Thread α)) (t : Thread α) :
    (LoopState.mk flag (pre ++ t :: post)).result = (pre.map Thread.acc).sum + (t.acc + (post.map Thread.acc).sum) := by
  simp [LoopState.result]

/-- The invariant of the loop. -/
structure LoopInv (e : Bool) (F : α → Nat) (all : List α) (s : LoopState α) : Prop where
  sub : ∀ c ∈ s.left, c ∈ all
  full : e = false → s.result + (s.left.map F).sum = (all.map F).sum
  flag : s.flag = true → 0 < s.result
  pos : 0 < s.result → ∃ c ∈ all, 0 < F c
  found : e = true → (∃ c ∈ all, 0 < F c) → 0 < s.result ∨ ∃ c ∈ s.left, 0 < F c

theorem loop_step {e : Bool} {f : α → Outcome Nat} {F : α → Nat} {all : List α}
    (hf : ∀ c ∈ all, ∃ k, f c = .ok k ∧ (0 < k ↔ 0 < F c) ∧ (e = false → k = F c)) {s s' : LoopState α}
    (h : LoopInv e F all s) (st : SchedStep e f s s') : LoopInv e F all s' := by
  cases st with
  | skip pre post c rest acc he =>
    refine ⟨?_, fun h' => (by rw [he] at h'; exact absurd h' (by simp)), ?_, ?_, ?_⟩
    · intro x hx
      apply h.sub
      rw [left_split] at hx ⊢
      simp only [List.mem_append, Thread.left, Option.toList_none, List.nil_append, List.mem_cons] at hx ⊢
      tauto
    · intro _
      have := h.flag rfl
      rw [result_split] at this ⊢; exact this
    · intro hp
      apply h.pos
      rw [result_split] at hp ⊢; exact hp
    · intro _ _
      left
      have := h.flag rfl
      rw [result_split] at this ⊢; exact this
  | enter flag pre post c rest acc =>
    have hl : (LoopState.mk flag (pre ++ (⟨rest, some c, acc⟩ : Thread α) :: post)).left =
        (LoopState.mk flag (pre ++ (⟨c :: rest, none, acc⟩ : Thread α) :: post)).left := by
      rw [left_split, left_split]; simp [Thread.left]
    have hr : (LoopState.mk flag (pre ++ (⟨rest, some c, acc⟩ : Thread α) :: post)).result =
        (LoopState.mk flag (pre ++ (⟨c :: rest, none, acc⟩ : Thread α) :: post)).result := by
      rw [result_split, result_split]
    exact ⟨by rw [hl]; exact h.sub, by rw [hl, hr]; exact h.full, by rw [hr]; exact h.flag, by rw [hr]; exact h.pos,
      by rw [hl, hr]; exact h.found⟩
  | finish flag pre post c rest acc n hn =>
    have hc : c ∈ all := h.sub c (by rw [left_split]; simp [Thread.left])
    obtain ⟨k, ek, h1, h2⟩ := hf c hc
    have hnk : n = k := by rw [ek] at hn; injection hn with hn; exact hn.symm
    subst hnk
    have hres : (LoopState.mk (flag || (e && decide (n > 0))) (pre ++ (⟨rest, none, acc + n⟩ : Thread α) :: post)).result =
        (LoopState.mk flag (pre ++ (⟨rest, some c, acc⟩ : Thread α) :: post)).result + n := by
      rw [result_split, result_split]; simp only; omega
    refine ⟨?_, ?_, ?_, ?_, ?_⟩
    · intro x hx
      apply h.sub
      rw [left_split] at hx ⊢
      simp only [List.mem_append, Thread.left, Option.toList_none, List.nil_append, Option.toList_some, List.mem_singleton] at hx ⊢
      tauto
    · intro he
      rw [hres, ← h.full he, left_split, left_split]
      simp only [Thread.left, Option.toList_none, Option.toList_some, List.nil_append, List.map_append, List.sum_append, List.map_cons,
        List.map_nil, List.sum_cons, List.sum_nil, h2 he]
      omega
    · intro hfl
      rw [hres]
      simp only [Bool.or_eq_true, Bool.and_eq_true, decide_eq_true_eq] at hfl
      rcases hfl with hfl | hfl
      · have := h.flag hfl; omega
      · omega
    · intro hp
      rw [hres] at hp
      by_cases hk : 0 < n
      · exact ⟨c, hc, h1.mp hk⟩
      · exact h.pos (by omega)
    · intro he hex
      rw [hres]
      rcases h.found he hex with hp | ⟨x, hx, hpos⟩
      · left; omega
      · rw [left_split] at hx
        simp only [List.mem_append, Thread.left, Option.toList_some, List.mem_singleton] at hx
        by_cases hxc : x = c
        · subst hxc; left; have := h1.mpr hpos; omega
        · right
          refine ⟨x, ?_, hpos⟩
          rw [left_split]
          simp only [List.mem_append, Thread.left, Option.toList_none, List.nil_append]
          tauto

theorem loop_result {e : Bool} {f : α → Outcome Nat} {F : α → Nat} {all : List α}
    (hf : ∀ c ∈ all, ∃ k, f c = .ok k ∧ (0 < k ↔ 0 < F c) ∧ (e = false → k = F c)) {k : Nat} (h : LoopResult e f all k) :
    (0 < k ↔ 0 < (all.map F).sum) ∧ (e = false → k = (all.map F).sum) := by
  obtain ⟨parts, s, hp, hs, hd, rfl⟩ := h
  have hleft : (LoopState.start parts).left = parts.flatten := by
    simp [LoopState.left, LoopState.start, Thread.left]
    rw [List.map_congr_left (g := id)]
    · simp
    · intro a _; simp [Thread.left]
  have hres : (LoopState.start parts).result = 0 := by
    simp [LoopState.result, LoopState.start]
    rw [List.map_congr_left (g := fun _ => 0)]
    · simp
    · intro a _; rfl
  have inv : LoopInv e F all s := by
    clear hd
    induction hs with
    | refl =>
      refine ⟨?_, ?_, ?_, ?_, ?_⟩
      · intro c hc; rw [hleft] at hc; exact hp.mem_iff.mp hc
      · intro _; rw [hres, hleft, Nat.zero_add, (hp.map F).sum_eq]
      · intro h; cases h
      · intro h; rw [hres] at h; omega
      · rintro _ ⟨c, hc, hpos⟩; right; exact ⟨c, by rw [hleft]; exact hp.mem_iff.mpr hc, hpos⟩
    | tail _ st ih => exact loop_step hf ih st
  have hl : s.left = [] := by
    unfold LoopState.left
    rw [List.flatten_eq_nil_iff]
    intro l hl
    obtain ⟨t, ht, rfl⟩ := List.mem_map.mp hl
    obtain ⟨h1, h2⟩ := hd t ht
    simp [Thread.left, h1, h2]
  have hsum : 0 < (all.map F).sum ↔ ∃ c ∈ all, 0 < F c := by
    rw [Nat.pos_iff_ne_zero, ne_eq, List.sum_eq_zero_iff]
    simp only [List.mem_map, forall_exists_index, and_imp, forall_apply_eq_imp_iff₂, not_forall]
    constructor
    · rintro ⟨c, hc, hne⟩; exact ⟨c, hc, Nat.pos_of_ne_zero hne⟩
    · rintro ⟨c, hc, hne⟩; exact ⟨c, hc, by omega⟩
  have hfull : e = false → s.result = (all.map F).sum := by
    intro he
    have := inv.full he
    rw [hl] at this; simpa using this
  refine ⟨?_, hfull⟩
  cases e with
  | false => rw [hfull rfl]
  | true =>
    rw [hsum]
    constructor
    · exact inv.pos
    · intro hex
      rcases inv.found rfl hex with h | ⟨c, hc, -⟩
      · exact h
      · rw [hl] at hc; cases hc

end Rampack.Packing
