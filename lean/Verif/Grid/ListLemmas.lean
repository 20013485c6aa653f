import Verif.Grid.Model
import Mathlib.Data.List.Nodup
import Mathlib.Data.List.Perm.Subperm
import Mathlib.Logic.Function.Basic
/-
Helper lemmas: the intrusive linked lists of the neighbour grid refine plain lists.
-/
namespace Rampack.Grid

theorem vget_eq_of_getElem? {α : Type} {xs : List α} {i : Nat} {a : α} (h : xs[i]? = some a) : vget xs i = .ok a := by
  simp [vget, h]

theorem mapM_ok {α β : Type} {f : α → Outcome β} {g : α → β} :
    ∀ {l : List α}, (∀ a ∈ l, f a = .ok (g a)) → l.mapM f = .ok (l.map g)
  | [], _ => rfl
  | a :: l, h => by
    rw [List.mapM_cons, h a (by simp), Outcome.ok_bind, mapM_ok (fun x hx => h x (by simp [hx]))]
    rfl

/-- The list starting at `head` in the successor array is exactly `l`. -/
def Chain (succ : List Nat) : Nat → List Nat → Prop
  | head, [] => head = LIST_END
  | head, a :: l => head = a ∧ a < succ.length ∧ ∃ s, succ[a]? = some s ∧ Chain succ s l

theorem Chain.lt {succ : List Nat} : ∀ {l : List Nat} {head : Nat}, Chain succ head l → ∀ a ∈ l, a < succ.length
  | [], _, _, _, h => by simp at h
  | b :: l, head, ⟨_, hb, s, _, hc⟩, a, h => by
    rcases List.mem_cons.mp h with rfl | h
    · exact hb
    · exact hc.lt a h

theorem Chain.length_le {succ : List Nat} {l : List Nat} {head : Nat} (h : Chain succ head l) (hn : l.Nodup) :
    l.length ≤ succ.length := by
  have hs : l ⊆ List.range succ.length := fun a ha => List.mem_range.mpr (h.lt a ha)
  simpa using (List.subperm_of_subset hn hs).length_le

theorem Chain.frame {succ succ' : List Nat} (hl : succ'.length = succ.length) :
    ∀ {l : List Nat} {head : Nat}, Chain succ head l → (∀ a ∈ l, succ'[a]? = succ[a]?) → Chain succ' head l
  | [], _, h, _ => h
  | b :: l, head, ⟨h1, hb, s, hs, hc⟩, hf =>
    ⟨h1, by omega, s, by rw [hf b (by simp), hs], hc.frame hl (fun a ha => hf a (by simp [ha]))⟩

theorem traverse_chain {succ : List Nat} (hlen : succ.length ≤ LIST_END) : ∀ {l : List Nat} {head fuel : Nat},
    Chain succ head l → l.length < fuel → traverse succ fuel head = .ok l
  | [], head, fuel + 1, h, _ => by
    rw [traverse, if_neg (by rw [h]; simp)]
  | a :: l, head, fuel + 1, ⟨h1, hb, s, hs, hc⟩, hf => by
    subst h1
    rw [traverse, if_pos (by omega), vget_eq_of_getElem? hs, Outcome.ok_bind,
      traverse_chain hlen hc (by simpa using hf)]
    rfl

/-- The loop of `remove`, started at an element of the chain other than the one looked for. -/
theorem removeLoop_chain {succ : List Nat} {idx : Nat} (hlen : succ.length ≤ LIST_END) (hidx : idx < succ.length) :
    ∀ {l : List Nat} {head fuel : Nat}, Chain succ head l → l.Nodup → l.head? ≠ some idx → l.length < fuel →
      ∃ succ', removeLoop idx fuel succ head = .ok succ' ∧ succ'.length = succ.length ∧
        Chain succ' head (l.erase idx) ∧ (∀ j, j ∉ l → succ'[j]? = succ[j]?)
  | [], head, fuel + 1, h, _, _, _ => by
    refine ⟨succ, ?_, rfl, h, fun _ _ => rfl⟩
    rw [removeLoop, if_neg (by rw [h]; simp)]
  | a :: l, head, fuel + 1, ⟨h1, hb, s, hs, hc⟩, hn, hh, hf => by
    subst h1
    rw [List.nodup_cons] at hn
    have hne : head ≠ idx := by simpa using hh
    rw [removeLoop, if_pos (by omega), vget_eq_of_getElem? hs, Outcome.ok_bind]
    rw [List.erase_cons_tail (by simpa using hne)]
    by_cases hsi : s = idx
    · subst hsi
      cases l with
      | nil =>
        have : s = LIST_END := hc
        omega
      | cons b l =>
        obtain ⟨rfl, hb', s2, hs2, hc2⟩ := hc
        rw [List.nodup_cons] at hn
        have hnl : head ∉ l := fun h => hn.1 (by simp [h])
        rw [if_pos rfl, vget_eq_of_getElem? hs2, Outcome.ok_bind, vset_ok hb, Outcome.ok_bind,
          vset_ok (by simpa using hb')]
        refine ⟨_, rfl, by simp, ?_, ?_⟩
        · rw [List.erase_cons_head]
          refine ⟨rfl, by simpa using hb, s2, ?_, ?_⟩
          · rw [List.getElem?_set_ne (Ne.symm hne), List.getElem?_set_self (by simpa using hb)]
          · apply hc2.frame (by simp)
            intro x hx
            have h1 : s ≠ x := fun h => hn.2.1 (h ▸ hx)
            have h2 : head ≠ x := fun h => hnl (h ▸ hx)
            rw [List.getElem?_set_ne h1, List.getElem?_set_ne h2]
        · intro j hj
          have h1 : s ≠ j := fun h => hj (by simp [h])
          have h2 : head ≠ j := fun h => hj (by simp [h])
          rw [List.getElem?_set_ne h1, List.getElem?_set_ne h2]
    · rw [if_neg hsi]
      have hh' : l.head? ≠ some idx := by
        cases l with
        | nil => simp
        | cons b l => obtain ⟨rfl, _⟩ := hc; simpa using hsi
      obtain ⟨succ', e, el, ec, ef⟩ := removeLoop_chain hlen hidx hc hn.2 hh' (by simpa using hf)
      refine ⟨succ', e, el, ⟨rfl, by omega, s, ?_, ec⟩, fun j hj => ef j (fun h => hj (by simp [h]))⟩
      rw [ef head hn.1, hs]

/-- The arrays of the grid represent the assignment of lists of identifiers to cell numbers. -/
structure Rep (g : NG) (cells : Nat → List Nat) : Prop where
  succ_le : g.succ.length ≤ LIST_END
  chain : ∀ c (h : c < g.heads.length), Chain g.succ g.heads[c] (cells c)
  out : ∀ c, g.heads.length ≤ c → cells c = []
  nodup : ∀ c, (cells c).Nodup
  disj : ∀ c c' i, i ∈ cells c → i ∈ cells c' → c = c'

namespace Rep

variable {g : NG} {cells : Nat → List Nat}

theorem lt (h : Rep g cells) {c i : Nat} (hi : i ∈ cells c) : i < g.succ.length := by
  by_cases hc : c < g.heads.length
  · exact (h.chain c hc).lt i hi
  · rw [h.out c (by omega)] at hi; simp at hi

theorem listFrom (h : Rep g cells) {c : Nat} (hc : c < g.heads.length) :
    (vget g.heads c >>= g.listFrom) = .ok (cells c) := by
  rw [vget_ok hc, Outcome.ok_bind, NG.listFrom]
  apply traverse_chain h.succ_le (h.chain c hc)
  have := (h.chain c hc).length_le (h.nodup c)
  omega

theorem addAt (h : Rep g cells) {idx c : Nat} (hi : idx < g.succ.length) (hc : c < g.heads.length)
    (hfree : ∀ c', idx ∉ cells c') :
    ∃ g', g.addAt idx c = .ok g' ∧ Rep g' (Function.update cells c (idx :: cells c)) ∧
      g'.heads.length = g.heads.length ∧ g'.succ.length = g.succ.length ∧
      g' = { g with heads := g'.heads, succ := g'.succ } := by
  refine ⟨{ g with heads := g.heads.set c idx, succ := g.succ.set idx g.heads[c] }, ?_, ?_, by simp, by simp, rfl⟩
  · rw [NG.addAt, vget_ok hc, Outcome.ok_bind, vset_ok hi, Outcome.ok_bind, vset_ok hc]; rfl
  · have hf : ∀ c' (hc' : c' < g.heads.length), Chain (g.succ.set idx g.heads[c]) g.heads[c'] (cells c') := by
      intro c' hc'
      apply (h.chain c' hc').frame (by simp)
      intro a ha
      exact List.getElem?_set_ne (fun e : idx = a => hfree c' (e ▸ ha))
    constructor
    · simpa using h.succ_le
    · intro c' hc'
      simp only [List.length_set] at hc'
      by_cases e : c' = c
      · subst e
        simp only [List.getElem_set_self, Function.update_self]
        exact ⟨rfl, by simpa using hi, _, by rw [List.getElem?_set_self hi], hf c' _⟩
      · rw [Function.update_of_ne e]
        have : (g.heads.set c idx)[c']'(by simpa using hc') = g.heads[c'] := List.getElem_set_ne (Ne.symm e) _
        rw [this]; exact hf c' hc'
    · intro c' hc'
      simp only [List.length_set] at hc'
      rw [Function.update_of_ne (by omega)]
      exact h.out c' hc'
    · intro c'
      by_cases e : c' = c
      · subst e; rw [Function.update_self, List.nodup_cons]; exact ⟨hfree c', h.nodup c'⟩
      · rw [Function.update_of_ne e]; exact h.nodup c'
    · intro c1 c2 i h1 h2
      by_cases e1 : c1 = c
      · by_cases e2 : c2 = c
        · omega
        · subst e1
          rw [Function.update_self] at h1; rw [Function.update_of_ne e2] at h2
          rcases List.mem_cons.mp h1 with rfl | h1
          · exact absurd h2 (hfree c2)
          · exact h.disj _ _ i h1 h2
      · by_cases e2 : c2 = c
        · subst e2
          rw [Function.update_self] at h2; rw [Function.update_of_ne e1] at h1
          rcases List.mem_cons.mp h2 with rfl | h2
          · exact absurd h1 (hfree c1)
          · exact h.disj _ _ i h1 h2
        · rw [Function.update_of_ne e1] at h1; rw [Function.update_of_ne e2] at h2
          exact h.disj _ _ i h1 h2

private theorem update_erase (h : Rep g cells) {idx c : Nat} {heads' succ' : List Nat} (hc : c < g.heads.length)
    (hh : heads'.length = g.heads.length) (hs : succ'.length = g.succ.length)
    (hother : ∀ c' (hc' : c' < g.heads.length), c' ≠ c → heads'[c']? = some g.heads[c'])
    (hch : ∃ hd, heads'[c]? = some hd ∧ Chain succ' hd ((cells c).erase idx))
    (hfr : ∀ j, j ∉ cells c → succ'[j]? = g.succ[j]?) :
    Rep { g with heads := heads', succ := succ' } (Function.update cells c ((cells c).erase idx)) := by
  constructor
  · simpa [hs] using h.succ_le
  · intro c' hc'
    simp only [hh] at hc'
    by_cases e : c' = c
    · subst e
      obtain ⟨hd, e1, e2⟩ := hch
      rw [List.getElem?_eq_getElem (by omega)] at e1
      simp only [Function.update_self]
      rw [Option.some.inj e1]; exact e2
    · rw [Function.update_of_ne e]
      have := hother c' hc' e
      rw [List.getElem?_eq_getElem (by omega)] at this
      show Chain succ' heads'[c'] _
      rw [Option.some.inj this]
      apply (h.chain c' hc').frame hs
      intro a ha
      exact hfr a (fun hx => e (h.disj _ _ a ha hx))
  · intro c' hc'
    simp only [hh] at hc'
    rw [Function.update_of_ne (by omega)]
    exact h.out c' hc'
  · intro c'
    by_cases e : c' = c
    · subst e; rw [Function.update_self]; exact (h.nodup c').erase _
    · rw [Function.update_of_ne e]; exact h.nodup c'
  · intro c1 c2 i h1 h2
    have key : ∀ c', i ∈ Function.update cells c ((cells c).erase idx) c' → i ∈ cells c' := by
      intro c' hi
      by_cases e : c' = c
      · subst e; rw [Function.update_self] at hi; exact List.mem_of_mem_erase hi
      · rwa [Function.update_of_ne e] at hi
    exact h.disj _ _ i (key c1 h1) (key c2 h2)

theorem removeAt (h : Rep g cells) {idx c : Nat} (hi : idx < g.succ.length) (hc : c < g.heads.length) :
    ∃ g', g.removeAt idx c = .ok g' ∧ Rep g' (Function.update cells c ((cells c).erase idx)) ∧
      g'.heads.length = g.heads.length ∧ g'.succ.length = g.succ.length ∧
      g' = { g with heads := g'.heads, succ := g'.succ } := by
  have hch := h.chain c hc
  rw [NG.removeAt, vget_ok hc, Outcome.ok_bind]
  by_cases he : g.heads[c] = idx
  · rw [if_pos he, vget_ok hi, Outcome.ok_bind, vset_ok hc, Outcome.ok_bind, vset_ok hi, Outcome.ok_bind]
    refine ⟨_, rfl, ?_, by simp, by simp, rfl⟩
    have hcc : ∃ l, cells c = idx :: l := by
      cases hl : cells c with
      | nil => rw [hl] at hch; have : g.heads[c] = LIST_END := hch; have := h.succ_le; omega
      | cons a l => rw [hl] at hch; exact ⟨l, by rw [← hch.1, he]⟩
    obtain ⟨l, hl⟩ := hcc
    have hn := h.nodup c
    rw [hl, List.nodup_cons] at hn
    rw [hl] at hch
    obtain ⟨_, _, s, hs, hcl⟩ := hch
    have hs' : g.succ[idx] = s := by rw [List.getElem?_eq_getElem hi] at hs; exact Option.some.inj hs
    apply update_erase h hc (by simp) (by simp)
    · intro c' hc' e
      rw [List.getElem?_set_ne (Ne.symm e), List.getElem?_eq_getElem hc']
    · refine ⟨_, List.getElem?_set_self hc, ?_⟩
      rw [hl, List.erase_cons_head, hs']
      exact hcl.frame (by simp) (fun a ha => List.getElem?_set_ne (fun e : idx = a => hn.1 (e ▸ ha)))
    · intro j hj
      exact List.getElem?_set_ne (fun e => hj (by rw [hl, ← e]; simp))
  · rw [if_neg he]
    have hh : (cells c).head? ≠ some idx := by
      cases hl : cells c with
      | nil => simp
      | cons a l => rw [hl] at hch; simp; rw [← hch.1]; exact he
    obtain ⟨succ', e, el, ec, ef⟩ := removeLoop_chain h.succ_le hi hch (h.nodup c) hh
      (fuel := g.succ.length + 2) (by have := hch.length_le (h.nodup c); omega)
    rw [e, Outcome.ok_bind]
    refine ⟨_, rfl, ?_, by simp, by simpa using el, rfl⟩
    exact update_erase h hc rfl el (fun c' hc' _ => List.getElem?_eq_getElem hc')
      ⟨_, List.getElem?_eq_getElem hc, ec⟩ ef

end Rep

theorem rep_clear (g : NG) (hs : g.succ.length ≤ LIST_END) : Rep g.clear (fun _ => []) := by
  constructor
  · simpa [NG.clear] using hs
  · intro c hc
    simp [NG.clear, Chain]
  · intros; rfl
  · intro; exact List.nodup_nil
  · intro c c' i h; simp at h

end Rampack.Grid
